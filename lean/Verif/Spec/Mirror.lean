import Verif.Spec.Grammar
/-
Grammars that differ in sections ADDRESS does not lead to, in the names of sections, or in scores.
-/
namespace AS
variable {F : Type}

/-- The names that ADDRESS leads to in some meta sections. -/
inductive Leads (ms : List (Str × List (List Str))) : Str → Prop
  | root : Leads ms c!"ADDRESS"
  | step {a n : Str} {rules : List (List Str)} {refs : List Str} :
      Leads ms a → (a, rules) ∈ ms → refs ∈ rules → n ∈ refs → Leads ms n

/-- Two grammars have the same sections among those ADDRESS leads to in the first. -/
def SameFromRoot (G H : Grammar F) : Prop :=
  ∀ a, Leads G.metaNames a →
    (∀ rules, (a, rules) ∈ G.metaNames ↔ (a, rules) ∈ H.metaNames) ∧
    (∀ rules, (a, rules) ∈ G.ruleSections ↔ (a, rules) ∈ H.ruleSections)

/-- The second grammar is the first with the sections renamed. -/
def Renamed (ρ : Str → Str) (G H : Grammar F) : Prop :=
  H.metaNames = G.metaNames.map (fun s => (ρ s.1, s.2.map (·.map ρ))) ∧
  H.ruleSections = G.ruleSections.map (fun s => (ρ s.1, s.2))

/-- The second grammar is the first with other scores. -/
def Rescored (σ : F → F) (G H : Grammar F) : Prop :=
  H.metaNames = G.metaNames ∧
  H.ruleSections = G.ruleSections.map (fun s => (s.1, s.2.map (fun r => { r with score := σ r.score })))

/-- A change of scores that sums, averages and comparisons follow. -/
structure Scaling (fo : FloatOps F) (σ : F → F) : Prop where
  zero : σ fo.zero = fo.zero
  add : ∀ x y, σ (fo.add x y) = fo.add (σ x) (σ y)
  divNat : ∀ x n, σ (fo.divNat x n) = fo.divNat (σ x) n
  lt : ∀ x y, fo.lt (σ x) (σ y) = fo.lt x y

/-- The score of a match, which is not negative, is scaled; the score -1 of no match stays. -/
def ScaledScore (fo : FloatOps F) (σ : F → F) (x y : F) : Prop :=
  (x = fo.ofInt (-1) ∧ y = fo.ofInt (-1)) ∨ ((x = fo.zero ∨ fo.lt fo.zero x = true) ∧ y = σ x)

/-- Named lists with the same names in the same order and the same members, in whatever order and however often. -/
inductive Alike {α : Type} : List (Str × List α) → List (Str × List α) → Prop
  | nil : Alike [] []
  | cons {n : Str} {xs ys : List α} {as bs : List (Str × List α)} :
      (∀ x, x ∈ xs ↔ x ∈ ys) → Alike as bs → Alike ((n, xs) :: as) ((n, ys) :: bs)

/-- The lines of a text written as headers, each with the lines below it. -/
def linesOf (bs : List (Str × List Str)) : List Str := bs.flatMap (fun b => b.1 :: b.2)

end AS
