import Verif.Spec.Search
/-
Specification vocabulary for reclassification and the choice of the best match.
-/
namespace AS
variable {F : Type}

/-- The output classes of a sequence of rules. -/
def outputs (rs : List (Rule F)) : List OutType := rs.flatMap (·.outClass)

/-- The tokens with the given classes instead of their own. -/
def retag : List Token → List InType → List OutType → List Token
  | t :: ts, i :: is, o :: os => { t with inclass := [i], outclass := o } :: retag ts is os
  | _, _, _ => []

/-- What IEEE comparison satisfies, NaN included. -/
structure LtLaws (fo : FloatOps F) : Prop where
  irrefl : ∀ a, fo.lt a a = false
  trans  : ∀ a b c, fo.lt a b = true → fo.lt b c = true → fo.lt a c = true

/-- The `i`-th of a list of scores is the first that is not exceeded by any other. -/
def FirstBest (fo : FloatOps F) (scores : List F) (i : Nat) (s : F) : Prop :=
  scores[i]? = some s ∧ (∀ x ∈ scores, fo.lt s x = false) ∧ (∀ j < i, scores[j]? ≠ some s)

/-- Average of the rule scores. -/
def average (fo : FloatOps F) (rs : List (Rule F)) : F :=
  fo.divNat ((rs.map (·.score)).foldl fo.add fo.zero) rs.length

/-- Text of a match: input classes, arrow, output classes, separated by single blanks. -/
def patternText (ts : List Token) : Str :=
  joinWith c!" " (ts.map (fun t => InType.setAsString t.inclass) ++ [c!"->"] ++ ts.map (fun t => t.outclass.asString))

/-- The grammar has the section the search starts from. -/
def HasRoot (G : Grammar F) : Prop :=
  (∃ sec ∈ G.metas, sec.name = c!"ADDRESS") ∨ (∃ sec ∈ G.rules, sec.name = c!"ADDRESS")

/-- The tokens of a phrase as a result classifies them. -/
def reclassed (phrase : List Token) (p : SearchPath F) : List Token :=
  retag phrase (inputs p.rules) (outputs p.rules)

/-- A row of the listing of all matches. -/
def rowFor {D : Type} (dops : FloatOps D) (widen : F → D) (phrase : List Token) (p : SearchPath F) : MatchResult D where
  matched := patternText (reclassed phrase p)
  score := dops.divNat ((p.rules.map (fun r => widen r.score)).foldl dops.add dops.zero) p.rules.length
  nrules := dops.ofInt p.rules.length

theorem ratOps_laws : LtLaws ratOps where
  irrefl a := by simp [ratOps, Rat.lt_irrefl]
  trans a b c h1 h2 := by
    simp only [ratOps, decide_eq_true_eq] at *
    grind

end AS
