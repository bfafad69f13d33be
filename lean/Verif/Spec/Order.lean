import Verif.Spec.Grammar
/-
Grammars that differ in the order of their sections, or in what has been added; printing them.
-/
namespace AS
variable {F : Type}

/-- The same sections, in whatever order. -/
def SameSections (G H : Grammar F) : Prop :=
  (∀ s, s ∈ G.metaNames ↔ s ∈ H.metaNames) ∧ (∀ s, s ∈ G.ruleSections ↔ s ∈ H.ruleSections)

/-- Lines that make up one section: a header, lines that are not headers, not all of them comments. -/
def IsSection (ct : CharTables) (ls : List Str) : Prop :=
  ∃ h name body, ls = h :: body ∧ IsHeader ct h name ∧
    (∀ l ∈ body, ∀ n, ¬ IsHeader ct l n) ∧ (∃ l ∈ body, ¬ IsComment ct l)

/-- Every rule of the one grammar is in the section of the same name of the other. -/
def Within (G H : Grammar F) : Prop :=
  (∀ s ∈ G.metaNames, ∃ t ∈ H.metaNames, t.1 = s.1 ∧ ∀ refs ∈ s.2, refs ∈ t.2) ∧
  (∀ s ∈ G.ruleSections, ∃ t ∈ H.ruleSections, t.1 = s.1 ∧ ∀ r ∈ s.2, r ∈ t.2)

/-- The number prints as one word without characters that mean something in a grammar text, and is read
back as itself. -/
def PrintsBack (fo : FloatOps F) (x : F) : Prop :=
  fo.print x ≠ [] ∧ (∀ c ∈ fo.print x, whiteSpace c = false ∧ c ≠ '@' ∧ c ≠ '#' ∧ c ≠ '[') ∧ fo.print x ≠ c!"->" ∧
    fo.parse (fo.print x) = x

end AS
