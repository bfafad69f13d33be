import Verif.Spec.Search
import Verif.Spec.Grammar
import Verif.Spec.Mirror
import Verif.Spec.Wrapper
/-
What can be read off a grammar: by how much the number of meta rules of a derivation can exceed the number of
tokens; which fields of an address can be, and which are always, filled.
-/
namespace AS
variable {F : Type}

/-- Bounds for the sections of a grammar: for a section of rules, minus the fewest classes of a rule; for a meta
section, one more than the sum over any of its rules. -/
def Slack (ms : List (Str × List (List Str))) (rs : List (Str × List (Rule F))) (e : Str → Int) : Prop :=
  (∀ sec ∈ rs, ∀ r ∈ sec.2, -(r.inClass.length : Int) ≤ e sec.1) ∧
  (∀ sec ∈ ms, ∀ refs ∈ sec.2, 1 + (refs.map e).sum ≤ e sec.1)

instance (ms : List (Str × List (List Str))) (rs : List (Str × List (Rule F))) (e : Str → Int) : Decidable (Slack ms rs e) := by
  unfold Slack; infer_instance

/-- The search from ADDRESS finds every derivation whose input classes the tokens can have. -/
def Complete (G : Grammar F) : Prop :=
  ∀ (phrase : List Token) (results : List (SearchPath F)), sizeProd (phrase.map (·.inclass)) < 2 ^ 32 →
    search G c!"ADDRESS" phrase = .ok results →
    ∀ rs m, Derives G [c!"ADDRESS"] rs m → Picks (inputs rs) (phrase.map (·.inclass)) → ⟨rs, [], []⟩ ∈ results

/-- No rule that ADDRESS leads to has an output class of the field. -/
def NeverFills (ms : List (Str × List (List Str))) (rs : List (Str × List (Rule F))) (f : Wrapper.Field) : Prop :=
  ∀ sec ∈ rs, Leads ms sec.1 → ∀ r ∈ sec.2, ∀ o ∈ r.outClass, Wrapper.fieldOf o ≠ some f

/-- With these sections, which include ADDRESS, the field cannot be avoided: each rule of one that has rules has an
output class of the field, each rule of one that has meta rules refers to one of them. -/
def AlwaysFills (ms : List (Str × List (List Str))) (rs : List (Str × List (Rule F))) (must : List Str)
    (f : Wrapper.Field) : Prop :=
  c!"ADDRESS" ∈ must ∧
  (∀ sec ∈ rs, sec.1 ∈ must → ∀ r ∈ sec.2, ∃ o ∈ r.outClass, Wrapper.fieldOf o = some f) ∧
  (∀ sec ∈ ms, sec.1 ∈ must → ∀ refs ∈ sec.2, ∃ n ∈ refs, n ∈ must)

instance (ms : List (Str × List (List Str))) (rs : List (Str × List (Rule F))) (must : List Str) (f : Wrapper.Field) :
    Decidable (AlwaysFills ms rs must f) := by
  unfold AlwaysFills; infer_instance

end AS
