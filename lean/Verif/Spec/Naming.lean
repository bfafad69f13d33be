import Verif.Spec.Mirror
/-
Grammar texts with other names for the sections.
-/
namespace AS

/-- Neither a comment nor a header. -/
def DataLine (ct : CharTables) (l : Str) : Prop := ¬ IsComment ct l ∧ ∀ n, ¬ IsHeader ct l n

/-- The same data lines, lists of references to renamed sections apart. -/
inductive RenamedData (ct : CharTables) (ρ : Str → Str) : List Str → List Str → Prop
  | nil : RenamedData ct ρ [] []
  | refs {l l' : Str} {ns : List Str} {ls ls' : List Str} : IsRefs ct l ns → IsRefs ct l' (ns.map ρ) →
      RenamedData ct ρ ls ls' → RenamedData ct ρ (l :: ls) (l' :: ls')
  | other {l : Str} {ls ls' : List Str} : (∀ ns, ¬ IsRefs ct l ns) → RenamedData ct ρ ls ls' → RenamedData ct ρ (l :: ls) (l :: ls')

/-- Line by line the same grammar text with `ρ` applied to the names in headers and in references. Comments may be anything. -/
inductive RenamedLines (ct : CharTables) (ρ : Str → Str) : List Str → List Str → Prop
  | nil : RenamedLines ct ρ [] []
  | comment {l l' : Str} {ls ls' : List Str} : IsComment ct l → IsComment ct l' → RenamedLines ct ρ ls ls' →
      RenamedLines ct ρ (l :: ls) (l' :: ls')
  | header {l l' n : Str} {ls ls' : List Str} : IsHeader ct l n → IsHeader ct l' (ρ n) → RenamedLines ct ρ ls ls' →
      RenamedLines ct ρ (l :: ls) (l' :: ls')
  | refs {l l' : Str} {ns : List Str} {ls ls' : List Str} : IsRefs ct l ns → IsRefs ct l' (ns.map ρ) →
      RenamedLines ct ρ ls ls' → RenamedLines ct ρ (l :: ls) (l' :: ls')
  | other {l : Str} {ls ls' : List Str} : DataLine ct l → (∀ ns, ¬ IsRefs ct l ns) → RenamedLines ct ρ ls ls' →
      RenamedLines ct ρ (l :: ls) (l :: ls')

end AS
