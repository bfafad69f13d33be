import Verif.Spec.Grammar
/-
Two grammars in one.
-/
namespace AS
variable {F : Type}

/-- The third list consists of the first two, each in its order. -/
inductive Interleaved {α : Type} : List α → List α → List α → Prop
  | nil : Interleaved [] [] []
  | left {x : α} {xs ys zs : List α} : Interleaved xs ys zs → Interleaved (x :: xs) ys (x :: zs)
  | right {y : α} {xs ys zs : List α} : Interleaved xs ys zs → Interleaved xs (y :: ys) (y :: zs)

/-- `G` is made of `A` and `B`: section ADDRESS has the references of both, those of `A` first, and every other section of `A`
and of `B` is there as it is. None of them refers to ADDRESS. -/
structure Together (G A B : Grammar F) : Prop where
  root : ∃ va vb, (c!"ADDRESS", va) ∈ A.metaNames ∧ (c!"ADDRESS", vb) ∈ B.metaNames ∧ (c!"ADDRESS", va ++ vb) ∈ G.metaNames
  metas : ∀ s, s ∈ A.metaNames ∨ s ∈ B.metaNames → s.1 ≠ c!"ADDRESS" → s ∈ G.metaNames
  rules : ∀ s, s ∈ A.ruleSections ∨ s ∈ B.ruleSections → s ∈ G.ruleSections
  free : ∀ s, s ∈ A.metaNames ∨ s ∈ B.metaNames → ∀ refs ∈ s.2, c!"ADDRESS" ∉ refs

/-- The lines of a grammar text that begins with section ADDRESS: its header, the lines below it, and other sections. -/
structure RootFirst (ct : CharTables) (header : Str) (body rest : List Str) : Prop where
  isHeader : IsHeader ct header c!"ADDRESS"
  below : ∀ l ∈ body, ∀ n, ¬ IsHeader ct l n
  refs : ∀ l ∈ body, ¬ IsComment ct l → '@' ∈ l
  inhabited : ∃ l ∈ body, ¬ IsComment ct l
  sections : rest = [] ∨ ∃ h more n, rest = h :: more ∧ IsHeader ct h n

end AS
