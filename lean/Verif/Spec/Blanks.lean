import Verif.Spec.Choice
/-
Lexicons whose words neither begin nor end with a blank.
-/
namespace AS

/-- Some word is not empty, and none begins with a blank. -/
structure NoBlankFirst (u : UTables) (words : List Str) : Prop where
  some_word : ∃ w ∈ words, w ≠ []
  first : ∀ w ∈ words, ∀ c, w.head? = some (u.canon c) → u.isSpace c = false

/-- Some word is not empty, and none ends with a blank. -/
structure NoBlankLast (u : UTables) (words : List Str) : Prop where
  some_word : ∃ w ∈ words, w ≠ []
  last : ∀ w ∈ words, ∀ c, w.getLast? = some (u.canon c) → u.isSpace c = false

end AS
