import Verif.Spec.Tokenizer
/-
Blanks in a text.
-/
namespace AS

/-- The number of characters in the text that are blanks (those that are trimmed from separators). -/
def blanksIn (s : Str) : Nat := (s.filter (fun c => decide (c ∈ blankChars))).length

end AS
