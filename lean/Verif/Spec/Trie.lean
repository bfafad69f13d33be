import Verif.Model.Trie
/-
What a word pattern should match.
-/
namespace AS

/-- What remains of the text after each word that the text starts with, longest word first: the cut
positions from the end of the text down to 1, kept where the part before the cut is a word. -/
def wordEnds (words : List Str) (text : Str) : List Str :=
  ((List.range (text.length + 1)).reverse.filter (fun n => n ≠ 0 ∧ text.take n ∈ words)).map (fun n => text.drop n)

/-- Dictionary order by code points. -/
def CodeLt (a b : Str) : Prop :=
  (∃ x xs, b = a ++ x :: xs) ∨
  ∃ p x xs y ys, a = p ++ x :: xs ∧ b = p ++ y :: ys ∧ x.toNat < y.toNat

/-- The characters that have a meaning in patterns but are not escaped. -/
def unescaped : Str := c!"^{}"

end AS
