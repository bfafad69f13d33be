import Verif.Model.ByteTrie
/-
Orders and words for the trie over bytes.
-/
namespace AS.ByteTrie

/-- Dictionary order of byte strings, bytes as numbers from 0 to 255. -/
def BytesLt (a b : Bytes) : Prop :=
  (∃ x xs, b = a ++ x :: xs) ∨
  ∃ p x xs y ys, a = p ++ x :: xs ∧ b = p ++ y :: ys ∧ x.toNat < y.toNat

end AS.ByteTrie
