import Verif.Spec.Tokenizer
/-
Words that end in a mark, such as the apostrophe of elisions, or in a blank.
-/
namespace AS

/-- The characters that separate tokens: dashes, ampersands, blanks, bars, punctuation. -/
def SepChar (u : UTables) (c : Char) : Prop :=
  c = '-' ∨ c = '&' ∨ u.isSpace c = true ∨ c = '|' ∨ u.punct (u.fold c) = true ∨ c = '—'

/-- A mark, or a blank: neither letter nor digit, without case, and none of those in decimals and fractions. -/
structure Mark (u : UTables) (q : Char) : Prop where
  notWord : u.isWord q = false
  fold : u.fold q = q
  canon : ∀ c, u.canon c = q → c = q
  plain : q ≠ '/' ∧ q ≠ ',' ∧ q ≠ '.'

/-- A word that ends in the mark, and does not consist of separators, points and commas only. -/
def Elided (u : UTables) (q : Char) (w : Str) : Prop :=
  w.getLast? = some q ∧ ∃ c ∈ w, ¬ SepChar u c ∧ c ≠ '.' ∧ c ≠ ','

instance (u : UTables) (c : Char) : Decidable (SepChar u c) :=
  inferInstanceAs (Decidable (_ ∨ _))

instance (u : UTables) (q : Char) (w : Str) : Decidable (Elided u q w) :=
  inferInstanceAs (Decidable (_ ∧ ∃ c ∈ w, ¬ SepChar u c ∧ c ≠ '.' ∧ c ≠ ','))

/-- In the text a character that is not a separator stands behind every mark. -/
def Elides (u : UTables) (q : Char) (s : Str) : Prop :=
  ∀ a b, s = a ++ q :: b → ∃ c, b.head? = some c ∧ ¬ SepChar u c

end AS
