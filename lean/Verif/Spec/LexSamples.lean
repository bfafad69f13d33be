import Verif.Spec.Prune
import Verif.Spec.Lexicon
/-
Lexicons that come with the sources (data/sample), and what is said about them.
-/
namespace AS

/-- A lexicon text, with what is claimed of it: language, locale and the classes of its entries. -/
structure LexSample where
  header : Str
  body : List Str
  lang : Lang
  locale : Str
  classes : List InType

/-- The text. -/
def LexSample.text (s : LexSample) : Str := unlines (s.header :: s.body)

/-- The lexicon is what the sample is claimed to be: an entry for each line after the header, each with a class, and no other
entry; on lines of ASCII characters without small letters, whatever normalising and upper-casing do to others, the entry is
that of the line. -/
def LexMeets (s : LexSample) (icu : Icu) (l : Lexicon) : Prop :=
  l.lang = s.lang ∧ l.locale = s.locale ∧ (∀ c, HasClass l c ↔ c ∈ s.classes) ∧ (∀ w, ∀ e ∈ l.find w, e.type ≠ []) ∧
  (∀ w e, e ∈ l.find w ↔ e.word = w ∧ ∃ line ∈ s.body, e = entryOf (canonLine icu s.locale line)) ∧
  (∀ line ∈ s.body, (∀ c ∈ line, c.toNat < 128 ∧ ¬ c.isLower) → entryOf (squeeze line) ∈ l.find (entryOf (squeeze line)).word)

end AS
