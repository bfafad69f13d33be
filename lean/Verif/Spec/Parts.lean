import Verif.Spec.Choice
import Verif.Spec.Elision
import Verif.Model.Wrapper
/-
Addresses in parts: a mark, such as a comma, that is in no word of the lexicon stands between two texts.
-/
namespace AS

/-- A mark that separates tokens, is neither blank nor em dash, and is in no word. -/
structure Divider (u : UTables) (words : List Str) (q : Char) : Prop where
  sep : SepChar u q
  notWord : u.isWord q = false
  notSpace : u.isSpace q = false
  fold : u.fold q = q
  noDash : q ≠ '—'
  absent : ∀ w ∈ words, u.canon q ∉ w

/-- The texts `a` and `b` with a mark and spaces between them: `a` does not end in a character that separates tokens, `b`
does not begin with one, both are on one line, and they are not the halves of a decimal or fraction. -/
structure InParts (u : UTables) (a : Str) (q : Char) (bl b : Str) : Prop where
  before : ∃ c, a.getLast? = some c ∧ ¬ SepChar u c
  spaces : ∀ c ∈ bl, c = ' '
  after : ∀ c, b.head? = some c → ¬ SepChar u c
  line : ∀ c ∈ a ++ b, lineSeparator c = false
  decimal : q = '/' ∨ q = ',' ∨ q = '.' → bl = [] → ∀ c d, a.getLast? = some c → b.head? = some d →
    ¬ (u.digit c = true ∧ u.digit d = true)

/-- The tokenizer reads the whole text. -/
def WhollyRead (u : UTables) (words : List Str) (s : Str) : Prop := ∃ rs, SplitsInto u words s rs []

/-- Among the classes of the text, by its shape, is one of the filter. -/
def MarkFiltered (u : UTables) (filter : List InType) (q : Char) : Prop := ∃ c ∈ filter, FirstShape (shapes u .PUNCT) [q] c

/-- The rows of the first alternative, without their numbers. -/
def firstRows (rows : List Wrapper.ParseRow) : List (Str × Str × Str) :=
  (rows.filter (fun r => r.pat = 0)).map (fun r => (r.word, r.inclass, r.attached))

end AS
