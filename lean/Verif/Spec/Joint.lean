import Verif.Spec.Wrapper
import Verif.Spec.Choice
import Verif.Spec.Elision
import Verif.Spec.Further
/-
Places in an address that nothing reaches across, and words that may stand for one another.
-/
namespace AS

/-- The texts `a` and `b` with separators `g` between them, such as a space, that neither a word of the lexicon nor a decimal
or fraction reaches across: `a` does not end in a character that separates tokens, `b` does not begin with one, and all is on
one line. -/
structure Joint (u : UTables) (words : List Str) (a g b : Str) : Prop where
  before : ∃ c, a.getLast? = some c ∧ ¬ SepChar u c
  nonempty : g ≠ []
  seps : ∀ c ∈ g, SepChar u c ∧ c ≠ '—' ∧ u.isWord c = false ∧ u.isWord (u.fold c) = false
  after : ∀ c, b.head? = some c → ¬ SepChar u c
  line : ∀ c ∈ a ++ g ++ b, lineSeparator c = false
  decimal : ∀ x c d, g = [x] → x = '/' ∨ x = ',' ∨ x = '.' → a.getLast? = some c → b.head? = some d →
    ¬ (u.digit c = true ∧ u.digit d = true)
  across : ∀ x y z, a ++ g ++ b = x ++ y ++ z → x.length < a.length → a.length < x.length + y.length → y.map u.canon ∉ words

/-- The text `v` stands by itself behind `a` and before `b`: it begins, or separators `g` that nothing reaches across are before
it, and it ends the text, or such separators `g'` are behind it. -/
structure StandsAlone (u : UTables) (words : List Str) (a g v g' b : Str) : Prop where
  first : ∃ c, v.head? = some c ∧ ¬ SepChar u c
  left : (a = [] ∧ g = []) ∨ Joint u words a g (v ++ (g' ++ b))
  right : (g' = [] ∧ b = []) ∨ Joint u words v g' b

/-- The entries treat two words alike: both have a class, and for every class the same standard word, not empty, or none. They
are without blanks. -/
structure Synonyms (es : List LexEntry) (v w : Str) : Prop where
  classed : ∃ c, standardOf es v c ≠ none
  standard : ∀ c, standardOf es v c = standardOf es w c
  named : ∀ c, standardOf es v c ≠ some []
  blanks : ∀ c ∈ v ++ w, c ≠ ' ' ∧ c ≠ '\t'

/-- The second row is the first, or the first with the word `v` replaced by `w`. -/
def WordReplaced (v w : Str) (r r' : Wrapper.ParseRow) : Prop :=
  r' = r ∨ (r.word = Wrapper.upToNul v ∧ r' = { r with word := Wrapper.upToNul w })

/-- Separators that differ in the spaces before and behind only. -/
def SameButSpaces (g g' : Str) : Prop := ∃ m b₁ b₂ b₃ b₄, g = b₁ ++ m ++ b₂ ∧ g' = b₃ ++ m ++ b₄ ∧
  ∀ c ∈ b₁ ++ b₂ ++ b₃ ++ b₄, c = ' '

end AS
