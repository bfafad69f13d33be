import Verif.Spec.Tokenizer
import Verif.Spec.Wrapper
/-
Words of a lexicon that occur in an address; reading of the patterns of a lexicon.
-/
namespace AS

/-- The text without the differences that do not matter when words are looked for: letters of the same
kind are one letter, a comma is a point. -/
def levelled (u : UTables) (s : Str) : Str := s.map (fun c => if u.canon c = ',' then '.' else u.canon c)

/-- A word occurs in a text: it is a part of it, but for such differences. (The single blank stands for
any run of blanks, so it always counts as occurring.) -/
def Occurs (u : UTables) (text w : Str) : Prop := w = c!" " ∨ ∃ a b, levelled u text = a ++ levelled u w ++ b

/-- The commas turned into points. -/
def pointed (s : Str) : Str := s.map (fun c => if c = ',' then '.' else c)

/-- A piece of the text, in which commas may have become points; or one blank. -/
def PieceOf (text s : Str) : Prop := s = c!" " ∨ ∃ a m b, text = a ++ m ++ b ∧ pointed m = pointed s

namespace Wrapper
variable {F D : Type}

/-- The patterns that a lexicon provides are read as regular expressions; that of all words without
regard to case. -/
def ReadsPatterns (env : Env F D) : Prop := ∀ p q r a b c, Reads (p.map env.u.canon) a → Reads q b → Reads r c →
  env.compile (p ++ c!"|") (c!"^" ++ q ++ c!"\\B") r = ⟨a, b, c⟩

/-- The text whose tokens are made: the address in the upper case of the two locales. -/
def textFor (env : Env F D) (locale lexLocale address : Str) : Str :=
  env.icu.upper lexLocale (env.icu.norm (env.icu.upper locale (env.icu.norm address)))

end Wrapper
end AS
