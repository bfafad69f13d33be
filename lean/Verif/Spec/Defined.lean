import Verif.Model.Wrapper
import Verif.Spec.Tokenizer
/-
How many rows the token lists of an address have.
-/
namespace AS

/-- The tokens with a blank in their text. -/
def spaced (ts : List Token) : List Token := ts.filter (fun t => decide (' ' ∈ t.text))

/-- The tokens without one. -/
def unspaced (ts : List Token) : List Token := ts.filter (fun t => decide (' ' ∉ t.text))

/-- The number of words in the tokens with a blank. -/
def spacedWords (ts : List Token) : Nat := ((spaced ts).map (fun t => (wordsOf t.text).length)).sum

/-- Twice the number of tokens in all lists together: a token without a blank is in every list, a token with a blank
is whole in one half of the lists and in words in the other half. -/
def twiceRows (ts : List Token) : Nat :=
  2 ^ (spaced ts).length * (2 * (unspaced ts).length + (spaced ts).length + spacedWords ts)

/-- The tokens of an address before any of them is broken up. -/
def Wrapper.TokensOf {F D : Type} (env : Wrapper.Env F D) (l : Lexicon) (locale filter address : Str) (ts : List Token) : Prop :=
  Tokenizer.getTokens env.icu env.u l (Wrapper.lexRe env l) (InType.asType filter)
    (env.icu.upper locale (env.icu.norm address)) = some ts

end AS
