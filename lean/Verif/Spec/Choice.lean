import Verif.Spec.Tokenizer
/-
Which of the possible readings of a text the tokenizer takes.
-/
namespace AS

/-- The kinds of token, the preferred ones first. -/
inductive Kind where
  | phrase | decimal | number | word | letters | mixed
deriving DecidableEq, Repr

namespace Kind

/-- Place in the order of preference. -/
def rank : Kind → Nat
  | phrase => 0
  | decimal => 1
  | number => 2
  | word => 3
  | letters => 4
  | mixed => 5

/-- A text, between two characters, is a token of the kind: a phrase of the lexicon, a decimal or fraction, a
number, a word, letters and digits of any script, letters and digits. -/
def Is (u : UTables) (words : List Str) : Kind → Option Char → Str → Option Char → Prop
  | phrase, _, w, _ => IsPhrase u words w
  | decimal, _, w, _ => ∃ a x b, w = a ++ [x] ++ b ∧ RunOf (fun c => u.digit (u.fold c)) a ∧ (x = '/' ∨ x = ',' ∨ x = '.') ∧
      RunOf (fun c => u.digit (u.fold c)) b
  | number, _, w, _ => RunOf (fun c => u.digit (u.fold c)) w
  | word, before, w, after => RunOf (fun c => u.alpha (u.fold c)) w ∧ Opens u before w.head? ∧ Opens u after w.getLast?
  | letters, _, w, _ => RunOf (fun c => u.letter (u.fold c) || u.nd (u.fold c)) w
  | mixed, _, w, _ => RunOf (fun c => u.alpha (u.fold c) || u.digit (u.fold c)) w

end Kind

/-- A reading of the beginning of `s`, at the beginning of a line: blanks `b`, a token `w` of kind `k` that does not
start with an em dash, a separator `p` or the end of the line, the rest `r`. -/
structure ReadAt (u : UTables) (words : List Str) (before s b : Str) (k : Kind) (w p r : Str) : Prop where
  start : LineStart before s
  text : s = b ++ w ++ p ++ r
  blanks : ∀ c ∈ b, u.isSpace c = true
  dash : (w ++ p ++ r).head? ≠ some '—'
  kind : k.Is u words (before ++ b).getLast? w (p ++ r).head?
  sep : IsSeparator u p ∨ (p = [] ∧ LineEnd (before ++ b ++ w) r)

/-- The first reading is not worse than the second: more blanks count most, then the kind, then the length of the
token, then that of the separator. -/
def NotWorse (b : Str) (k : Kind) (w p b' : Str) (k' : Kind) (w' p' : Str) : Prop :=
  b'.length < b.length ∨ (b'.length = b.length ∧ (k.rank < k'.rank ∨ (k.rank = k'.rank ∧
    (w'.length < w.length ∨ (w'.length = w.length ∧ p'.length ≤ p.length)))))

/-- The best reading. -/
def BestAt (u : UTables) (words : List Str) (before s b w p r : Str) : Prop :=
  ∃ k, ReadAt u words before s b k w p r ∧
    ∀ b' k' w' p' r', ReadAt u words before s b' k' w' p' r' → NotWorse b k w p b' k' w' p'

/-- There is a reading at the place between `a` and `b`. -/
def Readable (u : UTables) (words : List Str) (a b : Str) : Prop := ∃ bl k w p r, ReadAt u words a b bl k w p r

/-- How a text is split: text before the first place that can be read is skipped, the best reading there is taken,
and so on; what cannot be read is dropped. -/
inductive SplitsInto (u : UTables) (words : List Str) : Str → List Tokenizer.Round → Str → Prop
  | stop {s : Str} : s = [] ∨ (∀ a b, s = a ++ b → ¬ Readable u words a b) → SplitsInto u words s [] s
  | round {a t b w p r last : Str} {rs : List Tokenizer.Round} : a ++ t ≠ [] →
      (∀ a' b', a ++ t = a' ++ b' → a'.length < a.length → ¬ Readable u words a' b') →
      BestAt u words a t b w p r → SplitsInto u words r rs last →
      SplitsInto u words (a ++ t) (⟨a, b, w, p⟩ :: rs) last

end AS
