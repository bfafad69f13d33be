import Verif.Model.Tokenizer
import Verif.Spec.Classify
import Verif.Spec.Lexicon
import Verif.Spec.Trie
/-
What the tokenizer recognises, in plain terms.
-/
namespace AS

/-! ### Words of a phrase -/

/-- The words of a text: its parts between blanks; runs of blanks count as one, so empty parts are only
kept at the ends. -/
def wordsOf (s : Str) : List Str :=
  match splitOn ' ' s with
  | [] => []
  | [p] => [p]
  | p :: q :: ps => p :: ((q :: ps).dropLast.filter (fun x => x ≠ [])) ++ [(q :: ps).getLast (by simp)]

/-- A token list in which some of the multi-word tokens are broken into words; the choices are for the
multi-word tokens in order. -/
def broken (tokenFor : Str → Token) : List Bool → List Token → List Token
  | _, [] => []
  | cs, t :: ts =>
    if ' ' ∈ t.text then
      (if cs.head? = some true then (wordsOf t.text).map tokenFor else [t]) ++ broken tokenFor cs.tail ts
    else t :: broken tokenFor cs ts

/-! ### Attached words -/

/-- The longest of the words that the text properly starts with, not ending at a word boundary. -/
def LongestPrefix (u : UTables) (words : List Str) (s a b : Str) : Prop :=
  (s = a ++ b ∧ a ∈ words ∧ a ≠ [] ∧ b ≠ [] ∧ a.getLast?.map u.isWord = b.head?.map u.isWord) ∧
  ∀ a' b', s = a' ++ b' ∧ a' ∈ words ∧ a' ≠ [] ∧ b' ≠ [] ∧ a'.getLast?.map u.isWord = b'.head?.map u.isWord →
    a'.length ≤ a.length

/-- No word qualifies. -/
def NoPrefix (u : UTables) (words : List Str) (s : Str) : Prop :=
  ¬ ∃ a b, s = a ++ b ∧ a ∈ words ∧ a ≠ [] ∧ b ≠ [] ∧ a.getLast?.map u.isWord = b.head?.map u.isWord

/-- The shortest of the words that the text properly ends with. -/
def ShortestSuffix (words : List Str) (s c d : Str) : Prop :=
  (s = c ++ d ∧ d ∈ words ∧ c ≠ [] ∧ d ≠ []) ∧
  ∀ c' d', s = c' ++ d' ∧ d' ∈ words ∧ c' ≠ [] ∧ d' ≠ [] → d.length ≤ d'.length

/-- No word qualifies. -/
def NoSuffix (words : List Str) (s : Str) : Prop :=
  ¬ ∃ c d, s = c ++ d ∧ d ∈ words ∧ c ≠ [] ∧ d ≠ []

/-! ### What becomes of the text -/

/-- The text a round accounts for. -/
def Tokenizer.Round.text (r : Tokenizer.Round) : Str := r.skipped ++ r.blanks ++ r.word ++ r.sep

/-- The lexicon has a class for the text. -/
def Listed (l : Lexicon) (w : Str) : Prop := ∃ e ∈ l.find w, e.type ≠ []

/-- The text, or the text with one comma replaced by a point. -/
def SameButComma (w v : Str) : Prop := v = w ∨ ∃ a b, w = a ++ [','] ++ b ∧ v = a ++ ['.'] ++ b

/-- Blank, tab, and the other characters that are trimmed. -/
def blankChars : List Char := [' ', '\t', '\n', '\r', '\x0b', '\x0c']

/-- The text without blanks at its ends; of blanks only, one blank. -/
def Trimmed (s v : Str) : Prop :=
  ((∀ c ∈ s, c ∈ blankChars) ∧ v = c!" ") ∨
  (∃ a b, s = a ++ v ++ b ∧ (∀ c ∈ a ++ b, c ∈ blankChars) ∧
    (∃ c, v.head? = some c ∧ c ∉ blankChars) ∧ ∃ c, v.getLast? = some c ∧ c ∉ blankChars)

/-- The tokens that come from one round: those of the word, then one for the separator. The word is one token if the
lexicon lists it, otherwise its pieces, which put together are the word. -/
def Gives (u : UTables) (l : Lexicon) (word sep : Str) (ts : List Token) : Prop :=
  ∃ ws ss, ts = ws ++ ss ∧
    (word = [] → ws = []) ∧
    (word ≠ [] → '\t' ∉ word → Listed l word → ws = [l.classify u { text := word } .WORD]) ∧
    (word ≠ [] → '\t' ∉ word → ' ' ∉ word → ∃ pieces : List Str, pieces ≠ [] ∧ (∀ p ∈ pieces, p ≠ []) ∧
      SameButComma word pieces.flatten ∧ ws = pieces.map (fun p => l.classify u { text := p } .WORD)) ∧
    (sep = [] → ss = []) ∧
    (sep ≠ [] → '\t' ∉ sep → ∃ v, Trimmed sep v ∧ ss = [l.classify u { text := v } .PUNCT])

/-! ### Recognisable text -/

/-- The words of a lexicon and those with an attached entry. -/
def lexWords (l : Lexicon) : List Str := l.lex.map (·.1)
def prefixWords (l : Lexicon) : List Str :=
  (l.lex.filter (fun e => e.2.any LexEntry.isPrefixAttached)).map (·.1)
def suffixWords (l : Lexicon) : List Str :=
  (l.lex.filter (fun e => e.2.any LexEntry.isSuffixAttached)).map (·.1)

/-- Lexicons on which the generated patterns mean what they should: no `^ { }` in words, words in the
canonical case. -/
def PlainLexicon (u : UTables) (l : Lexicon) : Prop :=
  ∀ w ∈ lexWords l, ∀ c ∈ w, c ∉ unescaped ∧ u.canon c = c

/-- A phrase of the lexicon, ignoring case; a lexicon without words makes the empty text one. -/
def IsPhrase (u : UTables) (words : List Str) (w : Str) : Prop :=
  (w ≠ [] ∧ w.map u.canon ∈ words) ∨ ((∀ x ∈ words, x = []) ∧ w = [])

/-- Between two characters there is a change from non-word to word; the text has none outside it. -/
def Opens (u : UTables) (before after : Option Char) : Prop :=
  (∀ c, before = some c → u.isWord c = false) ∧ ∃ d, after = some d ∧ u.isWord d = true

/-- A token: a phrase of the lexicon, a decimal or fraction, a number, a word, letters and digits. The
neighbouring characters matter for words. -/
def IsToken (u : UTables) (words : List Str) (before : Option Char) (w : Str) (after : Option Char) : Prop :=
  IsPhrase u words w ∨
  (∃ a x b, w = a ++ [x] ++ b ∧ RunOf (fun c => u.digit (u.fold c)) a ∧ (x = '/' ∨ x = ',' ∨ x = '.') ∧
    RunOf (fun c => u.digit (u.fold c)) b) ∨
  RunOf (fun c => u.digit (u.fold c)) w ∨
  (RunOf (fun c => u.alpha (u.fold c)) w ∧ Opens u before w.head? ∧ Opens u after w.getLast?) ∨
  RunOf (fun c => u.letter (u.fold c) || u.nd (u.fold c)) w ∨
  RunOf (fun c => u.alpha (u.fold c) || u.digit (u.fold c)) w

/-- A separator: dashes, ampersands, blanks, bars, punctuation; or an em dash. -/
def IsSeparator (u : UTables) (p : Str) : Prop :=
  RunOf (fun c => c = '-' || c = '&' || u.isSpace c || c = '|' || u.punct (u.fold c)) p ∨ p = ['—']

/-- The characters that separate lines. -/
def lineSeparator (c : Char) : Bool :=
  c = '\n' || c = '\r' || c = '\x0c' || c = '\u0085' || c = '\u2028' || c = '\u2029'

/-- The place between two texts is the beginning of a line, or the end of one. -/
def LineStart (before after : Str) : Prop :=
  before = [] ∨ ∃ c, before.getLast? = some c ∧ lineSeparator c = true ∧ ¬ (c = '\r' ∧ after.head? = some '\n')

def LineEnd (before after : Str) : Prop :=
  after = [] ∨ ∃ d, after.head? = some d ∧ lineSeparator d = true ∧ ¬ (d = '\n' ∧ before.getLast? = some '\r')

/-- At the beginning of a line: blanks, a token that does not start with an em dash, and a separator or
the end of the line. -/
def CanGoOn (u : UTables) (words : List Str) (before s : Str) : Prop :=
  LineStart before s ∧ ∃ b w p r, s = b ++ w ++ p ++ r ∧ (∀ c ∈ b, u.isSpace c = true) ∧
    (w ++ p ++ r).head? ≠ some '—' ∧ IsToken u words (before ++ b).getLast? w (p ++ r).head? ∧
    (IsSeparator u p ∨ (p = [] ∧ LineEnd (before ++ b ++ w) r))

end AS
