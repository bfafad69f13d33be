import Verif.Spec.Filter
import Verif.Spec.Unknown
import Verif.Spec.Use
/-
Addresses that are plain lists of words.
-/
namespace AS

/-- A class of a text: one its entries have, or, if they have none, one of its shape. -/
def ClassOf (u : UTables) (es : List LexEntry) (dflt : InType) (v : Str) (c : InType) : Prop :=
  standardOf es v c ≠ none ∨ ((∀ d, standardOf es v d = none) ∧ FirstShape (shapes u dflt) v c)

/-- A word without blanks that the lexicon lists with a class. -/
structure Familiar (u : UTables) (es : List LexEntry) (v : Str) : Prop where
  first : ∃ c, v.head? = some c ∧ ¬ SepChar u c
  classed : ∃ c, standardOf es v c ≠ none
  blanks : ∀ c ∈ v, c ≠ ' ' ∧ c ≠ '\t'

/-- Separators that the filter leaves out: it names a class of their text without the blanks at its ends. -/
def LeftOut (u : UTables) (es : List LexEntry) (filter g : Str) : Prop :=
  '\t' ∉ g ∧ ∀ v, Trimmed g v → ∃ c, FilterNames filter c ∧ ClassOf u es .PUNCT v c

/-- A word of letters and digits that is not in the lexicon. -/
structure Stray (u : UTables) (es : List LexEntry) (v : Str) : Prop where
  chars : RunOf (fun c => u.alpha (u.fold c) || u.digit (u.fold c)) v
  plain : ∀ c ∈ v, ¬ SepChar u c ∧ c ≠ '/' ∧ c ≠ ',' ∧ c ≠ '.'
  unlisted : ∀ e ∈ es, e.word ≠ v ∧ e.word ≠ v.map u.canon

/-- The parts a word is taken into: words of the lexicon that may be attached in front, the longest, and behind, the shortest, are
taken off; of digits with a letter before or behind them, the letter. -/
inductive Parted (u : UTables) (es : List LexEntry) (v : Str) : List Str → Prop
  | front {a b : Str} : ¬ FirstShape (shapes u .WORD) v .MIXED →
      LongestPrefix u ((es.filter LexEntry.isPrefixAttached).map (·.word)) v a b →
      NoSuffix ((es.filter LexEntry.isSuffixAttached).map (·.word)) v → Parted u es v [a, b]
  | behind {c d : Str} : ¬ FirstShape (shapes u .WORD) v .MIXED →
      NoPrefix u ((es.filter LexEntry.isPrefixAttached).map (·.word)) v →
      ShortestSuffix ((es.filter LexEntry.isSuffixAttached).map (·.word)) v c d → Parted u es v [c, d]
  | both {a b m c d : Str} : ¬ FirstShape (shapes u .WORD) v .MIXED →
      LongestPrefix u ((es.filter LexEntry.isPrefixAttached).map (·.word)) v a b →
      ShortestSuffix ((es.filter LexEntry.isSuffixAttached).map (·.word)) v c d → m ≠ [] → v = a ++ m ++ d → Parted u es v [a, m, d]
  | meeting {a c d : Str} : ¬ FirstShape (shapes u .WORD) v .MIXED →
      LongestPrefix u ((es.filter LexEntry.isPrefixAttached).map (·.word)) v a d →
      ShortestSuffix ((es.filter LexEntry.isSuffixAttached).map (·.word)) v c d → Parted u es v [a, d]
  | letterBehind {ds : Str} {c : Char} : FirstShape (shapes u .WORD) v .MIXED → (∀ c ∈ v, u.isWord c = true) → v = ds ++ [c] →
      RunOf u.digit ds → u.alpha c = true ∨ u.letter c = true → Parted u es v [ds, [c]]
  | letterFirst {c : Char} {ds : Str} : FirstShape (shapes u .WORD) v .MIXED → (∀ c ∈ v, u.isWord c = true) → v = [c] ++ ds →
      RunOf u.digit ds → u.alpha c = true ∨ u.letter c = true → Parted u es v [[c], ds]

/-- The words that a word of the text is read as: itself if the lexicon knows it or does not know anything of it, or else its parts. -/
inductive WordRead (u : UTables) (es : List LexEntry) : Str → List Str → Prop
  | whole {v : Str} : (Familiar u es v ∨ Unknown u es v) → WordRead u es v [v]
  | parts {v : Str} {ps : List Str} : Stray u es v → Parted u es v ps → WordRead u es v ps

/-- The text is read as these words: it has words that are, or whose parts are, these, with separators between them that the filter
leaves out and nothing reaches across. Such separators may also end the text. -/
inductive InWords (u : UTables) (es : List LexEntry) (filter : Str) : Str → List Str → Prop
  | nil : InWords u es filter [] []
  | last {v : Str} {ps : List Str} : WordRead u es v ps → InWords u es filter v ps
  | more {v g b : Str} {ps vs : List Str} : WordRead u es v ps → Joint u (es.map (·.word)) v g b →
      LeftOut u es filter g → InWords u es filter b vs → InWords u es filter (v ++ (g ++ b)) (ps ++ vs)

/-- The classes of the words, each list ordered and without repetition. -/
def ClassLists (u : UTables) (es : List LexEntry) (vs : List Str) (cls : Str → List InType) : Prop :=
  ∀ v ∈ vs, cls v ≠ [] ∧ (cls v).Pairwise (fun c d => c.code < d.code) ∧ ∀ c, c ∈ cls v ↔ ClassOf u es .WORD v c

/-- What a word becomes when it is taken in a class: the standard word of its first entry with the class, or itself. -/
def standardWord (es : List LexEntry) (v : Str) (c : InType) : Str :=
  match standardOf es v c with
  | none => v
  | some [] => v
  | some (d :: s) => d :: s

/-- The words of a field, in order, when the words are taken in these input and output classes. -/
def fieldWords (es : List LexEntry) (f : Wrapper.Field) : List Str → List InType → List OutType → List Str
  | v :: vs, c :: cs, o :: os =>
    if Wrapper.fieldOf o = some f then standardWord es v c :: fieldWords es f vs cs os else fieldWords es f vs cs os
  | _, _, _ => []

end AS
