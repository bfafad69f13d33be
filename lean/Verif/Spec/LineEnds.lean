import Verif.Spec.Lexicon
import Verif.Spec.Grammar
/-
Texts whose lines end in carriage return and line feed.
-/
namespace AS

/-- A line as it is read from such a text: with the carriage return. -/
def withCr (l : Str) : Str := l ++ ['\r']

/-- A text of lines that all end in carriage return and line feed. -/
def unlinesCr (ls : List Str) : Str := ls.flatMap (fun l => l ++ ['\r', '\n'])

/-- Normalising and upper-casing leave a carriage return at the end alone. -/
structure IcuCr (icu : Icu) : Prop where
  norm : ∀ s, icu.norm (withCr s) = withCr (icu.norm s)
  upper : ∀ loc s, icu.upper loc (withCr s) = withCr (icu.upper loc s)

/-- The names of the attachments. -/
def attachNames : List (Str × Attach) :=
  [(c!"DET_PRE", .DET_PRE), (c!"DET_SUF", .DET_SUF), (c!"ATT_PRE", .ATT_PRE), (c!"ATT_SUF", .ATT_SUF)]

/-- The item of a list of attachments is this name, with blanks around. -/
def ItemNames (q : Str) (t : Attach) : Prop :=
  ∃ name a b, (name, t) ∈ attachNames ∧ q = List.replicate a ' ' ++ name ++ List.replicate b ' '

/-- The items of a list are the parts between commas; one of them is the name. -/
def Named (field : Str) (t : Attach) : Prop := ∃ q ∈ splitOn ',' field, ItemNames q t

/-- An item other than the last one is the name. -/
def NamedBeforeLast (field : Str) (t : Attach) : Prop := ∃ q ∈ (splitOn ',' field).dropLast, ItemNames q t

/-- The lexicon line with its tag and at least five fields: tag, word, standard word, classes, attachments. -/
def FullLine (l : Str) : Prop := c!"LEXENTRY:\t" <+: l ∧ 5 ≤ (splitOn '\t' l).length

end AS
