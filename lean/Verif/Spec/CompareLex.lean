import Verif.Model.CompareLex
import Verif.Spec.Lexicon
import Verif.Spec.Grammar
/-
What a comparison of two lexicons should report.
-/
namespace AS
namespace CompareLex

/-- White space within a line. -/
def White (c : Char) : Prop := c = ' ' ∨ c = '\t' ∨ c = '\n' ∨ c = '\x0b' ∨ c = '\x0c' ∨ c = '\r'

/-- A line of white space, or a comment. -/
def Skipped (l : Str) : Prop := (∀ c ∈ l, White c) ∨ ∃ a b, l = a ++ '#' :: b ∧ ∀ c ∈ a, White c

/-- `es` are the lines that count. -/
inductive Counted : List Str → List Str → Prop
  | nil : Counted [] []
  | skipped {l ls es} : Skipped l → Counted ls es → Counted (l :: ls) es
  | counted {l ls es} : ¬ Skipped l → Counted ls es → Counted (l :: ls) (l :: es)

/-- The first line that counts is a header, and the others are the entries `es`; or no line counts. -/
def HasEntries (ls es : List Str) : Prop :=
  (Counted ls [] ∧ es = []) ∨ ∃ h, c!"LEXICON:" <+: h ∧ Counted ls (h :: es)

/-- The first line that counts is not a header. -/
def NoHeader (ls : List Str) (l : Str) : Prop := ¬ c!"LEXICON:" <+: l ∧ ∃ es, Counted ls (l :: es)

/-- The word of an entry. -/
def wordOf (l : Str) : Str := (entryOf l).word

/-- The entries of the second lexicon for words of which the first one has none. -/
def missing (ea eb : List Str) : List Str := eb.filter (fun l => wordOf l ∉ ea.map wordOf)

end CompareLex
end AS
