import Verif.Model.PagcLex
import Verif.Spec.Pagc
import Verif.Spec.Lexicon
import Verif.Spec.Archive
/-
The lexicon of PAGC, and the lexicon it is meant to become.
-/
namespace AS
namespace Pagc

/-- An entry of PAGC: a word, the number of a class, and the standard word. -/
structure Record where
  word : Str
  code : Nat
  std : Str
deriving DecidableEq, Repr

/-- The line of an entry: a running number, the word, the number of the class and the standard word, with a tab between them. -/
def RecordLine (l : Str) (r : Record) : Prop :=
  ∃ n c, splitOn '\t' l = [n, r.word, c, r.std] ∧ r.std ≠ [] ∧ Number c ∧ decimal c = r.code

/-- The entries of a file. Other lines have fewer than four fields, or more, with something in the last one. -/
inductive HasRecords : List Str → List Record → Prop
  | nil : HasRecords [] []
  | record {l ls r rs} : RecordLine l r → HasRecords ls rs → HasRecords (l :: ls) (r :: rs)
  | other {l ls rs} : (splitOn '\t' l).length < 4 ∨ (4 < (splitOn '\t' l).length ∧ (splitOn '\t' l).getLast? ≠ some []) →
      HasRecords ls rs → HasRecords (l :: ls) rs

/-- Characters that say something other than themselves in a pattern. -/
def special : Str := c!"\\|()[{^$*+?"

/-- A word without special characters, taken as a pattern, matches itself. -/
def MatchesSelf (matched : Str → Str → Option Bool) : Prop := ∀ s, (∀ c ∈ s, c ∉ special) → matched s s = some true

/-- The text with the smaller character where they first differ, or the shorter one. -/
inductive Before : Str → Str → Prop
  | shorter {c s} : Before [] (c :: s)
  | char {c d s t} : c.toNat < d.toNat → Before (c :: s) (d :: t)
  | later {c s t} : Before s t → Before (c :: s) (c :: t)

/-- A word with its standard word and the numbers of its classes. -/
structure Entry where
  word : Str
  std : Str
  codes : List Nat
deriving DecidableEq, Repr

/-- `es` has one entry for each word and standard word in the file, with all the classes given there in the order of the file,
and is in the order of the texts. -/
def Collected (rs : List Record) (es : List Entry) : Prop :=
  es.Pairwise (fun a b => Before (a.word ++ '\t' :: a.std) (b.word ++ '\t' :: b.std)) ∧
  (∀ w s, (∃ e ∈ es, e.word = w ∧ e.std = s) ↔ ∃ r ∈ rs, r.word = w ∧ r.std = s) ∧
  ∀ e ∈ es, e.codes = (rs.filter (fun r => r.word = e.word ∧ r.std = e.std)).map (·.code)

/-- The name the class with a number has in the text: none for 4 and 5, and nothing at all above 33. -/
def className (n : Nat) : Str :=
  if n < 34 then
    match Props.inTable.find? (fun e => e.2.1 == (n : Int)) with
    | some e => e.1
    | none => c!"BADTOKEN"
  else []

/-- The line of an entry. -/
def Entry.line (e : Entry) : Str :=
  c!"LEXENTRY:\t" ++ e.word ++ c!"\t" ++ e.std ++ c!"\t" ++ joinWith c!"," (e.codes.map className) ++ c!"\t"

/-- The classes of a word with a standard word. PAGC has none above 33. -/
def ClassOf (rs : List Record) (w s : Str) (t : InType) : Prop :=
  ∃ r ∈ rs, r.word = w ∧ r.std = s ∧ r.code < 34 ∧ t.code = r.code

end Pagc
end AS
