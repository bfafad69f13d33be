import Verif.Model.Lexicon
/-
What lexicon entries, lexicon histories and lexicon texts mean.
-/
namespace AS

/-- The parts of a text between occurrences of a character; one more than there are occurrences. -/
def splitOn (d : Char) : Str → List Str
  | [] => [[]]
  | c :: cs =>
    if c = d then [] :: splitOn d cs
    else
      match splitOn d cs with
      | [] => [[c]]
      | l :: ls => (c :: l) :: ls

/-! ### Entries -/

/-- The fields of an entry line: the parts between tabs, without the tag. -/
def entryFields (line : Str) : List Str :=
  match splitOn '\t' line with
  | f :: g :: gs => if f = c!"LEXENTRY:" then g :: gs else f :: g :: gs
  | fs => fs

/-- The entry a line stands for: word, standard word, classes (C02), attachments (C03); missing fields
are empty, further ones ignored. -/
def entryOf (line : Str) : LexEntry :=
  { word := (entryFields line).getD 0 []
    stdword := (entryFields line).getD 1 []
    type := InType.asType ((entryFields line).getD 2 [])
    attached := Attach.asAttach ((entryFields line).getD 3 []) }

/-! ### Histories -/

/-- Changes of a lexicon. -/
inductive LexOp where
  | ins (e : LexEntry)
  | rem (e : LexEntry)
deriving DecidableEq, Repr

/-- The entries held after a history, in the order of insertion. -/
def held : List LexOp → List LexEntry
  | ops => ops.foldl (fun h op =>
      match op with
      | .ins e => if e ∈ h then h else h ++ [e]
      | .rem e => h.filter (fun x => x ≠ e)) []

/-- Applying a change. -/
def LexOp.apply (l : Lexicon) : LexOp → Lexicon
  | .ins e => l.insert e
  | .rem e => l.remove e

/-- Uses of a lexicon: changes and requests for the patterns. -/
inductive LexUse where
  | change (op : LexOp)
  | regex
  | regexPrefixAtt
  | regexSuffixAtt
deriving DecidableEq, Repr

/-- Applying a use. -/
def LexUse.apply (l : Lexicon) : LexUse → Lexicon
  | .change op => op.apply l
  | .regex => l.regex.1
  | .regexPrefixAtt => l.regexPrefixAtt.1
  | .regexSuffixAtt => l.regexSuffixAtt.1

/-- The changes among the uses. -/
def LexUse.changes : List LexUse → List LexOp
  | [] => []
  | .change op :: us => op :: changes us
  | _ :: us => changes us

/-! ### Texts -/

/-- Every run of blanks replaced by a single blank. -/
def squeeze (s : Str) : Str :=
  match splitOn ' ' s with
  | [] => []
  | [p] => p
  | p :: q :: ps =>
    joinWith [' '] (p :: ((q :: ps).dropLast.filter (fun x => x ≠ [])) ++ [(q :: ps).getLast (by simp)])

/-- An entry line in the form in which it is interpreted. -/
def canonLine (icu : Icu) (loc line : Str) : Str :=
  if loc = [] then icu.norm (squeeze line) else icu.upper loc (icu.norm (squeeze line))

/-- The lines are blank or stand for the entries. -/
inductive BodyMeans (icu : Icu) (loc : Str) : List Str → List LexEntry → Prop
  | nil : BodyMeans icu loc [] []
  | blank {ls es} : BodyMeans icu loc ls es → BodyMeans icu loc ([] :: ls) es
  | entry {l ls es} : (c!"LEXENTRY:" <+: l ∨ c!"LexEntry:" <+: l) →
      InType.BADTOKEN ∉ (entryOf (canonLine icu loc l)).type → BodyMeans icu loc ls es →
      BodyMeans icu loc (l :: ls) (entryOf (canonLine icu loc l) :: es)

/-- The lines as they are processed: the last line, if not empty (no final newline), is processed
again in its canonical form. -/
def linesRead (icu : Icu) (loc : Str) : List Str → List Str
  | [] => []
  | [l] => if l = [] then [l] else [l, canonLine icu loc l]
  | l :: l' :: ls => l :: linesRead icu loc (l' :: ls)

/-- The language a header line gives: the third field, or the last one if there are fewer. -/
def headerLang (h : Str) : Lang :=
  let fs := splitOn '\t' h
  Lang.asLang (fs.getD 2 (fs.getLastD []))

/-- The locale a header line gives: the fourth field, or none. -/
def headerLocale (h : Str) : Str := (splitOn '\t' h).getD 3 []

/-- A text consists of lines that are neither header nor entry, a header line `h`, and the lines `body`
after it. -/
def HasHeader (lines : List Str) (h : Str) (body : List Str) : Prop :=
  ∃ pre, lines = pre ++ h :: body ∧ (∀ l ∈ pre, ¬ c!"LEXICON:" <+: l ∧ ¬ c!"LEXENTRY:" <+: l) ∧ c!"LEXICON:" <+: h

/-- The first line as it is compared with the header: a byte order mark is removed together with the
byte that follows it. -/
inductive AfterBom : Str → Str → Prop
  | plain {p : Str} : p.head? ≠ some '\uFEFF' → AfterBom p p
  | cut {c : Char} {cs : Str} : c.toNat < 128 → AfterBom ('\uFEFF' :: c :: cs) cs
  | broken {c : Char} {cs : Str} : 128 ≤ c.toNat → AfterBom ('\uFEFF' :: c :: cs) ('\uFFFD' :: cs)

/-- The text has the header `h`, after it at least the end of the header line, and stands for the
entries `es`. -/
def LexText (icu : Icu) (text h : Str) (es : List LexEntry) : Prop :=
  ∃ p ps p' body, splitOn '\n' text = p :: ps ∧ AfterBom p p' ∧ HasHeader (p' :: ps) h body ∧ body ≠ [] ∧
    (splitOn '\t' h).head? = some c!"LEXICON:" ∧
    BodyMeans icu (headerLocale h) (linesRead icu (headerLocale h) body) es

/-- No two blanks in a row. -/
def NoBlankRun (s : Str) : Prop := ∀ a b, s ≠ a ++ ' ' :: ' ' :: b

end AS
