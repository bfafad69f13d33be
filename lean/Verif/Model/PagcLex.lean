import Verif.Model.Pagc
/-
Model of tools/convert-pagc-lex-gaz, the script that turns the lexicon and gazetteer of PAGC into a lexicon text.

Simplifications: the files named on the command line can all be opened; a line is read with its newline already taken off; what
Perl makes of a word as a number, and whether a text matches a word taken as a pattern, are parameters; an element of the hash
that only an access has made (line 48) is not looked up again, as its key has no tab.
-/
namespace AS
namespace Pagc

/-- `@types` (tools/convert-pagc-lex-gaz:6-9). -/
def types : List Str := [c!"NUMBER", c!"WORD", c!"TYPE", c!"QUALIF", c!"BADTOKEN", c!"BADTOKEN", c!"ROAD", c!"STOPWORD", c!"RR",
  c!"DASH", c!"CITY", c!"PROV", c!"NATION", c!"AMPERS", c!"BOXH", c!"ORD", c!"UNITH", c!"UNITT", c!"SINGLE", c!"BUILDH", c!"MILE",
  c!"DOUBLE", c!"DIRECT", c!"MIXED", c!"BUILDT", c!"FRACT", c!"PCT", c!"PCH", c!"QUINT", c!"QUAD", c!"PUNCT", c!"SPACE", c!"PLACEN",
  c!"EMDASH"]

/-- The parts between tabs; `f` is the part of the current one already read, in reverse (tools/convert-pagc-lex-gaz:33). -/
def tabs (f : Str) : Str → List Str
  | [] => [f.reverse]
  | c :: s => if c = '\t' then f.reverse :: tabs [] s else tabs (c :: f) s

/-- `split(/\t/, $x)` leaves out empty parts at the end (tools/convert-pagc-lex-gaz:33). -/
def tabFields (x : Str) : List Str := ((tabs [] x).reverse.dropWhile List.isEmpty).reverse

/-- What is kept of a word: the word, its standard word and the names of its classes (tools/convert-pagc-lex-gaz:41). -/
structure Slot where
  word : Str
  std : Str
  classes : List Str
deriving DecidableEq, Repr

/-- The hash, by the order in which the keys came; an empty array that only an access has made is `none`. -/
abbrev Table := List (Str × Option Slot)

/-- `push` to the classes of a key (tools/convert-pagc-lex-gaz:45). -/
def Table.push (t : Table) (key name : Str) : Table :=
  t.map (fun e => if e.1 = key then (e.1, e.2.map (fun s => { s with classes := s.classes ++ [name] })) else e)

/-- Access to a key makes an empty array if it is new (tools/convert-pagc-lex-gaz:48). -/
def Table.touch (t : Table) (key : Str) : Table := if (t.lookup key).isSome then t else t ++ [(key, none)]

/-- What one line does to the hash and to the output; nothing if the standard word is no pattern, which ends the script
(tools/convert-pagc-lex-gaz:32-50). `matched p s` says whether `s =~ /^p$/i`. -/
def readLine (nu : Numbers) (matched : Str → Str → Option Bool) (st : Table × Str) (x : Str) : Option (Table × Str) :=
  match tabFields x with
  | [_, w, c, s] =>
    let key := w ++ '\t' :: s
    let name := item types (nu.int c)
    match st.1.lookup key with
    | none => some (st.1 ++ [(key, some ⟨w, s, [name]⟩)], st.2)
    | some d =>
      match matched s (d.elim [] (·.std)) with
      | none => none
      | some true => some (st.1.push key name, st.2)
      | some false =>
        let old := ((st.1.lookup w).bind id).elim [] (·.word)
        some (st.1.touch w, st.2 ++ c!"Different stdwords for '" ++ w ++ c!"': '" ++ s ++ c!"' vs '" ++ old ++ c!"'\n")
  | _ => some st

/-- All lines (tools/convert-pagc-lex-gaz:19-21 and 27-54). -/
def readLines (nu : Numbers) (matched : Str → Str → Option Bool) : Table × Str → List Str → Option (Table × Str)
  | st, [] => some st
  | st, x :: xs => (readLine nu matched st x).bind (fun st => readLines nu matched st xs)

/-- `le` of `sort`, by the numbers of the characters. -/
def textLe : Str → Str → Bool
  | [], _ => true
  | _ :: _, [] => false
  | c :: s, d :: t => if c = d then textLe s t else decide (c.toNat < d.toNat)

/-- A key put into its place. -/
def place (e : Str × Option Slot) : Table → Table
  | [] => [e]
  | f :: t => if textLe e.1 f.1 then e :: f :: t else f :: place e t

/-- `sort keys %lexi`, with what is kept of each key (tools/convert-pagc-lex-gaz:59). -/
def sortKeys : Table → Table
  | [] => []
  | e :: t => place e (sortKeys t)

/-- `join(",", ...)`. -/
def commas : List Str → Str
  | [] => []
  | [w] => w
  | w :: ws => w ++ ',' :: commas ws

/-- The entries printed, in the order of the keys; at an empty array the script ends, since it has no classes to join
(tools/convert-pagc-lex-gaz:59-63). -/
def printSlots : List (Option Slot) → Str
  | [] => []
  | none :: _ => []
  | some s :: ss => c!"LEXENTRY:\t" ++ s.word ++ c!"\t" ++ s.std ++ c!"\t" ++ commas s.classes ++ c!"\t\n" ++ printSlots ss

/-- The header line (tools/convert-pagc-lex-gaz:58). -/
def lexHeader : Str := c!"LEXICON:\tpagc-converted\tUSA\ten_US\t"

/-- What is printed for the lines of the files, in the order of the files; nothing if a standard word is no pattern
(tools/convert-pagc-lex-gaz:17-64). -/
def convertLex (nu : Numbers) (matched : Str → Str → Option Bool) (lines : List Str) : Option Str :=
  (readLines nu matched ([], []) lines).map (fun st =>
    st.2 ++ lexHeader ++ ['\n'] ++ printSlots ((sortKeys st.1).map (·.2)))

end Pagc
end AS
