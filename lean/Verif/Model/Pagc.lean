import Verif.Model.Str
/-
Model of tools/convert-pagc-rules, the script that turns the numbered rules of PAGC into a grammar text.

Simplifications: the files named on the command line can all be opened; a line is read with its newline already taken off; what
Perl makes of a word that stands for a number is a parameter (`Numbers`); the type of a rule is compared as the whole number by
which the table is then indexed; messages on the standard error are not modelled.
-/
namespace AS
namespace Pagc

/-- What Perl does with words as numbers. -/
structure Numbers where
  /-- the whole number a word stands for when it is the index of an array -/
  int : Str → Int
  /-- what is printed for `$score/20.0` -/
  quot : Str → Str

/-- `@intypes` (tools/convert-pagc-rules:11-14). -/
def intypes : List Str := [c!"NUMBER", c!"WORD", c!"TYPE", c!"QUALIF", c!"BADTOKEN", c!"TYPE", c!"ROAD", c!"STOPWORD", c!"RR",
  c!"DASH", c!"CITY", c!"PROV", c!"NATION", c!"AMPERS", c!"BOXH", c!"ORD", c!"UNITH", c!"UNITT", c!"SINGLE", c!"BUILDH", c!"MILE",
  c!"DOUBLE", c!"DIRECT", c!"MIXED", c!"BUILDT", c!"FRACT", c!"PCT", c!"PCH", c!"QUINT", c!"QUAD", c!"PUNCT", c!"SPACE", c!"PLACEN",
  c!"EMDASH"]

/-- `@outtypes` (tools/convert-pagc-rules:16). -/
def outtypes : List Str := [c!"BLDNG", c!"HOUSE", c!"PREDIR", c!"QUALIF", c!"PRETYP", c!"STREET", c!"SUFTYP", c!"SUFDIR", c!"RR",
  c!"EXTRA", c!"CITY", c!"PROV", c!"NATION", c!"POSTAL", c!"BOXH", c!"BOXT", c!"UNITH", c!"UNITT"]

/-- `@sect` (tools/convert-pagc-rules:18). -/
def sect : List Str := [c!"MACRO", c!"MICRO", c!"ARC", c!"HOUSE", c!"BUILDING"]

/-- An element of an array: negative numbers count from the end; an element that does not exist prints as nothing
(tools/convert-pagc-rules:58-59). -/
def item (a : List Str) (i : Int) : Str :=
  if i < 0 then (if -i ≤ a.length then (a[(a.length + i).toNat]?).getD [] else [])
  else (a[i.toNat]?).getD []

/-- `$x =~ /^\d+\s+[-\d]+\s+/` (tools/convert-pagc-rules:42). -/
def accepted (x : Str) : Bool :=
  let a := x.dropWhile Char.isDigit
  let b := a.dropWhile isCSpace
  let c := b.dropWhile (fun c => c.isDigit || c = '-')
  decide (a ≠ x) && decide (b ≠ a) && decide (c ≠ b) && (c.head?.any isCSpace)

/-- The words `split(/\s+/, ...)` makes of a text that does not begin with a blank. `w` is the part of the current word already read,
in reverse (tools/convert-pagc-rules:48-50). -/
def blanks (w : Str) : Str → List Str
  | [] => if w.isEmpty then [] else [w.reverse]
  | c :: s =>
    if isCSpace c then (if w.isEmpty then blanks [] s else w.reverse :: blanks [] s)
    else blanks (c :: w) s

/-- The runs of words `split(/\s+-1\s+/, $x)` makes of a line that does not begin with a blank, as lists of words: a word `-1`
with blanks around it separates, except where the blanks before it are already part of the separation before it. `fresh` says
that this is the case, `open_` that the line ends in a blank (tools/convert-pagc-rules:43). -/
def runs (open_ : Bool) : Bool → List Str → List (List Str)
  | _, [] => [[]]
  | fresh, [w] => if w = c!"-1" ∧ fresh = false ∧ open_ = true then [[], []] else [[w]]
  | fresh, w :: v :: ws =>
    if w = c!"-1" ∧ fresh = false then [] :: runs open_ true (v :: ws)
    else
      match runs open_ false (v :: ws) with
      | [] => [[w]]
      | r :: rs => (w :: r) :: rs

/-- The fields of a line: `split` leaves out empty ones at the end (tools/convert-pagc-rules:43-51). The words of a field are what
`split(/\s+/, ...)` makes of it. -/
def fields (x : Str) : List (List Str) :=
  ((runs (x.getLast?.any isCSpace) false (blanks [] x)).reverse.dropWhile List.isEmpty).reverse

/-- A rule as it is kept: the names of its classes and the text of its score (tools/convert-pagc-rules:60). -/
structure Kept where
  ins : List Str
  outs : List Str
  score : Str
deriving DecidableEq, Repr

/-- What is kept of a line, with the index of the section; nothing if it is passed over (tools/convert-pagc-rules:42-60). A type
or score that is missing is the empty word. -/
def keep (nu : Numbers) (x : Str) : Option (Int × Kept) :=
  if accepted x then
    match fields x with
    | [ins, outs, ts] =>
      let type := ts[0]?.getD []
      let score := ts[1]?.getD []
      if ins.length ≠ outs.length then none
      else if nu.int type < 0 ∨ 4 < nu.int type then none
      else some (nu.int type, ⟨ins.map (fun w => item intypes (nu.int w)), outs.map (fun w => item outtypes (nu.int w)),
        nu.quot score⟩)
    | _ => none
  else none

/-- `join(' ', ...)`. -/
def joined : List Str → Str
  | [] => []
  | [w] => w
  | w :: ws => w ++ ' ' :: joined ws

/-- The line printed for a rule, without the newline (tools/convert-pagc-rules:81-82). -/
def ruleLine (k : Kept) : Str := joined k.ins ++ c!" -> " ++ joined k.outs ++ c!" -> " ++ k.score

/-- The rules kept for the section with the index `i`, in the order they are printed: `sort` keeps the order of rules it finds
equal (tools/convert-pagc-rules:60 and 80). -/
def section_ (ks : List (Int × Kept)) (i : Nat) : List Kept :=
  ((ks.filter (fun k => item sect k.1 = item sect i)).map (·.2)).mergeSort (fun a b => decide (b.ins.length ≤ a.ins.length))

/-- The first lines printed (tools/convert-pagc-rules:69-76). -/
def addressLines : List Str := [c!"[ADDRESS]", c!"@MICRO @MACRO", c!"@HOUSE @ARC @MACRO", c!"@BUILDING @MICRO @MACRO",
  c!"@BUILDING @HOUSE @ARC @MACRO", []]

/-- The lines printed for a section (tools/convert-pagc-rules:78-84). -/
def sectionLines (ks : List (Int × Kept)) (i : Nat) : List Str :=
  ('[' :: item sect i ++ [']']) :: ((section_ ks i).map ruleLine ++ [[]])

/-- The text printed for the lines of the files, in the order of the files (tools/convert-pagc-rules:28-34 and 67-86). -/
def convert (nu : Numbers) (lines : List Str) : Str :=
  let ks := lines.filterMap (keep nu)
  (addressLines ++ [0, 1, 2, 3, 4].flatMap (sectionLines ks)).flatMap (fun l => l ++ ['\n'])

end Pagc
end AS
