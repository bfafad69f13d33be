import Verif.Model.Tester
import Verif.Spec.Wrapper
/-
Specification vocabulary for the command-line programs: what a line of their output shows.
-/
namespace AS
namespace Tester
open Wrapper
variable {D : Type}

/-- The six columns of a line that shows a token. -/
structure Shown where
  word : Str
  std : Str
  classes : Str
  out : Str
  attached : Str
  mark : Str

/-- The line: the columns after the word `TOKEN:`, each after a tab. -/
def Shown.line (s : Shown) : Str :=
  c!"TOKEN:" ++ '\t' :: s.word ++ '\t' :: s.std ++ '\t' :: s.classes ++ '\t' :: s.out ++ '\t' :: s.attached ++ '\t' :: s.mark

/-- A line of `n` dashes. -/
def bar (n : Nat) : Str := List.replicate n '-'

/-- The field an output class with this name belongs to. -/
def fieldNamed (name : Str) : Option Field :=
  if name = c!"BLDNG" then some .building
  else if name = c!"HOUSE" then some .houseNum
  else if name = c!"PREDIR" then some .predir
  else if name = c!"QUALIF" then some .qual
  else if name = c!"PRETYP" then some .pretype
  else if name = c!"STREET" then some .name
  else if name = c!"SUFTYP" then some .suftype
  else if name = c!"SUFDIR" then some .sufdir
  else if name = c!"RR" then some .ruralroute
  else if name = c!"CITY" then some .city
  else if name = c!"PROV" then some .prov
  else if name = c!"NATION" then some .country
  else if name = c!"POSTAL" then some .postcode
  else if name = c!"BOXH" ∨ name = c!"BOXT" then some .box
  else if name = c!"UNITH" ∨ name = c!"UNITT" then some .unit
  else if name = c!"EXTRA" ∨ name = c!"STOP" ∨ name = c!"BADTOKEN" then some .extra
  else none

/-- The standard texts of the lines shown for a field, in order. -/
def shownFor (f : Field) (ss : List Shown) : List Str :=
  (ss.filter (fun s => fieldNamed s.out = some f)).map (·.std)

/-- The address is made of the lines shown: each field the standard texts of its lines, separated by single blanks; a
field without line is empty. -/
def Made (a : StdAddr) (ss : List Shown) : Prop :=
  ∀ f, a.get f = if shownFor f ss = [] then none else some (upToNul (joinWith c!" " (shownFor f ss)))

/-- The lines shown in blocks are the rows, each block one alternative. -/
def ShowRows (blocks : List (List Shown)) (rows : List ParseRow) : Prop :=
  rows.map (fun r => (r.pat, r.word, r.inclass, r.attached)) =
    blocks.zipIdx.flatMap (fun p => p.1.map (fun s => (p.2, upToNul s.word, upToNul s.classes, upToNul s.attached)))

/-- A line of the listing. -/
def listed (dops : FloatOps D) (pattern : Str) (score nrules : D) : Str :=
  pattern ++ c!", " ++ dops.print score ++ c!", " ++ dops.print nrules

end Tester
end AS
