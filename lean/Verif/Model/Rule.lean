import Verif.Model.InClass
import Verif.Model.OutClass
import Verif.Model.Float
/-
Model of `Rule` (src/rule.h, src/rule.cpp). Characters are code points of a valid UTF-8 text; the
blanks of `>>` are ASCII.
-/
namespace AS

/-- `Rule` (src/rule.h:24-88). -/
structure Rule (F : Type) where
  inClass  : List InType
  outClass : List OutType
  score    : F
deriving DecidableEq, Repr

namespace Rule
variable {F : Type} (fo : FloatOps F)

/-- `Rule::Rule()` (src/rule.h:38). -/
def empty : Rule F := ⟨[], [], fo.zero⟩

/-- One pass through the `switch` of `Rule::Rule(line)` (src/rule.cpp:30-44). -/
def readToken (st : Nat × Rule F) (token : Str) : Nat × Rule F :=
  if token = c!"->" then (st.1 + 1, st.2)
  else
    match st.1 with
    | 0 => (0, { st.2 with inClass := st.2.inClass ++ [InType.asOneType token] })
    | 1 => (1, { st.2 with outClass := st.2.outClass ++ [OutType.asType token] })
    | 2 => (2, { st.2 with score := fo.parse token })
    | n => (n, st.2)

/-- The loop `while (not buffer.eof())` of `Rule::Rule(line)` (src/rule.cpp:27-45). `token` is the
variable declared outside the loop. `none`: the bound is too small. -/
def readLoop : Nat → IStream → Str → Nat × Rule F → Option (Nat × Rule F)
  | 0, _, _, _ => none
  | fuel + 1, buffer, token, st =>
    if buffer.eof then some st
    else
      let (buffer, token) := buffer.readWord token
      readLoop fuel buffer token (readToken fo st token)

/-- `Rule::isValid` (src/rule.cpp:72-77). -/
def isValid (r : Rule F) : Bool :=
  if r.inClass.length ≠ r.outClass.length ∨ fo.le0 r.score = true then false else true

/-- `Rule::isEmpty` (src/rule.cpp:68-70); the comparison `score_==0` is a parameter. -/
def isEmpty (eq0 : F → Bool) (r : Rule F) : Bool :=
  r.inClass.length == 0 && r.outClass.length == 0 && eq0 r.score

/-- Outcome of constructing a rule. -/
inductive Made (α : Type) where
  | ok (r : α)
  | notValid
  | diverges
deriving DecidableEq, Repr

/-- `Rule::Rule(line)` (src/rule.cpp:21-51). -/
def ofLine (line : Str) : Made (Rule F) :=
  match readLoop fo (line.length + 3) (IStream.ofStr line) [] (0, empty fo) with
  | none => .diverges
  | some (_, r) => if isValid fo r then .ok r else .notValid

/-- `Rule::in(pos)` (src/rule.cpp:54-58). -/
def inAt (r : Rule F) (pos : Nat) : InType := (r.inClass[pos]?).getD .BADTOKEN

/-- `Rule::out(pos)` (src/rule.cpp:61-65). -/
def outAt (r : Rule F) (pos : Nat) : OutType := (r.outClass[pos]?).getD .BADTOKEN

/-- `Rule::concat` (src/rule.cpp:82-96); `half` is `x / 2.0` narrowed to float. -/
def concat (half : F → F) (r s : Rule F) : Rule F :=
  ⟨r.inClass ++ s.inClass, r.outClass ++ s.outClass, half (fo.add r.score s.score)⟩

/-- Loop of `Rule::match` (src/rule.cpp:105-110); the iterator `it` cannot run past the end
because of the size test before the loop. -/
def matchLoop : List InType → List InType → Bool
  | [], _ => true
  | _ :: _, [] => false
  | e :: es, p :: ps => if e ≠ p then false else matchLoop es ps

/-- `Rule::match` (src/rule.cpp:101-112). -/
def matchPat (r : Rule F) (pat : List InType) : Bool :=
  if pat.length < r.inClass.length then false else matchLoop r.inClass pat

/-- First loop of `operator<<` (src/rule.cpp:148-149). -/
def printIn : List InType → Str
  | [] => []
  | t :: ts => t.asString ++ c!" " ++ printIn ts

/-- Second loop of `operator<<` (src/rule.cpp:151-152). -/
def printOut : List OutType → Str
  | [] => []
  | t :: ts => t.asString ++ c!" " ++ printOut ts

/-- `operator<<(ostream, Rule)` (src/rule.cpp:145-156). -/
def print (r : Rule F) : Str :=
  printIn r.inClass ++ c!"-> " ++ printOut r.outClass ++ c!"-> " ++ fo.print r.score

end Rule
end AS
