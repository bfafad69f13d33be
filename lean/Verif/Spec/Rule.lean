import Verif.Spec.Codec
import Verif.Model.Rule
/-
What a rule line means.
-/
namespace AS

/-- White space in the C locale. -/
def whiteSpace (c : Char) : Bool :=
  c = ' ' || c = '\t' || c = '\n' || c = '\x0b' || c = '\x0c' || c = '\r'

/-- The maximal runs of non-blank characters. -/
def words : Str → List Str
  | [] => []
  | c :: cs =>
    if whiteSpace c then words cs
    else
      match cs with
      | [] => [[c]]
      | d :: _ =>
        if whiteSpace d then [c] :: words cs
        else
          match words cs with
          | [] => [[c]]
          | w :: ws => (c :: w) :: ws

/-- The runs of words between the arrows; there is one more run than arrows. -/
def splitArrow : List Str → List (List Str)
  | [] => [[]]
  | w :: ws =>
    if w = c!"->" then [] :: splitArrow ws
    else
      match splitArrow ws with
      | [] => [[w]]
      | s :: ss => (w :: s) :: ss

/-- The line `in... -> out... -> ... score` (possibly followed by another arrow and anything) is well
formed and means the rule `r`. -/
def RuleMeans {F : Type} (fo : FloatOps F) (line : Str) (r : Rule F) : Prop :=
  ∃ ins outs before score rest,
    splitArrow (words line) = ins :: outs :: (before ++ [score]) :: rest ∧
    ins.length = outs.length ∧ fo.le0 (fo.parse score) = false ∧
    r = ⟨ins.map Props.inNamed, outs.map Props.outNamed, fo.parse score⟩

end AS
