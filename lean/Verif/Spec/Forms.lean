import Verif.Spec.Samples
import Verif.Spec.Plain
import Verif.Spec.Further
/-
Forms of addresses: the classes of the words, and how they are read.
-/
namespace AS

/-- A word of a form: the class it is taken in, the class it is given, and the classes it must not have. -/
structure Slot where
  taken : InType
  given : OutType
  without : List InType
deriving DecidableEq, Repr

/-- The classes of a word suit the place: the class it is taken in is among them, and none of those it must not have. -/
def Slot.Fits (s : Slot) (cs : List InType) : Prop := s.taken ∈ cs ∧ ∀ c ∈ s.without, c ∉ cs

/-- A form: its words. -/
abbrev Form := List Slot

/-- The classes the words are taken in, and those they are given. -/
def Form.ins (x : Form) : List InType := x.map (·.taken)
def Form.outs (x : Form) : List OutType := x.map (·.given)

/-- The lists of classes suit the form, word by word. -/
def Form.Fits (x : Form) (css : List (List InType)) : Prop := Along Slot.Fits x css

/-- The text that shows how the words are taken. -/
def Form.pattern (x : Form) : Str :=
  joinWith c!" " (x.ins.map (·.asString) ++ [c!"->"] ++ x.outs.map (·.asString))

end AS
