import Verif.Spec.Grammar
import Verif.Spec.Best
import Verif.Spec.Wrapper
/-
Grammars that differ in the output classes of their rules.
-/
namespace AS
open Wrapper
variable {F : Type}

/-- The second grammar is the first with other output classes: `f` says which rule stands for which, with the same input
classes and the same score. -/
structure OtherOutputs (f : Rule F → Rule F) (G H : Grammar F) : Prop where
  metas : H.metaNames = G.metaNames
  rules : H.ruleSections = G.ruleSections.map (fun s => (s.1, s.2.map f))
  inClass : ∀ r, (f r).inClass = r.inClass
  score : ∀ r, (f r).score = r.score

/-- A rule with each output class replaced by another. -/
def replaceOut (φ : OutType → OutType) (r : Rule F) : Rule F := { r with outClass := r.outClass.map φ }

/-- A token with its output class replaced. -/
def tokenOut (φ : OutType → OutType) (t : Token) : Token := { t with outclass := φ t.outclass }

/-- What belongs to the first field with the classes as they are belongs to the second when they are replaced. -/
def Moved (φ : OutType → OutType) (f f' : Field) : Prop := ∀ o, fieldOf o = some f ↔ fieldOf (φ o) = some f'

end AS
