import Verif.Spec.Mirror
/-
Grammars in which the references to a section of references are written out.
-/
namespace AS
variable {F : Type}

/-- A line of references in which each reference to the section has been replaced by one of the section's lines, in
all ways. -/
def writeOut (t : Str) (ls : List (List Str)) : List Str → List (List Str)
  | [] => [[]]
  | n :: ns => if n = t then ls.flatMap (fun l => (writeOut t ls ns).map (l ++ ·)) else (writeOut t ls ns).map (n :: ·)

/-- The second grammar is the first with the references to the section `t` written out in the other sections, the
lines in whatever order. The section itself remains. -/
def Inlined (t : Str) (G H : Grammar F) : Prop :=
  ∃ ls, (t, ls) ∈ G.metaNames ∧
    Alike (G.metaNames.map (fun s => if s.1 = t then s else (s.1, s.2.flatMap (writeOut t ls)))) H.metaNames ∧
    Alike G.ruleSections H.ruleSections

end AS
