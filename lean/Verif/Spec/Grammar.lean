import Verif.Model.Grammar
import Verif.Spec.Rule
import Verif.Spec.Best
/-
What a grammar text means.
-/
namespace AS
variable {F : Type}

/-- The lines of a text: the parts between newline characters; one more than there are newlines. -/
def splitLines : Str → List Str
  | [] => [[]]
  | c :: cs =>
    if c = '\n' then [] :: splitLines cs
    else
      match splitLines cs with
      | [] => [[c]]
      | l :: ls => (c :: l) :: ls

/-- A text of lines that all end in a newline. -/
def unlines (ls : List Str) : Str := ls.flatMap (fun l => l ++ ['\n'])

/-- All characters are blank. -/
def Blank (ct : CharTables) (s : Str) : Prop := ∀ c ∈ s, ct.isSpace c = true

/-- A blank line or a comment. -/
def IsComment (ct : CharTables) (l : Str) : Prop :=
  Blank ct l ∨ ∃ a b, l = a ++ '#' :: b ∧ Blank ct a

/-- A section header `[name]`. -/
def IsHeader (ct : CharTables) (l name : Str) : Prop :=
  name ≠ [] ∧ ∃ a b, l = a ++ '[' :: name ++ ']' :: b ∧ Blank ct a ∧ Blank ct b

/-- A list of references `@name @name ...`, possibly without blanks between them. -/
def IsRefs (ct : CharTables) (l : Str) (names : List Str) : Prop :=
  names ≠ [] ∧ (∀ n ∈ names, n ≠ [] ∧ ∀ c ∈ n, (ct.isWord c || c == '_') = true) ∧
  ∃ (gaps : List Str) (b : Str), gaps.length = names.length ∧ (∀ g ∈ gaps, Blank ct g) ∧ Blank ct b ∧
    l = (List.zipWith (fun g n => g ++ '@' :: n) gaps names).flatten ++ b

/-- `Groups ct ls pre gs`: `pre` are the data lines (neither comment nor header) before the first
header among `ls`, `gs` the headers with the data lines that follow each. -/
inductive Groups (ct : CharTables) : List Str → List Str → List (Str × List Str) → Prop
  | nil : Groups ct [] [] []
  | comment {l : Str} {ls pre : List Str} {gs : List (Str × List Str)} :
      IsComment ct l → Groups ct ls pre gs → Groups ct (l :: ls) pre gs
  | header {l name : Str} {ls pre : List Str} {gs : List (Str × List Str)} :
      ¬ IsComment ct l → IsHeader ct l name → Groups ct ls pre gs → Groups ct (l :: ls) [] ((name, pre) :: gs)
  | data {l : Str} {ls pre : List Str} {gs : List (Str × List Str)} :
      ¬ IsComment ct l → (∀ name, ¬ IsHeader ct l name) → Groups ct ls pre gs → Groups ct (l :: ls) (l :: pre) gs

/-- The lines mean the rules, one by one. -/
inductive RulesMean (fo : FloatOps F) : List Str → List (Rule F) → Prop
  | nil : RulesMean fo [] []
  | cons {l : Str} {ls : List Str} {r : Rule F} {rs : List (Rule F)} :
      RuleMeans fo l r → RulesMean fo ls rs → RulesMean fo (l :: ls) (r :: rs)

/-- The lines mean the lists of references; a line that is not a list of references means nothing. -/
inductive MetasMean (ct : CharTables) : List Str → List (List Str) → Prop
  | nil : MetasMean ct [] []
  | cons {l : Str} {ls : List Str} {ns : List Str} {ms : List (List Str)} :
      IsRefs ct l ns → MetasMean ct ls ms → MetasMean ct (l :: ls) (ns :: ms)
  | skip {l : Str} {ls : List Str} {ms : List (List Str)} :
      (∀ ns, ¬ IsRefs ct l ns) → MetasMean ct ls ms → MetasMean ct (l :: ls) ms

/-- The sections the groups define: groups without lines none, groups all of whose lines contain `@`
a meta section, groups none of whose lines does a rule section. -/
inductive Sections (ct : CharTables) (fo : FloatOps F) :
    List (Str × List Str) → List (Str × List (List Str)) → List (Str × List (Rule F)) → Prop
  | nil : Sections ct fo [] [] []
  | empty {n gs ms rs} : Sections ct fo gs ms rs → Sections ct fo ((n, []) :: gs) ms rs
  | metas {n ls gs ms rs mm} : ls ≠ [] → (∀ l ∈ ls, '@' ∈ l) → MetasMean ct ls mm → Sections ct fo gs ms rs →
      Sections ct fo ((n, ls) :: gs) ((n, mm) :: ms) rs
  | rules {n ls gs ms rs rr} : ls ≠ [] → (∀ l ∈ ls, '@' ∉ l) → RulesMean fo ls rr → Sections ct fo gs ms rs →
      Sections ct fo ((n, ls) :: gs) ms ((n, rr) :: rs)

/-- No header repeats the name of an earlier section. -/
def NoRepeat (gs : List (Str × List Str)) : Prop :=
  gs.Pairwise (fun a b => a.2 ≠ [] → b.1 ≠ a.1)

/-- The lines of a grammar text define these sections. -/
def GrammarMeans (ct : CharTables) (fo : FloatOps F) (lines : List Str) (ms : List (Str × List (List Str)))
    (rs : List (Str × List (Rule F))) : Prop :=
  ∃ gs, Groups ct lines [] gs ∧ NoRepeat gs ∧ Sections ct fo gs ms rs

/-- A reference to a section that is not defined. -/
def Dangling (ms : List (Str × List (List Str))) (rs : List (Str × List (Rule F))) : Prop :=
  ∃ m ∈ ms, ∃ refs ∈ m.2, ∃ n ∈ refs, n ∉ ms.map (·.1) ∧ n ∉ rs.map (·.1)

/-- There is a section ADDRESS. -/
def Rooted (ms : List (Str × List (List Str))) (rs : List (Str × List (Rule F))) : Prop :=
  c!"ADDRESS" ∈ ms.map (·.1) ∨ c!"ADDRESS" ∈ rs.map (·.1)

/-- Some section other than ADDRESS is referenced nowhere. -/
def Unreferenced (ms : List (Str × List (List Str))) (rs : List (Str × List (Rule F))) : Prop :=
  ∃ n, (n ∈ ms.map (·.1) ∨ n ∈ rs.map (·.1)) ∧ n ≠ c!"ADDRESS" ∧ ∀ m ∈ ms, ∀ refs ∈ m.2, n ∉ refs

/-- The sections of a grammar, pointers left out. -/
def Grammar.metaNames (g : Grammar F) : List (Str × List (List Str)) :=
  g.metas.map (fun m => (m.name, m.rules.map (fun r => r.map (·.name))))

/-- The rule sections of a grammar. -/
def Grammar.ruleSections (g : Grammar F) : List (Str × List (Rule F)) :=
  g.rules.map (fun s => (s.name, s.rules))

end AS
