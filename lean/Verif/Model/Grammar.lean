import Verif.Model.Rule
/-
Model of `Grammar`, `MetaSection`, `MetaRule`, `RuleSection`, `SectionPtr`
(src/grammar.cpp, src/grammar.h, src/metarule.cpp, src/metasection.h, src/rulesection.h,
src/sectionptr.h).

A text is a list of code points (valid UTF-8); invalid UTF-8, on which Boost's `u32regex` throws,
is not modelled except where the code itself produces it (BOM). Pointers into `metas_` and `rules_`
are indices; `NULL` is `none`.
-/
namespace AS

/-- The Unicode character tables of ICU used by `u32regex` for `\s` and `\w`, with what the code
relies on. -/
structure CharTables where
  isSpace : Char → Bool
  isWord  : Char → Bool
  space_not_word : ∀ c, isSpace c = true → isWord c = false
  space_underscore : isSpace '_' = false
  space_at : isSpace '@' = false
  space_hash : isSpace '#' = false
  space_open : isSpace '[' = false
  space_close : isSpace ']' = false
  word_at : isWord '@' = false
  cspace_space : ∀ c, isCSpace c = true → isSpace c = true

/-- ASCII instance, for examples. -/
def asciiTables : CharTables where
  isSpace := isCSpace
  isWord c := c.isAlphanum || c = '_'
  space_not_word := by
    intro c h
    simp only [isCSpace, Bool.or_eq_true, decide_eq_true_eq] at h
    rcases h with ((((rfl | rfl) | rfl) | rfl) | rfl) | rfl <;> decide
  space_underscore := by decide
  space_at := by decide
  space_hash := by decide
  space_open := by decide
  space_close := by decide
  word_at := by decide
  cspace_space := fun _ h => h

/-- `SectionPtr` (src/sectionptr.h:26-59). -/
structure SectionPtr where
  name : Str
  mptr : Option Nat := none
  rptr : Option Nat := none
deriving DecidableEq, Repr

/-- `MetaRule` (src/metarule.h:25-58): its references. -/
abbrev MetaRule := List SectionPtr

/-- `MetaSection` (src/metasection.h:27-68). -/
structure MetaSection where
  name  : Str
  rules : List MetaRule
deriving DecidableEq, Repr

/-- `RuleSection` (src/rulesection.h). -/
structure RuleSection (F : Type) where
  name  : Str
  rules : List (Rule F)
deriving DecidableEq, Repr

/-- `Grammar::Status` (src/grammar.h:61-65). -/
inductive Status where
  | CHECK_FATAL | CHECK_OK | CHECK_WARN
deriving DecidableEq, Repr

/-- `Grammar` (src/grammar.h:32-104). `md5in` is the string whose digest is `md5_`. -/
structure Grammar (F : Type) where
  metas        : List MetaSection := []
  rules        : List (RuleSection F) := []
  sectionIndex : List (Str × Nat) := []
  md5in        : Str := []
  issues       : Str := []
  status       : Status := .CHECK_OK
deriving DecidableEq, Repr

/-- `std::map::find` on an association list. -/
def mapFind {α : Type} (k : Str) : List (Str × α) → Option α
  | [] => none
  | (k', v) :: m => if k = k' then some v else mapFind k m

/-- `map[k] = v` on an association list (the order of the keys is not represented). -/
def mapSet {α : Type} (k : Str) (v : α) : List (Str × α) → List (Str × α)
  | [] => [(k, v)]
  | (k', v') :: m => if k = k' then (k, v) :: m else (k', v') :: mapSet k v m

/-! ### The regular expressions of the loader -/

/-- `re_comment = ^\s*#.*|^\s*$`, whole line (src/grammar.cpp:52). -/
def isCommentLine (ct : CharTables) (line : Str) : Bool :=
  match line.dropWhile ct.isSpace with
  | [] => true
  | c :: _ => c == '#'

/-- `re_section = ^\s*\[(.+)\]\s*$`, whole line; the captured name (src/grammar.cpp:53). -/
def sectionName? (ct : CharTables) (line : Str) : Option Str :=
  match line.dropWhile ct.isSpace with
  | [] => none
  | c :: cs =>
    if c = '[' then
      match cs.reverse.dropWhile ct.isSpace with
      | [] => none
      | d :: ds => if d = ']' ∧ ds ≠ [] then some ds.reverse else none
    else none

/-- `[\w_]`. -/
def isRefChar (ct : CharTables) (c : Char) : Bool := ct.isWord c || c == '_'

/-- Rest of a whole-line match of `re_ismeta = ^(?:\s*@(?:[\w_])+)+\s*$` (src/grammar.cpp:54).
State 0: before the first `@`; 1: just after an `@`; 2: inside a name; 3: blanks after a name. -/
def isMetaFrom (ct : CharTables) : Nat → Str → Bool
  | q, [] => q == 2 || q == 3
  | 0, c :: cs =>
    if ct.isSpace c then isMetaFrom ct 0 cs else if c = '@' then isMetaFrom ct 1 cs else false
  | 1, c :: cs => if isRefChar ct c then isMetaFrom ct 2 cs else false
  | 2, c :: cs =>
    if isRefChar ct c then isMetaFrom ct 2 cs
    else if c = '@' then isMetaFrom ct 1 cs
    else if ct.isSpace c then isMetaFrom ct 3 cs
    else false
  | _ + 3, c :: cs =>
    if ct.isSpace c then isMetaFrom ct 3 cs else if c = '@' then isMetaFrom ct 1 cs else false

/-- `u32regex_match( line, re_ismeta )`. -/
def isMetaLine (ct : CharTables) (line : Str) : Bool := isMetaFrom ct 0 line

/-- The successive matches of `@([\w_]+)` in `MetaRule::MetaRule(line)` (src/metarule.cpp:19-35).
The second argument is the name being captured, if any. -/
def metaRefsFrom (ct : CharTables) : Option Str → Str → List Str
  | none, [] => []
  | some w, [] => if w = [] then [] else [w]
  | none, c :: cs => if c = '@' then metaRefsFrom ct (some []) cs else metaRefsFrom ct none cs
  | some w, c :: cs =>
    if isRefChar ct c then metaRefsFrom ct (some (w ++ [c])) cs
    else
      (if w = [] then [] else [w]) ++
        (if c = '@' then metaRefsFrom ct (some []) cs else metaRefsFrom ct none cs)

/-- `MetaRule::MetaRule(line)` (src/metarule.cpp:19-35). -/
def metaRuleOfLine (ct : CharTables) (line : Str) : MetaRule :=
  (metaRefsFrom ct none line).map (fun n => { name := n })

/-! ### Loading -/

/-- `Grammar::RuleType` (src/grammar.h:84-88). -/
inductive RuleType where
  | ISMETA | ISRULE | UNKNWN
deriving DecidableEq, Repr

/-- What `initialize` can throw. -/
inductive GrammarError where
  | emptySection          -- Grammar-Empty-Section-Defined
  | duplicateSection      -- Grammar-Duplicate-Section_Name
  | syntaxError           -- Grammar-Syntax-Error
  | mixing                -- Grammar-Mixing-Rules-and-Metas
  | ruleNotValid (line : Str)  -- Rule-Not-Valid(...)
  | outOfRange            -- std::out_of_range from substr(4) or from decoding the cut line
  | inconsistent          -- Grammar-updatePointers-consistency-check-failed
  | fatal (issues : Str)  -- the issues
  | diverges              -- not an outcome of the code: bound of a loop model exceeded
deriving DecidableEq, Repr

/-- Local variables of `Grammar::initialize` (src/grammar.cpp:50-61) with the members it fills. -/
structure LoadState (F : Type) where
  grammarIn  : Str := []
  gotSection : Str := []
  ruleType   : RuleType := .UNKNWN
  mrules     : List MetaRule := []
  rules      : List (Rule F) := []
  g          : Grammar F := {}
deriving DecidableEq, Repr

variable {F : Type}

/-- Storing a meta section (src/grammar.cpp:84-90, 135-138). -/
def storeMeta (st : LoadState F) : LoadState F :=
  { st with
    g := { st.g with
      sectionIndex := mapSet st.gotSection st.g.metas.length st.g.sectionIndex
      metas := st.g.metas ++ [⟨st.gotSection, st.mrules⟩] }
    ruleType := .UNKNWN, mrules := [], rules := [] }

/-- Storing a rule section (src/grammar.cpp:93-99, 141-144). -/
def storeRules (st : LoadState F) : LoadState F :=
  { st with
    g := { st.g with
      sectionIndex := mapSet st.gotSection st.g.rules.length st.g.sectionIndex
      rules := st.g.rules ++ [⟨st.gotSection, st.rules⟩] }
    ruleType := .UNKNWN, mrules := [], rules := [] }

/-- Storing the section read so far, if it had lines (src/grammar.cpp:83-100, 141-152). -/
def storeSection (st : LoadState F) : LoadState F :=
  match st.ruleType with
  | .ISMETA => storeMeta st
  | .ISRULE => storeRules st
  | .UNKNWN => st

/-- Section header branch (src/grammar.cpp:78-108). -/
def loadHeader (st : LoadState F) (name : Str) : Except GrammarError (LoadState F) :=
  if st.ruleType ≠ .UNKNWN ∧ st.gotSection = [] then .error .emptySection
  else if (mapFind name (storeSection st).g.sectionIndex).isSome then .error .duplicateSection
  else .ok { storeSection st with gotSection := name }

/-- Data line branch (src/grammar.cpp:109-136). -/
def loadData (ct : CharTables) (fo : FloatOps F) (st : LoadState F) (line : Str) :
    Except GrammarError (LoadState F) :=
  if st.gotSection.length = 0 then .error .syntaxError
  else if '@' ∈ line then
    if st.ruleType = .ISRULE then .error .mixing
    else
      let st := { st with ruleType := .ISMETA }
      .ok (if isMetaLine ct line then { st with mrules := st.mrules ++ [metaRuleOfLine ct line] } else st)
  else
    if st.ruleType = .ISMETA then .error .mixing
    else
      let st := { st with ruleType := .ISRULE }
      match Rule.ofLine fo line with
      | .ok r => .ok { st with rules := st.rules ++ [r] }
      | .notValid => .error (.ruleNotValid line)
      | .diverges => .error .diverges

/-- Body of the loop after the line was read and the BOM removed (src/grammar.cpp:74-137). -/
def loadLine (ct : CharTables) (fo : FloatOps F) (st : LoadState F) (line : Str) :
    Except GrammarError (LoadState F) :=
  if isCommentLine ct line then .ok st
  else
    match sectionName? ct line with
    | some name => loadHeader st name
    | none => loadData ct fo st line

/-- Removal of a byte order mark (src/grammar.cpp:70-71): `line.substr(4)` removes the three bytes of
U+FEFF and one more byte. A line of only the mark throws; if the next character has more than one
byte, the rest is not valid UTF-8 and decoding it throws. -/
def stripBom (line : Str) : Except GrammarError Str :=
  match line with
  | [] => .ok []
  | c :: cs =>
    if c = '\uFEFF' then
      match cs with
      | [] => .error .outOfRange
      | d :: ds => if d.toNat < 128 then .ok ds else .error .outOfRange
    else .ok line

/-- The loop `while ( is )` (src/grammar.cpp:63-138). `line` is declared outside the loop, `cnt` is
`line_cnt`. -/
def loadLoop (ct : CharTables) (fo : FloatOps F) :
    Nat → IStream → Str → Nat → LoadState F → Except GrammarError (LoadState F)
  | 0, _, _, _, _ => .error .diverges
  | fuel + 1, is, line, cnt, st =>
    if is.fail then .ok st
    else
      let cnt := cnt + 1
      let (is, line) := is.getline '\n' line
      let st := { st with grammarIn := st.grammarIn ++ line }
      match (if cnt = 1 then stripBom line else .ok line) with
      | .error e => .error e
      | .ok line =>
        match loadLine ct fo st line with
        | .error e => .error e
        | .ok st => loadLoop ct fo fuel is line cnt st

/-- Saving the last section (src/grammar.cpp:140-158). -/
def loadFinish (st : LoadState F) : LoadState F :=
  if st.gotSection.length > 0 then { storeSection st with ruleType := .UNKNWN, mrules := [], rules := [] }
  else st

/-! ### updatePointers -/

/-- `issues_`, `references_`, `status_` during `updatePointers`. -/
structure UpState where
  issues : Str := []
  references : List (Str × Nat) := []
  status : Status := .CHECK_OK
deriving DecidableEq, Repr

/-- Updating the reference statistics (src/grammar.cpp:188-192). -/
def countRef (word : Str) (m : List (Str × Nat)) : List (Str × Nat) :=
  match mapFind word m with
  | none => mapSet word 1 m
  | some n => mapSet word (n + 1) m

/-- Resolving one reference (src/grammar.cpp:185-226). -/
def upRef (g : Grammar F) (idx : Nat) (metaName : Str) (st : UpState) (ref : SectionPtr) :
    Except GrammarError (UpState × SectionPtr) :=
  let word := ref.name
  let st := { st with references := countRef word st.references }
  if word = metaName then .ok (st, { ref with mptr := some idx })
  else
    match mapFind word g.sectionIndex with
    | some k =>
      if (g.metas[k]?).map (·.name) = some word then .ok (st, { ref with mptr := some k })
      else if (g.rules[k]?).map (·.name) = some word then .ok (st, { ref with rptr := some k })
      else .error .inconsistent
    | none =>
      .ok ({ st with
        issues := st.issues ++ c!"Missing rule: " ++ word ++ c!" : referenced at [" ++ metaName ++ c!"]\n"
        status := .CHECK_FATAL }, ref)

/-- Loop over the references of a meta rule (src/grammar.cpp:184). -/
def upRefs (g : Grammar F) (idx : Nat) (metaName : Str) :
    UpState → MetaRule → Except GrammarError (UpState × MetaRule)
  | st, [] => .ok (st, [])
  | st, r :: rs =>
    match upRef g idx metaName st r with
    | .error e => .error e
    | .ok (st, r) =>
      match upRefs g idx metaName st rs with
      | .error e => .error e
      | .ok (st, rs) => .ok (st, r :: rs)

/-- Loop over the meta rules of a section (src/grammar.cpp:181). -/
def upMetaRules (g : Grammar F) (idx : Nat) (metaName : Str) :
    UpState → List MetaRule → Except GrammarError (UpState × List MetaRule)
  | st, [] => .ok (st, [])
  | st, m :: ms =>
    match upRefs g idx metaName st m with
    | .error e => .error e
    | .ok (st, m) =>
      match upMetaRules g idx metaName st ms with
      | .error e => .error e
      | .ok (st, ms) => .ok (st, m :: ms)

/-- Loop over the meta sections (src/grammar.cpp:177). -/
def upMetas (g : Grammar F) : Nat → UpState → List MetaSection → Except GrammarError (UpState × List MetaSection)
  | _, st, [] => .ok (st, [])
  | idx, st, m :: ms =>
    match upMetaRules g idx m.name st m.rules with
    | .error e => .error e
    | .ok (st, rs) =>
      match upMetas g (idx + 1) st ms with
      | .error e => .error e
      | .ok (st, ms) => .ok (st, { m with rules := rs } :: ms)

/-- The unreferenced-section test (src/grammar.cpp:240-245, 265-270). -/
def upUnref (st : UpState) (name : Str) : UpState :=
  if (mapFind name st.references).isNone ∧ name ≠ c!"ADDRESS" then
    { st with
      issues := st.issues ++ c!"Rule '" ++ name ++ c!"' defined by not referenced!\n"
      status := if st.status = .CHECK_OK then .CHECK_WARN else st.status }
  else st

/-- Loop over the rules of a section (src/grammar.cpp:272-280). -/
def upValid (fo : FloatOps F) (name : Str) : Nat → UpState → List (Rule F) → UpState
  | _, st, [] => st
  | pos, st, r :: rs =>
    let st := if Rule.isValid fo r then st else
      { st with
        issues := st.issues ++ c!"Invalid rule at [" ++ name ++ c!"][" ++ (toString pos).toList ++ c!"]\n"
        status := .CHECK_FATAL }
    upValid fo name (pos + 1) st rs

/-- Loop over the rule sections (src/grammar.cpp:264-283); the last argument is `checked_`. -/
def upRules (fo : FloatOps F) : UpState → List Str → List (RuleSection F) → UpState
  | st, _, [] => st
  | st, checked, s :: ss =>
    let st := upUnref st s.name
    if s.name ∈ checked then upRules fo st checked ss
    else upRules fo (upValid fo s.name 1 st s.rules) (s.name :: checked) ss

/-- `Grammar::updatePointers` (src/grammar.cpp:171-285). -/
def updatePointers (fo : FloatOps F) (g : Grammar F) : Except GrammarError (Grammar F) :=
  match upMetas g 0 ({} : UpState) g.metas with
  | .error e => .error e
  | .ok (st, metas) =>
    let st := if (mapFind c!"ADDRESS" g.sectionIndex).isNone then
        { st with issues := st.issues ++ c!"Rule 'ADDRESS' is not defined!\n", status := Status.CHECK_FATAL }
      else st
    let st := (metas.map (·.name)).foldl upUnref st
    let st := upRules fo st [] g.rules
    .ok { g with metas := metas, issues := st.issues, status := st.status }

/-- `Grammar::initialize` (src/grammar.cpp:48-168) on a string stream. -/
def Grammar.initialize (ct : CharTables) (fo : FloatOps F) (text : Str) : Except GrammarError (Grammar F) :=
  match loadLoop ct fo (text.length + 3) (IStream.ofStr text) [] 0 ({} : LoadState F) with
  | .error e => .error e
  | .ok st =>
    match updatePointers fo (loadFinish st).g with
    | .error e => .error e
    | .ok g =>
      if g.status = .CHECK_FATAL then .error (.fatal g.issues)
      else .ok { g with md5in := st.grammarIn }

/-! ### Printing -/

/-- Loop of `operator<<(ostream, MetaRule)` (src/metarule.cpp:39-49). -/
def printMetaRuleLoop : Bool → MetaRule → Str
  | _, [] => []
  | first, e :: es => (if first then [] else c!" ") ++ c!"@" ++ e.name ++ printMetaRuleLoop false es

/-- `operator<<(ostream, MetaRule)`. -/
def printMetaRule (r : MetaRule) : Str := printMetaRuleLoop true r

/-- `operator<<(ostream, MetaSection)` (src/metasection.cpp:24-29). -/
def printMetaSection (s : MetaSection) : Str :=
  c!"[" ++ s.name ++ c!"]\n" ++ s.rules.flatMap (fun r => printMetaRule r ++ c!"\n")

/-- `operator<<(ostream, RuleSection)` (src/rulesection.cpp:24-29). -/
def printRuleSection (fo : FloatOps F) (s : RuleSection F) : Str :=
  c!"[" ++ s.name ++ c!"]\n" ++ s.rules.flatMap (fun r => Rule.print fo r ++ c!"\n")

/-- `operator<<(ostream, Grammar)` (src/grammar.cpp:289-298). -/
def Grammar.print (fo : FloatOps F) (g : Grammar F) : Str :=
  g.metas.flatMap (fun s => printMetaSection s ++ c!"\n") ++
  g.rules.flatMap (fun s => printRuleSection fo s ++ c!"\n")

end AS
