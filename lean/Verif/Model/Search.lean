import Verif.Model.Grammar
import Verif.Model.Token
/-
Model of `Search` (src/search.h, src/search.cpp).

`Search` copies the grammar it is constructed from; the pointers inside the copied meta rules still
point into the original (src/search.h:54), which the callers keep alive and never change. The model
therefore reads both through the same indices. Code under `TRACING_SEARCH` is not modelled.
-/
namespace AS
variable {F : Type}

/-- `SearchPath` (src/search.h:28-33). -/
structure SearchPath (F : Type) where
  rules     : List (Rule F) := []
  next      : List SectionPtr := []
  remaining : List InType := []
deriving DecidableEq, Repr

/-- Appending the results of a computation on every element of a list; `none` as soon as one of
them is `none`. -/
def flatMapM {α β : Type} (f : α → Option (List β)) : List α → Option (List β)
  | [] => some []
  | x :: xs =>
    match f x with
    | none => none
    | some ys =>
      match flatMapM f xs with
      | none => none
      | some zs => some (ys ++ zs)

/-- Loop of `Search::matchRule` (src/search.cpp:426-438): what is left of the pattern when the
classes of the rule match its start. -/
def matchPrefix : List InType → List InType → Option (List InType)
  | [], pat => some pat
  | _ :: _, [] => none
  | e :: es, p :: ps => if p = e then matchPrefix es ps else none

/-- `Search::matchRule` (src/search.cpp:411-456). -/
def matchRule (r : Rule F) (path : SearchPath F) : SearchPath F :=
  if r.inClass.length > path.remaining.length then {}
  else
    match matchPrefix r.inClass path.remaining with
    | none => {}
    | some rest => { path with rules := path.rules ++ [r], remaining := rest }

/-- Loop over the rules of a section (src/search.cpp:322-326). -/
def matchRules (path : SearchPath F) : List (Rule F) → List (SearchPath F)
  | [] => []
  | r :: rs =>
    let mr := matchRule r path
    if mr.rules.length > 0 then mr :: matchRules path rs else matchRules path rs

/-- `Search::match( sectionPtr, path, level )` (src/search.cpp:274-337). `mnext` is
`matchNext( path, level )`; `none` stands for an unfinished recursion or a dangling pointer. -/
def matchPath (g : Grammar F) (limit : Nat) (mnext : SearchPath F → Nat → Option (List (SearchPath F)))
    (ptr : SectionPtr) (path : SearchPath F) (level : Nat) : Option (List (SearchPath F)) :=
  if level > limit then some []
  else
    match ptr.mptr with
    | some i =>
      match g.metas[i]? with
      | none => none
      | some m =>
        flatMapM (fun refs =>
          let current := { path with next := refs ++ path.next }
          if current.next.length > 0 then mnext current level else some []) m.rules
    | none =>
      match ptr.rptr with
      | some i =>
        match g.rules[i]? with
        | none => none
        | some s => some (matchRules path s.rules)
      | none => some []

/-- `Search::matchNext( paths, level )` (src/search.cpp:340-357). -/
def matchNextAll (mnext : SearchPath F → Nat → Option (List (SearchPath F)))
    (paths : List (SearchPath F)) (level : Nat) : Option (List (SearchPath F)) :=
  flatMapM (fun path => if path.next.length > 0 then mnext path level else some []) paths

/-- `Search::matchNext( path, level )` (src/search.cpp:360-408). -/
def matchNext (g : Grammar F) (limit : Nat) : Nat → SearchPath F → Nat → Option (List (SearchPath F))
  | 0, _, _ => none
  | fuel + 1, path, level =>
    match path.next with
    | [] => some []
    | ptr :: rest =>
      match matchPath g limit (matchNext g limit fuel) ptr { path with next := rest } (level + 1) with
      | none => none
      | some mr =>
        flatMapM (fun result =>
          if result.next.length > 0 then matchNextAll (matchNext g limit fuel) mr level
          else some [result]) mr

/-- Length of the longest meta rule. -/
def maxRefs (g : Grammar F) : Nat :=
  g.metas.foldl (fun n m => m.rules.foldl (fun n r => max n r.length) n) 0

/-- Recursion depth that is always sufficient (`C35_search_terminates`). -/
def searchFuel (g : Grammar F) (limit : Nat) : Nat := (limit + 2) * (maxRefs g + 1) + 2

/-- `Search::match( sectionPtr, paths, level )` (src/search.cpp:248-271). -/
def matchAll (g : Grammar F) (limit : Nat) (ptr : SectionPtr) (paths : List (SearchPath F)) (level : Nat) :
    Option (List (SearchPath F)) :=
  flatMapM (fun path => matchPath g limit (matchNext g limit (searchFuel g limit)) ptr path level) paths

/-- `Search::stringToSectionPtr` (src/search.cpp:225-245); `none`: `Search-Rule-Not-Found` is thrown. -/
def stringToSectionPtr (g : Grammar F) (str : Str) : Option SectionPtr :=
  match mapFind str g.sectionIndex with
  | none => none
  | some k =>
    if (g.metas[k]?).map (·.name) = some str then some { name := str, mptr := some k }
    else if (g.rules[k]?).map (·.name) = some str then some { name := str, rptr := some k }
    else none

/-- Outcome of a computation of the library. -/
inductive Outcome (α : Type) where
  | ok (a : α)
  | throws (msg : Str)
  | undefined
deriving DecidableEq, Repr

/-- `Search::search( grammarNode, phrase )` (src/search.cpp:19-56). -/
def search (g : Grammar F) (node : Str) (phrase : List Token) : Outcome (List (SearchPath F)) :=
  let limit := phrase.length + 2
  match Token.enumerate phrase with
  | none => .undefined
  | some list =>
    let patterns := list.map (fun e => { remaining := e : SearchPath F })
    match stringToSectionPtr g node with
    | none => .throws (c!"Search-Rule-Not-Found:" ++ node)
    | some ptr =>
      match matchAll g limit ptr patterns 0 with
      | none => .undefined
      | some matchs => .ok (matchs.filter (fun m => m.remaining.length == 0))

/-! ### Reclassification and scores -/

/-- Inner loop of `reclassTokens` (src/search.cpp:79-90) over the positions of one rule. The third
component is the iterator, as the list of tokens from it on; the result is the flag, the tokens
passed and the tokens from the iterator on. `none`: `out[i]` or the iterator is out of range. -/
def reclassRule : List InType → List OutType → List Token → Option (Bool × List Token × List Token)
  | [], _, ts => some (true, [], ts)
  | i :: is, outs, t :: ts =>
    match outs with
    | [] => none
    | o :: os =>
      if t.isInClass i then
        match reclassRule is os ts with
        | none => none
        | some (b, done, rest) => some (b, { t with inclass := [i], outclass := o } :: done, rest)
      else some (false, [], t :: ts)
  | _ :: _, _, [] => none

/-- Outer loop of `reclassTokens` (src/search.cpp:76-91). -/
def reclassRules : List (Rule F) → List Token → Option (Bool × List Token)
  | [], ts => some (true, ts)
  | r :: rs, ts =>
    match reclassRule r.inClass r.outClass ts with
    | none => none
    | some (false, done, rest) => some (false, done ++ rest)
    | some (true, done, rest) =>
      match reclassRules rs rest with
      | none => none
      | some (b, out) => some (b, done ++ out)

/-- `Search::reclassTokens` (src/search.cpp:64-94): success flag and the tokens afterwards. -/
def reclassTokens (tokens : List Token) (result : SearchPath F) : Option (Bool × List Token) :=
  let cnt := result.rules.foldl (fun n r => n + r.inClass.length) 0
  if cnt ≠ tokens.length then some (false, tokens) else reclassRules result.rules tokens

/-- First loop of `Search::toString` (src/search.cpp:216-217). -/
def toStringIn : Str → List Token → Str
  | out, [] => out
  | out, t :: ts => toStringIn (out ++ InType.setAsString t.inclass ++ c!" ") ts

/-- Second loop of `Search::toString` (src/search.cpp:219-220). -/
def toStringOut : Str → List Token → Str
  | out, [] => out
  | out, t :: ts => toStringOut (out ++ t.outclass.asString ++ c!" ") ts

/-- `Search::toString` (src/search.cpp:214-223). -/
def searchToString (ts : List Token) : Str :=
  (toStringOut (toStringIn [] ts ++ c!"-> ") ts).dropLast

/-- Average score of a result (src/search.cpp:115-118). -/
def avgScore (fo : FloatOps F) (p : SearchPath F) : F :=
  fo.divNat (p.rules.foldl (fun s r => fo.add s r.score) fo.zero) p.rules.length

/-- Variables of the selection loop: `best`, `bestScore`, `bestNrules` (src/search.cpp:110-112). -/
structure BestState (F : Type) where
  best : Nat
  bestScore : F
  bestNrules : F
deriving DecidableEq, Repr

/-- The selection loop (src/search.cpp:113-125); `i` is the loop counter. -/
def bestLoop (fo : FloatOps F) : Nat → BestState F → List (SearchPath F) → BestState F
  | _, st, [] => st
  | i, st, p :: ps =>
    let sum := avgScore fo p
    let st := if fo.lt st.bestScore sum then
        { best := i, bestScore := sum, bestNrules := fo.ofInt p.rules.length }
      else st
    bestLoop fo (i + 1) st ps

/-- What `searchAndReclassBest` returns: the tokens and the three output parameters. `matched` is
`none` when the parameter is not assigned. -/
structure BestResult (F : Type) where
  tokens : List Token
  score : F
  matched : Option Str
  nrules : F
deriving DecidableEq, Repr

/-- `Search::searchAndReclassBest( phrase, score, matched, nrules )` (src/search.cpp:97-137). -/
def searchAndReclassBest (g : Grammar F) (fo : FloatOps F) (phrase : List Token) : Outcome (BestResult F) :=
  match search g c!"ADDRESS" phrase with
  | .throws m => .throws m
  | .undefined => .undefined
  | .ok results =>
    if results.length = 0 then
      .ok { tokens := [], score := fo.ofInt (-1), matched := none, nrules := fo.ofInt (-1) }
    else
      let st := bestLoop fo 0 { best := 0, bestScore := fo.zero, bestNrules := fo.ofInt (-1) } results
      match results[st.best]? with
      | none => .undefined
      | some p =>
        match reclassTokens phrase p with
        | none => .undefined
        | some (false, ts) => .ok { tokens := ts, score := fo.ofInt (-2), matched := none, nrules := st.bestNrules }
        | some (true, ts) =>
          .ok { tokens := ts, score := st.bestScore, matched := some (searchToString ts), nrules := st.bestNrules }

/-- Loop of `searchAndReclassBest( phrases, ... )` (src/search.cpp:147-159). `thisMatched` starts as
the empty string for every phrase. -/
def bestPhrases (g : Grammar F) (fo : FloatOps F) : BestResult F → List (List Token) → Outcome (BestResult F)
  | b, [] => .ok b
  | b, phrase :: ps =>
    match searchAndReclassBest g fo phrase with
    | .throws m => .throws m
    | .undefined => .undefined
    | .ok r => bestPhrases g fo (if fo.lt b.score r.score then { r with matched := some (r.matched.getD []) } else b) ps

/-- `Search::searchAndReclassBest( phrases, score, matched, nrules )` (src/search.cpp:140-164). -/
def searchAndReclassBestOf (g : Grammar F) (fo : FloatOps F) (phrases : List (List Token)) : Outcome (BestResult F) :=
  bestPhrases g fo { tokens := [], score := fo.ofInt (-1), matched := some [], nrules := fo.ofInt (-1) } phrases

/-- `MatchResult` (src/search.h:38-43); doubles are `D`. -/
structure MatchResult (D : Type) where
  matched : Str
  score : D
  nrules : D
deriving DecidableEq, Repr

variable {D : Type}

/-- Average score in double precision (src/search.cpp:179-182). -/
def avgScoreD (dops : FloatOps D) (widen : F → D) (p : SearchPath F) : D :=
  dops.divNat (p.rules.foldl (fun s r => dops.add s (widen r.score)) dops.zero) p.rules.length

/-- Loop over the results of a phrase (src/search.cpp:178-195). -/
def rowsOf (dops : FloatOps D) (widen : F → D) (phrase : List Token) :
    List (SearchPath F) → Option (List (MatchResult D))
  | [] => some []
  | p :: ps =>
    match reclassTokens phrase p with
    | none => none
    | some (b, ts) =>
      match rowsOf dops widen phrase ps with
      | none => none
      | some rs =>
        some ({ matched := searchToString ts
                score := if b then avgScoreD dops widen p else dops.ofInt (-2)
                nrules := dops.ofInt p.rules.length } :: rs)

/-- Loop over the phrases (src/search.cpp:171-196). -/
def rowsOfAll (g : Grammar F) (dops : FloatOps D) (widen : F → D) :
    List (List Token) → Outcome (List (MatchResult D))
  | [] => .ok []
  | phrase :: ps =>
    match search g c!"ADDRESS" phrase with
    | .throws m => .throws m
    | .undefined => .undefined
    | .ok results =>
      match rowsOf dops widen phrase results with
      | none => .undefined
      | some rows =>
        match rowsOfAll g dops widen ps with
        | .throws m => .throws m
        | .undefined => .undefined
        | .ok rest => .ok (rows ++ rest)

/-- `Search::searchAndReclassAll` (src/search.cpp:167-208). -/
def searchAndReclassAll (g : Grammar F) (dops : FloatOps D) (widen : F → D) (phrases : List (List Token)) :
    Outcome (List (MatchResult D)) :=
  match rowsOfAll g dops widen phrases with
  | .ok [] => .ok [{ matched := c!"Failed to match to grammar!", score := dops.ofInt (-1), nrules := dops.ofInt (-1) }]
  | r => r

end AS
