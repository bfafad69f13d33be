import Verif.Model.Wrapper
/-
Model of the set-returning SQL functions `as_parse` and `as_match` (src/address_standardizer.c:303-560).

Simplifications: the PostgreSQL side is the protocol of value-per-call functions: the executor calls the
function until it reports that it is done, or stops before. `palloc` does not fail; the function is called where
a record is accepted. The array the interface returns is one block with its strings; it is allocated with
`calloc`, so no memory context frees it.
-/
namespace AS
namespace Sql
open Wrapper
variable {F D : Type}

/-- `FuncCallContext`, and how often the array has been freed. -/
structure Ctx (ρ : Type) where
  callCntr : Nat
  maxCalls : Nat
  /-- `user_fctx`; `none` is NULL -/
  rows : Option (List ρ)
  freed : Nat := 0

/-- What one call returns: `SRF_RETURN_NEXT` or `SRF_RETURN_DONE`. -/
inductive Step (τ : Type) where
  | next (row : τ)
  | done
deriving DecidableEq, Repr

/-- The columns of a row of `as_parse`. -/
structure ParseTuple where
  pat : Nat
  seq : Nat
  word : Str
  inclass : Str
  attached : Str
deriving DecidableEq, Repr

/-- The first call (src/address_standardizer.c:320-371, 468-517): `nrec` stays 0 and the pointer is NULL if the
interface fails; a message is only logged. `none`: undefined behaviour. -/
def firstCall {ρ : Type} (r : Option (Ret (List ρ))) : Option (Ctx ρ) :=
  match r with
  | none => none
  | some ⟨some rows, _⟩ => some { callCntr := 0, maxCalls := rows.length, rows := some rows }
  | some ⟨none, _⟩ => some { callCntr := 0, maxCalls := 0, rows := none }

/-- `tokens_free` (src/address_standardizer.c:87-99): nothing for no rows. -/
def tokensFree {ρ : Type} (c : Ctx ρ) : Ctx ρ :=
  match c.rows with
  | none => c
  | some _ => if c.maxCalls < 1 then c else { c with freed := c.freed + 1 }

/-- Every call of `as_parse` (src/address_standardizer.c:373-427). `none`: undefined behaviour (access outside the
array, `int` overflow). -/
def parseCall (c : Ctx ParseRow) : Option (Step ParseTuple × Ctx ParseRow) :=
  if c.callCntr < c.maxCalls then
    match c.rows with
    | none => none
    | some rows =>
      match rows[c.callCntr]? with
      | none => none
      | some t =>
        if t.pat + 1 ≥ 2 ^ 31 ∨ t.seq + 1 ≥ 2 ^ 31 then none
        else some (.next { pat := t.pat + 1, seq := t.seq + 1, word := t.word, inclass := t.inclass, attached := t.attached },
          { c with callCntr := c.callCntr + 1 })
  else some (.done, tokensFree c)

/-- A value of a column. -/
inductive Col (D : Type) where
  | text (s : Str)
  | float8 (x : D)
deriving DecidableEq, Repr

/-- `for (...) free(tokens[i].tokens); free(tokens);` (src/address_standardizer.c:554-556); freeing NULL does nothing. -/
def mtokensFree {ρ : Type} (c : Ctx ρ) : Ctx ρ :=
  match c.rows with
  | none => c
  | some _ => { c with freed := c.freed + 1 }

/-- Every call of `as_match` (src/address_standardizer.c:519-559); `heap_form_tuple` uses as many of the three values as
the record has columns (`natts`). -/
def matchCall (natts : Nat) (c : Ctx (MatchRow D)) : Option (Step (List (Col D)) × Ctx (MatchRow D)) :=
  if c.callCntr < c.maxCalls then
    match c.rows with
    | none => none
    | some rows =>
      match rows[c.callCntr]? with
      | none => none
      | some t =>
        if natts > 3 then none
        else some (.next ([.text t.tokens, .float8 t.score, .float8 t.nrules].take natts), { c with callCntr := c.callCntr + 1 })
  else some (.done, mtokensFree c)

/-- The executor: at most so many calls, until the function is done. The rows, whether it was done, and the
context left. -/
def fetch {ρ τ : Type} (call : Ctx ρ → Option (Step τ × Ctx ρ)) : Nat → Ctx ρ → Option (List τ × Bool × Ctx ρ)
  | 0, c => some ([], false, c)
  | k + 1, c =>
    match call c with
    | none => none
    | some (.done, c) => some ([], true, c)
    | some (.next r, c) =>
      match fetch call k c with
      | none => none
      | some (rs, fin, c) => some (r :: rs, fin, c)

/-- `as_parse`, called so many times (src/address_standardizer.c:305-428). -/
def asParse (env : Env F D) (calls : Nat) (address lexicon locale filter : Str) :
    Option (List ParseTuple × Bool × Ctx ParseRow) :=
  match firstCall (stdParseAddress env address lexicon locale filter) with
  | none => none
  | some c => fetch parseCall calls c

/-- The record `as_match` is declared with has two columns, `tokens` and `score`
(src/address_standardizer2--2.0.sql.in:59-71). -/
def matchColumns : Nat := 2

/-- `as_match`, called so many times (src/address_standardizer.c:451-560). -/
def asMatch (env : Env F D) (calls : Nat) (address grammar lexicon locale filter : Str) :
    Option (List (List (Col D)) × Bool × Ctx (MatchRow D)) :=
  match firstCall (stdMatchAddress env address grammar lexicon locale filter) with
  | none => none
  | some c => fetch (matchCall matchColumns) calls c

end Sql
end AS
