import Verif.Model.Sql
import Verif.Model.Archive
import Verif.Model.Cache
/-
Model of what the C interface and the SQL functions do with the C heap: `calloc`, `strdup` and `free`
(src/as_wrapper.cpp, src/address_standardizer.c).

Simplifications: only blocks the interface hands to its C caller are on this heap. Objects of C++ and memory of
PostgreSQL (`palloc`, `pstrdup`) are not: their owners release them. What the interface computes is taken from
the model of the interface, with `calloc` of the heap in place of its parameter; so `calloc` is the first
request of a call, as in the code; the array it gives is written once its texts are copied. The request for the text of a message comes after everything else. A block
holds one text, or one array of records whose pointers are addresses. The sizes of requests are counted in
records, those of texts in bytes.
-/
namespace AS
namespace Heap
open Wrapper
variable {F D : Type}

/-- A record of `TOKENS` (src/address_standardizer.h): `none` is the pointer NULL. -/
structure TokRow where
  pat : Nat
  seq : Nat
  word : Option Nat
  inclass : Option Nat
  attached : Option Nat
deriving DecidableEq, Repr

/-- A record of `MTOKEN` (src/address_standardizer.h). -/
structure MTokRow (D : Type) where
  tokens : Option Nat
  score : D
  nrules : D
deriving DecidableEq, Repr

/-- What a block holds. -/
inductive Cell (D : Type) where
  | text (s : Str)
  /-- `STDADDR`, its pointers in the order of the fields -/
  | addr (fields : List (Option Nat))
  | tokens (rows : List TokRow)
  | mtokens (rows : List (MTokRow D))
deriving DecidableEq, Repr

/-- The blocks in use, each with its address. -/
abbrev Heap (D : Type) := List (Nat × Cell D)

/-- Where the allocator puts a request of a size, given the blocks in use; `none` is NULL. -/
abbrev Allocator (D : Type) := Heap D → Nat → Option Nat

/-- The content of the block at an address. -/
def get (a : Nat) : Heap D → Option (Cell D)
  | [] => none
  | (b, c) :: h => if b = a then some c else get a h

/-- Writing to the block at an address. -/
def put (a : Nat) (c : Cell D) : Heap D → Heap D
  | [] => []
  | (b, x) :: h => if b = a then (b, c) :: h else (b, x) :: put a c h

/-- `free`: nothing for NULL; `none` (undefined behaviour) for an address that is not that of a block in use. -/
def free (p : Option Nat) (h : Heap D) : Option (Heap D) :=
  match p with
  | none => some h
  | some a => if (get a h).isSome then some (h.filter (fun b => b.1 ≠ a)) else none

/-- `free` one after the other. -/
def freeAll : List (Option Nat) → Heap D → Option (Heap D)
  | [], h => some h
  | p :: ps, h => (free p h).bind (freeAll ps)

/-- `strdup`; it gives NULL if there is no memory. -/
def strdup (al : Allocator D) (s : Str) (h : Heap D) : Option Nat × Heap D :=
  match al h (s.length + 1) with
  | none => (none, h)
  | some a => (some a, (a, .text s) :: h)

/-- Texts to be copied, one after the other; a pointer stays NULL if there is no text. -/
def dupAll (al : Allocator D) : List (Option Str) → Heap D → List (Option Nat) × Heap D
  | [], h => ([], h)
  | none :: ss, h => let (ps, h) := dupAll al ss h; (none :: ps, h)
  | some s :: ss, h =>
    let (p, h) := strdup al s h
    let (ps, h) := dupAll al ss h
    (p :: ps, h)

/-- What an interface function leaves: its pointer and `*err_msg`. -/
structure Given where
  ptr : Option Nat
  err : Option Nat
  nrec : Nat := 0
deriving DecidableEq, Repr

/-- The handlers, and the message for `calloc` having failed (e.g. src/as_wrapper.cpp:197-200, 270-283):
`*err_msg = strdup( ... ); return NULL;`. A failed match sets no message (266-268). -/
def fail (al : Allocator D) (m : Option Str) (h : Heap D) : Given × Heap D :=
  match m with
  | none => ({ ptr := none, err := none }, h)
  | some m => let (e, h) := strdup al m h; ({ ptr := none, err := e }, h)

/-- The fields of `STDADDR` in the order in which they are filled (src/as_wrapper.cpp:201-265). -/
def fields (a : StdAddr) : List (Option Str) :=
  [a.building, a.house_num, a.predir, a.qual, a.pretype, a.name, a.suftype, a.sufdir, a.ruralroute, a.extra, a.city,
    a.prov, a.country, a.postcode, a.box, a.unit, a.pattern]

/-- The environment with `calloc` of this heap. -/
def onHeap (al : Allocator D) (h : Heap D) (env : Env F D) : Env F D :=
  { env with alloc := fun n => (al h n).isSome }

/-- `standardize_addr` from the `calloc` on (src/as_wrapper.cpp:195-283). `calloc` gives NULL pointers. -/
def giveAddr (al : Allocator D) (r : Ret StdAddr) (h : Heap D) : Given × Heap D :=
  match r.value with
  | none => fail al r.err h
  | some s =>
    match al h 1 with
    | none => fail al r.err h
    | some a =>
      let (ps, h) := dupAll al (fields s) ((a, .addr (List.replicate 17 none)) :: h)
      ({ ptr := some a, err := none }, put a (.addr ps) h)

/-- The loop of `parse_addr` (src/as_wrapper.cpp:378-389). -/
def dupRows (al : Allocator D) : List ParseRow → Heap D → List TokRow × Heap D
  | [], h => ([], h)
  | r :: rs, h =>
    let (w, h) := strdup al r.word h
    let (i, h) := strdup al r.inclass h
    let (a, h) := strdup al r.attached h
    let (ts, h) := dupRows al rs h
    ({ pat := r.pat, seq := r.seq, word := w, inclass := i, attached := a } :: ts, h)

/-- `parse_addr` from the `calloc` on (src/as_wrapper.cpp:369-408). -/
def giveTokens (al : Allocator D) (r : Ret (List ParseRow)) (h : Heap D) : Given × Heap D :=
  match r.value with
  | none => fail al r.err h
  | some rows =>
    match al h rows.length with
    | none => fail al r.err h
    | some a =>
      let (ts, h) := dupRows al rows ((a, .tokens []) :: h)
      ({ ptr := some a, err := none, nrec := rows.length }, put a (.tokens ts) h)

/-- The loop of `match_addr` (src/as_wrapper.cpp:504-509). -/
def dupMatches (al : Allocator D) : List (MatchRow D) → Heap D → List (MTokRow D) × Heap D
  | [], h => ([], h)
  | r :: rs, h =>
    let (p, h) := strdup al r.tokens h
    let (ts, h) := dupMatches al rs h
    ({ tokens := p, score := r.score, nrules := r.nrules } :: ts, h)

/-- `match_addr` from the `calloc` on (src/as_wrapper.cpp:497-524). -/
def giveMatches (al : Allocator D) (r : Ret (List (MatchRow D))) (h : Heap D) : Given × Heap D :=
  match r.value with
  | none => fail al r.err h
  | some rows =>
    match al h rows.length with
    | none => fail al r.err h
    | some a =>
      let (ts, h) := dupMatches al rows ((a, .mtokens []) :: h)
      ({ ptr := some a, err := none, nrec := rows.length }, put a (.mtokens ts) h)

/-- The end of `serialize_lexicon` (src/as_wrapper.cpp:662-684). -/
def giveText (al : Allocator D) (r : Ret Str) (h : Heap D) : Given × Heap D :=
  match r.value with
  | none => fail al r.err h
  | some s => let (p, h) := strdup al s h; ({ ptr := p, err := none }, h)

/-! ### The SQL functions -/

/-- Reading the text a pointer points to; `none`: undefined behaviour. -/
def textAt (p : Option Nat) (h : Heap D) : Option Str :=
  match p with
  | none => none
  | some a =>
    match get a h with
    | some (.text s) => some s
    | _ => none

/-- `stdaddr->f ? pstrdup(stdaddr->f) : NULL` for each field (src/address_standardizer.c:240-256). -/
def copyAll (h : Heap D) : List (Option Nat) → Option (List (Option Str))
  | [] => some []
  | none :: ps => (copyAll h ps).map (none :: ·)
  | some a :: ps =>
    match textAt (some a) h with
    | none => none
    | some s => (copyAll h ps).map (some s :: ·)

/-- `stdaddr_free` (src/address_standardizer.c:62-84): every field that is not NULL, then the record. -/
def stdaddrFree (p : Option Nat) (h : Heap D) : Option (Heap D) :=
  match p with
  | none => some h
  | some a =>
    match get a h with
    | some (.addr ps) => (freeAll ps h).bind (free (some a))
    | _ => none

/-- `as_standardize` with what the interface gives (src/address_standardizer.c:226-274): the columns, and the heap
afterwards. `err_msg` is not freed. -/
def asStandardizeWith (g : Given) (h : Heap D) : Option (List (Option Str) × Heap D) :=
  match g.ptr with
  | none => some (List.replicate 17 none, h)
  | some a =>
    match get a h with
    | some (.addr ps) =>
      match copyAll h ps with
      | none => none
      | some values => (stdaddrFree (some a) h).map (values, ·)
    | _ => none

/-- `as_standardize` without the query cache (src/address_standardizer.c:176-274). -/
def asStandardize (al : Allocator D) (env : Env F D) (address grammar lexicon locale filter : Str) (h : Heap D) :
    Option (List (Option Str) × Heap D) :=
  match stdStandardize (onHeap al h env) address grammar lexicon locale filter with
  | none => none
  | some r => let (g, h) := giveAddr al r h; asStandardizeWith g h

/-- `as_standardize` with the standardizer from the query cache (src/address_standardizer.c:225-231). -/
def asStandardizePtrs (al : Allocator D) (env : Env F D) (g : Grammar F) (l : Lexicon) (address locale filter : Str)
    (h : Heap D) : Option (List (Option Str) × Heap D) :=
  match standardizeAddr (onHeap al h env) g l locale filter address with
  | none => none
  | some r => let (g, h) := giveAddr al r h; asStandardizeWith g h

/-- `FuncCallContext`: `user_fctx` is a pointer. -/
structure Ctx where
  callCntr : Nat
  maxCalls : Nat
  ptr : Option Nat
deriving DecidableEq, Repr

/-- The first call (src/address_standardizer.c:320-371, 468-517): `err_msg` is not freed. -/
def firstCall (g : Given) : Ctx := { callCntr := 0, maxCalls := g.nrec, ptr := g.ptr }

/-- The pointers `tokens_free` frees (src/address_standardizer.c:92-96); each is tested, and freeing NULL does
nothing. -/
def TokRow.ptrs (t : TokRow) : List (Option Nat) := [t.word, t.inclass, t.attached]

/-- `tokens_free` (src/address_standardizer.c:87-99). `none`: undefined behaviour; the array must have that many
records. -/
def tokensFree (p : Option Nat) (nrec : Nat) (h : Heap D) : Option (Heap D) :=
  if nrec < 1 then some h
  else match p with
    | none => some h
    | some a =>
      match get a h with
      | some (.tokens rows) =>
        if nrec ≤ rows.length then (freeAll ((rows.take nrec).flatMap TokRow.ptrs) h).bind (free (some a)) else none
      | _ => none

/-- Every call of `as_parse` (src/address_standardizer.c:373-427). -/
def parseCall (c : Ctx) (h : Heap D) : Option (Sql.Step Sql.ParseTuple × Ctx × Heap D) :=
  if c.callCntr < c.maxCalls then
    match c.ptr with
    | none => none
    | some a =>
      match get a h with
      | some (.tokens rows) =>
        match rows[c.callCntr]? with
        | none => none
        | some t =>
          if t.pat + 1 ≥ 2 ^ 31 ∨ t.seq + 1 ≥ 2 ^ 31 then none
          else
            match textAt t.word h, textAt t.inclass h, textAt t.attached h with
            | some w, some i, some at' =>
              some (.next { pat := t.pat + 1, seq := t.seq + 1, word := w, inclass := i, attached := at' },
                { c with callCntr := c.callCntr + 1 }, h)
            | _, _, _ => none
      | _ => none
  else (tokensFree c.ptr c.maxCalls h).map (fun h => (.done, c, h))

/-- `for (...) free(tokens[i].tokens); free(tokens);` (src/address_standardizer.c:554-556). -/
def mtokensFree (p : Option Nat) (nrec : Nat) (h : Heap D) : Option (Heap D) :=
  if nrec = 0 then free p h
  else match p with
    | none => none
    | some a =>
      match get a h with
      | some (.mtokens rows) =>
        if nrec ≤ rows.length then (freeAll ((rows.take nrec).map (·.tokens)) h).bind (free (some a)) else none
      | _ => none

/-- Every call of `as_match` (src/address_standardizer.c:519-559). -/
def matchCall (natts : Nat) (c : Ctx) (h : Heap D) : Option (Sql.Step (List (Sql.Col D)) × Ctx × Heap D) :=
  if c.callCntr < c.maxCalls then
    match c.ptr with
    | none => none
    | some a =>
      match get a h with
      | some (.mtokens rows) =>
        match rows[c.callCntr]? with
        | none => none
        | some t =>
          if natts > 3 then none
          else
            match textAt t.tokens h with
            | none => none
            | some s =>
              some (.next ([.text s, .float8 t.score, .float8 t.nrules].take natts),
                { c with callCntr := c.callCntr + 1 }, h)
      | _ => none
  else (mtokensFree c.ptr c.maxCalls h).map (fun h => (.done, c, h))

/-- The executor: at most so many calls, until the function is done. -/
def fetch {τ : Type} (call : Ctx → Heap D → Option (Sql.Step τ × Ctx × Heap D)) :
    Nat → Ctx → Heap D → Option (List τ × Bool × Heap D)
  | 0, _, h => some ([], false, h)
  | k + 1, c, h =>
    match call c h with
    | none => none
    | some (.done, _, h) => some ([], true, h)
    | some (.next r, c, h) =>
      match fetch call k c h with
      | none => none
      | some (rs, fin, h) => some (r :: rs, fin, h)

/-- `as_parse`, called so many times (src/address_standardizer.c:305-428). -/
def asParse (al : Allocator D) (env : Env F D) (calls : Nat) (address lexicon locale filter : Str) (h : Heap D) :
    Option (List Sql.ParseTuple × Bool × Heap D) :=
  match stdParseAddress (onHeap al h env) address lexicon locale filter with
  | none => none
  | some r => let (g, h) := giveTokens al r h; fetch parseCall calls (firstCall g) h

/-- `as_match`, called so many times (src/address_standardizer.c:451-560). -/
def asMatch (al : Allocator D) (env : Env F D) (calls : Nat) (address grammar lexicon locale filter : Str) (h : Heap D) :
    Option (List (List (Sql.Col D)) × Bool × Heap D) :=
  match stdMatchAddress (onHeap al h env) address grammar lexicon locale filter with
  | none => none
  | some r => let (g, h) := giveMatches al r h; fetch (matchCall Sql.matchColumns) calls (firstCall g) h

/-- `as_compile_lexicon` (src/address_standardizer.c:112-135): the message is not freed; `elog(ERROR)` does not
return. -/
def asCompileLexicon (al : Allocator D) (icu : Icu) (lexWhat : Lexicon.Error → Str) (lib : Nat) (text : Str) (h : Heap D) :
    Option (Archive.Sql Str × Heap D) :=
  let (g, h) := giveText al (Archive.serializeLexicon icu lexWhat lib text) h
  match g.err with
  | some e =>
    match textAt (some e) h with
    | none => none
    | some m => some (.error (c!"std_standardize threw an error: " ++ m), h)
  | none =>
    match g.ptr with
    | none => some (.error c!"lexicon failed to compile!", h)
    | some p =>
      match textAt (some p) h with
      | none => none
      | some s => (free (some p) h).map (.value s, ·)

end Heap
end AS
