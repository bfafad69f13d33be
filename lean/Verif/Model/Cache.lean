import Verif.Model.Wrapper
/-
Model of the cache of standardizers (src/std_pg_hash.c) and of `as_standardize`
(src/address_standardizer.c:183-280).

Memory is modelled by lists of what is live: standardizers, memory contexts with their callback, and the
caches hanging off `fn_extra`. Using or freeing something that is not live is undefined behaviour. New
addresses come from an arbitrary allocator. PostgreSQL is trusted to do the following: `hash_search` is a
map; deleting a context runs its callback, then removes it; deleting `fn_mcxt` at the end of a query
deletes its child contexts, newest first, and the cache. Allocation failures are not modelled.
-/
namespace AS
namespace Cache

/-- Addresses. -/
abbrev Ptr := Nat

/-! ### Maps -/

def get {α : Type} (k : Nat) (m : List (Nat × α)) : Option α := (m.find? (fun e => e.1 = k)).map (·.2)
def del {α : Type} (k : Nat) (m : List (Nat × α)) : List (Nat × α) := m.filter (fun e => e.1 ≠ k)
def put {α : Type} (k : Nat) (v : α) (m : List (Nat × α)) : List (Nat × α) := (k, v) :: del k m

/-- `StdCacheItem` (src/std_pg_hash.c:59-66). -/
structure Item where
  lexMd5 : Option Str := none
  gmrMd5 : Option Str := none
  std : Option Ptr := none
  mcxt : Option Ptr := none
deriving DecidableEq, Repr

/-- `StdPortalCache` (src/std_pg_hash.c:68-74). Its context is the one of the function call it belongs
to. -/
structure Portal where
  items : List Item
  next : Nat
deriving DecidableEq, Repr

/-- What is live. `O` is the content of a standardizer. -/
structure State (O : Type) where
  /-- `STANDARDIZER`s that have been allocated and not freed -/
  heap : List (Ptr × O) := []
  /-- `StdHash` (src/std_pg_hash.c:56): from contexts to standardizers -/
  hash : Option (List (Ptr × Ptr)) := none
  /-- live contexts with a callback and the function call they belong to, newest first -/
  ctxs : List (Ptr × Nat) := []
  /-- `fn_extra` of the function calls that have one -/
  portals : List (Nat × Portal) := []
  /-- number of operations so far, so that the allocator may vary -/
  clock : Nat := 0
deriving DecidableEq, Repr

/-- What the cache works with. -/
structure Env (O A R : Type) where
  /-- `getMd5` (src/as_wrapper.cpp:630-639) -/
  digest : Str → Str
  /-- `CreateStd( lexicon, grammar )` -/
  build : Str → Str → Outcome O
  /-- `std_standardize_ptrs` with its arguments: the result and the content afterwards -/
  use : A → O → R × O
  /-- `calloc` of a `STANDARDIZER` -/
  newStd : State O → Ptr
  /-- `AllocSetContextCreate` -/
  newCtx : State O → Ptr

variable {O A R : Type}

/-- `StdCacheDelete` with `std_free` and `DeleteStdHashEntry` (src/std_pg_hash.c:114-155, 265-290). -/
def stdCacheDelete (s : State O) (ctx : Ptr) : Outcome (State O) :=
  match s.hash with
  | none => .undefined
  | some h =>
    match get ctx h with
    | none => .throws c!"StdCacheDelete: Trying to delete non-existant hash entry object"
    | some p =>
      match get p s.heap with
      | none => .undefined
      | some _ => .ok { s with heap := del p s.heap, hash := some (del ctx h) }

/-- `MemoryContextDelete`. -/
def contextDelete (s : State O) (ctx : Ptr) : Outcome (State O) :=
  match get ctx s.ctxs with
  | none => .undefined
  | some _ =>
    match stdCacheDelete s ctx with
    | .ok s => .ok { s with ctxs := del ctx s.ctxs }
    | r => r

/-- The test of both loops (src/std_pg_hash.c:323-327, 364-368). -/
def Item.hits (it : Item) (lexMd5 gmrMd5 : Str) : Bool :=
  match it.lexMd5, it.gmrMd5 with
  | some a, some b => a = lexMd5 && b = gmrMd5
  | _, _ => false

/-- `IsInStdPortalCache` (src/std_pg_hash.c:300-339). -/
def isIn (env : Env O A R) (c : Portal) (lexicon grammar : Str) : Bool :=
  c.items.any (fun it => it.hits (env.digest lexicon) (env.digest grammar))

/-- `GetStdFromPortalCache` (src/std_pg_hash.c:349-379). -/
def getFrom (env : Env O A R) (c : Portal) (lexicon grammar : Str) : Option Ptr :=
  match c.items.find? (fun it => it.hits (env.digest lexicon) (env.digest grammar)) with
  | none => none
  | some it => it.std

/-- `DeleteNextSlotFromStdCache` (src/std_pg_hash.c:382-405). `std_mcxt` keeps its value. -/
def deleteNextSlot (s : State O) (c : Portal) : Outcome (State O × Portal) :=
  match c.items[c.next]? with
  | none => .undefined
  | some it =>
    match it.std with
    | none => .ok (s, c)
    | some _ =>
      match it.mcxt with
      | none => .undefined
      | some ctx =>
        match contextDelete s ctx with
        | .undefined => .undefined
        | .throws m => .throws m
        | .ok s => .ok (s, { c with items := c.items.set c.next { it with lexMd5 := none, gmrMd5 := none, std := none } })

/-- `AddStdHashEntry` with the creation of the table (src/std_pg_hash.c:227-262, 470-481). -/
def addHashEntry (s : State O) (ctx p : Ptr) : Outcome (State O) :=
  let h := s.hash.getD []
  match get ctx h with
  | some _ => .throws c!"AddStdHashEntry: This memory context is already in use!"
  | none => .ok { s with hash := some ((ctx, p) :: h) }

/-- `AddToStdPortalCache` (src/std_pg_hash.c:415-505). -/
def addTo (env : Env O A R) (s : State O) (pid : Nat) (c : Portal) (lexicon grammar : Str) : Outcome (State O × Portal) :=
  match env.build lexicon grammar with
  | .undefined => .undefined
  | .throws m => .throws m
  | .ok o =>
    let p := env.newStd s
    let s := { s with heap := (p, o) :: s.heap }
    match deleteNextSlot s c with
    | .undefined => .undefined
    | .throws m => .throws m
    | .ok (s, c) =>
      let ctx := env.newCtx s
      let s := { s with ctxs := (ctx, pid) :: s.ctxs }
      match addHashEntry s ctx p with
      | .undefined => .undefined
      | .throws m => .throws m
      | .ok s =>
        .ok (s, { items := c.items.set c.next ⟨some (env.digest lexicon), some (env.digest grammar), some p, some ctx⟩
                  next := (c.next + 1) % 4 })

/-- `GetStdPortalCache` (src/std_pg_hash.c:515-555). -/
def portalCache (s : State O) (pid : Nat) : Portal :=
  match get pid s.portals with
  | some c => c
  | none => { items := List.replicate 4 {}, next := 0 }

/-- `GetStdUsingFCInfo` (src/std_pg_hash.c:558-581) and the check in `as_standardize`
(src/address_standardizer.c:227-229). -/
def getStd (env : Env O A R) (s : State O) (pid : Nat) (lexicon grammar : Str) : Outcome (State O × Ptr) :=
  let c := portalCache s pid
  let r := if isIn env c lexicon grammar then .ok (s, c) else addTo env s pid c lexicon grammar
  match r with
  | .undefined => .undefined
  | .throws m => .throws m
  | .ok (s, c) =>
    let s := { s with portals := put pid c s.portals }
    match getFrom env c lexicon grammar with
    | none => .throws c!"as_standardize() failed to create the address standardizer object!"
    | some p => .ok (s, p)

/-- `as_standardize` (src/address_standardizer.c:226-232): the standardizer is looked up and used. -/
def call (env : Env O A R) (s : State O) (pid : Nat) (lexicon grammar : Str) (a : A) : Outcome (State O × R) :=
  match getStd env s pid lexicon grammar with
  | .undefined => .undefined
  | .throws m => .throws m
  | .ok (s, p) =>
    match get p s.heap with
    | none => .undefined
    | some o =>
      let (r, o) := env.use a o
      .ok ({ s with heap := put p o s.heap, clock := s.clock + 1 }, r)

/-- Deletion of a list of contexts. -/
def contextsDelete (s : State O) : List Ptr → Outcome (State O)
  | [] => .ok s
  | c :: cs =>
    match contextDelete s c with
    | .ok s => contextsDelete s cs
    | r => r

/-- End of the query a function call belongs to: `fn_mcxt` is deleted. -/
def finish (s : State O) (pid : Nat) : Outcome (State O) :=
  match contextsDelete s ((s.ctxs.filter (fun e => e.2 = pid)).map (·.1)) with
  | .ok s => .ok { s with portals := del pid s.portals, clock := s.clock + 1 }
  | r => r

/-- What happens in a session. -/
inductive Op (A : Type) where
  | call (pid : Nat) (lexicon grammar : Str) (a : A)
  | finish (pid : Nat)

/-- One event, with the result of a call. -/
def step (env : Env O A R) (s : State O) : Op A → Outcome (State O × Option R)
  | .call pid lexicon grammar a =>
    match call env s pid lexicon grammar a with
    | .undefined => .undefined
    | .throws m => .throws m
    | .ok (s, r) => .ok (s, some r)
  | .finish pid =>
    match finish s pid with
    | .undefined => .undefined
    | .throws m => .throws m
    | .ok s => .ok (s, none)

/-- A session. -/
def run (env : Env O A R) (s : State O) : List (Op A) → Outcome (State O × List (Option R))
  | [] => .ok (s, [])
  | op :: ops =>
    match step env s op with
    | .undefined => .undefined
    | .throws m => .throws m
    | .ok (s, r) =>
      match run env s ops with
      | .undefined => .undefined
      | .throws m => .throws m
      | .ok (s, rs) => .ok (s, r :: rs)

end Cache

namespace Wrapper
variable {F D : Type}

/-- `getLexiconPtr` (src/as_wrapper.cpp:560-598): on an exception `*err_msg` is written and NULL
returned. -/
def getLexiconPtr (env : Env F D) (errMsgIsNull : Bool) (text : Str) : Outcome (Option Lexicon) :=
  match loadLexicon env text with
  | .undefined => .undefined
  | .ok l => .ok (some l)
  | .throws _ => if errMsgIsNull then .undefined else .ok none

/-- `getGrammarPtr` (src/as_wrapper.cpp:528-548). -/
def getGrammarPtr (env : Env F D) (errMsgIsNull : Bool) (text : Str) : Outcome (Option (Grammar F)) :=
  match loadGrammar env text with
  | .undefined => .undefined
  | .ok g => .ok (some g)
  | .throws _ => if errMsgIsNull then .undefined else .ok none

/-- `CreateStd` (src/std_pg_hash.c:584-642) with its variable `err_msg` being NULL or not. If the grammar
fails the lexicon is freed by `freeLexiconPtr( lex )` and again by `std_free( std )`. -/
def createStdWith (env : Env F D) (errMsgIsNull : Bool) (lexicon grammar : Str) : Outcome (Lexicon × Grammar F) :=
  match getLexiconPtr env errMsgIsNull lexicon with
  | .undefined => .undefined
  | .throws m => .throws m
  | .ok none => .throws c!"CreateStd: failed to load Lexicon"
  | .ok (some l) =>
    match getGrammarPtr env errMsgIsNull grammar with
    | .undefined => .undefined
    | .throws m => .throws m
    | .ok none => .undefined
    | .ok (some g) => .ok (l, g)

/-- `CreateStd` as it is: `err_msg` is NULL (src/std_pg_hash.c:590). -/
def createStd (env : Env F D) (lexicon grammar : Str) : Outcome (Lexicon × Grammar F) :=
  createStdWith env true lexicon grammar

/-- The columns of the row `as_standardize` returns (src/address_standardizer.c:239-262). -/
def sqlRow (r : Ret StdAddr) : List (Option Str) :=
  match r.value with
  | none => List.replicate 17 none
  | some a => [a.building, a.house_num, a.predir, a.qual, a.pretype, a.name, a.suftype, a.sufdir, a.ruralroute,
      a.extra, a.city, a.prov, a.country, a.postcode, a.box, a.unit, a.pattern]

/-- Arguments of `as_standardize` other than grammar and lexicon, and which of the patterns of the lexicon
the call happens to build (that depends on the tokens). -/
structure Args where
  address : Str
  locale : Str
  filter : Str
  touchesAll : Bool
  touchesPrefix : Bool
  touchesSuffix : Bool

/-- The lexicon after some of its patterns have been asked for. -/
def touched (a : Args) (l : Lexicon) : Lexicon :=
  let l := if a.touchesAll then l.regex.1 else l
  let l := if a.touchesPrefix then l.regexPrefixAtt.1 else l
  if a.touchesSuffix then l.regexSuffixAtt.1 else l

/-- `std_standardize_ptrs` on the content of a standardizer, then the row (src/address_standardizer.c:232-262);
`none`: undefined behaviour. The lexicon keeps the patterns built. -/
def useStd (env : Env F D) (a : Args) (o : Lexicon × Grammar F) : Option (List (Option Str)) × (Lexicon × Grammar F) :=
  ((standardizeAddr env o.2 o.1 a.locale a.filter a.address).map sqlRow, (touched a o.1, o.2))

/-- The cache as used by `as_standardize`. -/
def cacheEnv (env : Env F D) (digest : Str → Str) (newStd newCtx : Cache.State (Lexicon × Grammar F) → Nat) :
    Cache.Env (Lexicon × Grammar F) Args (Option (List (Option Str))) where
  digest := digest
  build := createStd env
  use := useStd env
  newStd := newStd
  newCtx := newCtx

end Wrapper
end AS
