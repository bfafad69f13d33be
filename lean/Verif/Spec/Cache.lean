import Verif.Model.Cache
/-
Specification vocabulary for the cache of standardizers.
-/
namespace AS
namespace Cache
variable {O A R : Type}

/-- What a slot in use records. -/
structure Entry where
  lexMd5 : Str
  gmrMd5 : Str
  std : Ptr
  ctx : Ptr
deriving DecidableEq, Repr

/-- The slot of an entry. -/
def Entry.item (e : Entry) : Item := ⟨some e.lexMd5, some e.gmrMd5, some e.std, some e.ctx⟩

def itemEntry : Item → Option Entry
  | ⟨some a, some b, some p, some c⟩ => some ⟨a, b, p, c⟩
  | _ => none

/-- The entries of a cache, oldest first. -/
def contents (c : Portal) : List Entry := (c.items.drop c.next ++ c.items.take c.next).filterMap itemEntry

/-- The entries of a function call; none if it has no cache. -/
def entriesOf (s : State O) (pid : Nat) : List Entry :=
  match get pid s.portals with
  | some c => contents c
  | none => []

def Entry.key (e : Entry) : Str × Str := (e.lexMd5, e.gmrMd5)

/-- A request to a first-in first-out cache of four keys. -/
def fifo {κ : Type} [DecidableEq κ] (q : List κ) (k : κ) : List κ :=
  if k ∈ q then q
  else if q.length < 4 then q ++ [k]
  else q.tail ++ [k]

/-- The keys that are cached after a sequence of requests, oldest first. -/
def cachedKeys {κ : Type} [DecidableEq κ] (ks : List κ) : List κ := ks.foldl fifo []

/-- The requests that found their key not cached, in order. -/
def missed {κ : Type} [DecidableEq κ] : List κ → List κ → List κ
  | _, [] => []
  | done, k :: ks =>
    if k ∈ cachedKeys done then missed (done ++ [k]) ks else k :: missed (done ++ [k]) ks

/-- The texts an event asks for. -/
def asked : Op A → List (Str × Str)
  | .call _ l g _ => [(l, g)]
  | .finish _ => []

/-- All texts requested. -/
def requested (ops : List (Op A)) : List (Str × Str) := ops.flatMap asked

/-- The texts requested by a function call since its query began, after one more event. -/
def since (pid : Nat) (acc : List (Str × Str)) : Op A → List (Str × Str)
  | .call p l g _ => if p = pid then acc ++ [(l, g)] else acc
  | .finish p => if p = pid then [] else acc

/-- The lexicon and grammar texts requested by a function call since its query began. -/
def pending (pid : Nat) (ops : List (Op A)) : List (Str × Str) := ops.foldl (since pid) []

/-- All requested texts are valid. -/
def Valid (env : Env O A R) (ops : List (Op A)) : Prop :=
  ∀ t ∈ requested ops, ∃ o, env.build t.1 t.2 = .ok o

/-- New addresses are not those of something live. -/
structure NewAddresses (env : Env O A R) : Prop where
  std : ∀ s, get (env.newStd s) s.heap = none
  ctx : ∀ s, get (env.newCtx s) s.ctxs = none

/-- Content of a standardizer after it has been used any number of times. -/
inductive Grown (env : Env O A R) (o : O) : O → Prop
  | new : Grown env o o
  | used (a : A) {o' : O} : Grown env o o' → Grown env o (env.use a o').2

/-- Two pairs of texts whose digests cannot be told apart are equal. -/
def NoCollision (env : Env O A R) (ts : List (Str × Str)) : Prop :=
  ∀ t ∈ ts, ∀ t' ∈ ts, env.digest t.1 = env.digest t'.1 → env.digest t.2 = env.digest t'.2 → t = t'

/-- Using a standardizer does not change what later uses give. -/
def Steady (env : Env O A R) : Prop := ∀ a b o, (env.use a (env.use b o).2).1 = (env.use a o).1

end Cache
end AS
