import Verif.Model.Heap
/-
What is expected of the allocator, and how many blocks a call leaves in use, said by what the interface returns.
-/
namespace AS
namespace Heap
open Wrapper
variable {F D : Type}

/-- The allocator gives addresses not in use. -/
def Fresh (al : Allocator D) : Prop := ∀ h n a, al h n = some a → ∀ b ∈ h, b.1 ≠ a

/-- Memory does not run out. -/
def NeverFails (al : Allocator D) : Prop := ∀ h n, ∃ a, al h n = some a

/-- The environment in which `calloc` succeeds. -/
def roomy (env : Env F D) : Env F D := { env with alloc := fun _ => true }

/-- A call of one of the SQL functions: for those that give rows, how often the executor calls them. -/
inductive Request where
  | standardize (address grammar lexicon locale filter : Str)
  | parse (calls : Nat) (address lexicon locale filter : Str)
  | matching (calls : Nat) (address grammar lexicon locale filter : Str)
  | compile (lexicon : Str)

/-- Blocks left by the message, if there is one. -/
def messageBlocks {α : Type} (r : Ret α) : Nat := if r.err.isSome then 1 else 0

/-- Blocks left by rows of which each has `per` texts: all of them and the array if the executor stops before the
end. -/
def rowBlocks {ρ : Type} (per calls : Nat) (r : Ret (List ρ)) : Nat :=
  match r.value with
  | none => messageBlocks r
  | some rows => if calls ≤ rows.length then 1 + per * rows.length else 0

/-- How many blocks a request leaves in use. An empty array of `as_parse` is left; that of `as_match` is not. -/
def leaves (env : Env F D) (lib : Nat) : Request → Nat
  | .standardize address grammar lexicon locale filter =>
    match stdStandardize (roomy env) address grammar lexicon locale filter with
    | none => 0
    | some r => messageBlocks r
  | .parse calls address lexicon locale filter =>
    match stdParseAddress (roomy env) address lexicon locale filter with
    | none => 0
    | some r => if r.value = some [] then 1 else rowBlocks 3 calls r
  | .matching calls address grammar lexicon locale filter =>
    match stdMatchAddress (roomy env) address grammar lexicon locale filter with
    | none => 0
    | some r => rowBlocks 1 calls r
  | .compile lexicon => messageBlocks (Archive.serializeLexicon env.icu env.lexWhat lib lexicon)

/-- The request has a defined outcome when memory does not run out. -/
def Defined (env : Env F D) : Request → Prop
  | .standardize address grammar lexicon locale filter =>
    (stdStandardize (roomy env) address grammar lexicon locale filter).isSome
  | .parse calls address lexicon locale filter => (Sql.asParse (roomy env) calls address lexicon locale filter).isSome
  | .matching calls address grammar lexicon locale filter =>
    (Sql.asMatch (roomy env) calls address grammar lexicon locale filter).isSome
  | .compile _ => True

/-- One request on the heap. -/
def serve (al : Allocator D) (env : Env F D) (lib : Nat) (q : Request) (h : Heap D) : Option (Heap D) :=
  match q with
  | .standardize address grammar lexicon locale filter =>
    (asStandardize al env address grammar lexicon locale filter h).map (·.2)
  | .parse calls address lexicon locale filter => (asParse al env calls address lexicon locale filter h).map (·.2.2)
  | .matching calls address grammar lexicon locale filter =>
    (asMatch al env calls address grammar lexicon locale filter h).map (·.2.2)
  | .compile lexicon => (asCompileLexicon al env.icu env.lexWhat lib lexicon h).map (·.2)

/-- Requests one after the other. -/
def session (al : Allocator D) (env : Env F D) (lib : Nat) : List Request → Heap D → Option (Heap D)
  | [], h => some h
  | q :: qs, h => (serve al env lib q h).bind (session al env lib qs)

end Heap
end AS
