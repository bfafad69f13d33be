import Verif.Lemmas.Cache
import Verif.Props.Wrapper
import Verif.Props.Lexicon
import Verif.Props.Grammar
/-
Properties C49-C53: the cache of standardizers of a PostgreSQL session.
-/
namespace AS.Props
open AS AS.Cache
variable {O A R F D : Type}

/-! ### A small instance for examples -/

/-- An address larger than all in use. -/
def above {α : Type} (m : List (Nat × α)) : Nat := (m.map (·.1)).foldr (fun k n => max (k + 1) n) 0

theorem above_fresh {α : Type} (m : List (Nat × α)) : Cache.get (above m) m = none := by
  rw [get_none]
  intro v hv
  have : ∀ (m : List (Nat × α)), ∀ e ∈ m, e.1 < above m := by
    intro m
    induction m with
    | nil => intro e he; cases he
    | cons x m ih =>
      intro e he
      have hx : above (x :: m) = max (x.1 + 1) (above m) := rfl
      rw [hx]
      rcases List.mem_cons.1 he with rfl | he
      · omega
      · have := ih e he; omega
  exact absurd (this m _ hv) (Nat.lt_irrefl _)

/-- A session with real lexicons and grammars; digests are the texts themselves. -/
def exCache : Env (Lexicon × Grammar Rat) Wrapper.Args (Option (List (Option Str))) :=
  Wrapper.cacheEnv exEnv id (fun s => above s.heap) (fun s => above s.ctxs)

theorem exCache_fresh : NewAddresses exCache := ⟨fun _ => above_fresh _, fun _ => above_fresh _⟩

/-- Standardizers that only remember the texts and how often they were used. -/
def toyCache : Env (Str × Str × Nat) Nat (Str × Str × Nat) where
  digest t := t
  build l g := .ok (l, g, 0)
  use a o := ((o.1, o.2.1, a), (o.1, o.2.1, o.2.2 + 1))
  newStd s := above s.heap
  newCtx s := above s.ctxs

theorem toyCache_fresh : NewAddresses toyCache := ⟨fun _ => above_fresh _, fun _ => above_fresh _⟩

/-- Six requests for five pairs of texts in one query, and one in another. -/
def toyOps : List (Op Nat) :=
  [.call 1 c!"a" c!"g" 0, .call 1 c!"b" c!"g" 0, .call 2 c!"a" c!"g" 0, .call 1 c!"a" c!"g" 0, .call 1 c!"c" c!"g" 0,
   .call 1 c!"d" c!"g" 0, .call 1 c!"e" c!"g" 0]

def runIs {α : Type} (o : Outcome (State O × α)) (p : State O → Bool) : Bool :=
  match o with
  | .ok x => p x.1
  | _ => false

theorem of_runIs {α : Type} {o : Outcome (State O × α)} {p : State O → Bool} (h : runIs o p = true) :
    ∃ s rs, o = .ok (s, rs) ∧ p s = true := by
  cases o with
  | ok x => exact ⟨x.1, x.2, rfl, h⟩
  | throws m => cases h
  | undefined => cases h

/-! ## C49 -/

/-- After any history, a call uses a standardizer that was built from texts that were requested in the same
query and whose digests are those of the requested texts, and that has only been used since. -/
theorem C49_digests (env : Env O A R) (fr : NewAddresses env) (ops : List (Op A)) (s s' : State O)
    (rs : List (Option R)) (hr : run env {} ops = .ok (s, rs)) (pid : Nat) (l g : Str) (a : A) (r : R)
    (h : call env s pid l g a = .ok (s', r)) :
    ∃ t o0 o, t ∈ pending pid ops ++ [(l, g)] ∧ env.digest t.1 = env.digest l ∧ env.digest t.2 = env.digest g ∧
      env.build t.1 t.2 = .ok o0 ∧ Grown env o0 o ∧ r = (env.use a o).1 := by
  have inv := run_inv env fr ops (inv_empty env) hr
  rw [List.nil_append] at inv
  obtain ⟨s1, t, o0, o, h1, _, h3, h4, h5, h6⟩ := call_ok env fr inv pid l g a (call_build env h)
  rw [h] at h1
  injection h1 with h1
  injection h1 with _ e2
  rw [pending_snoc] at h3
  simp only [since, if_pos] at h3
  injection h5 with k1 k2
  exact ⟨t, o0, o, h3, k1.symm, k2.symm, h4, h6, e2⟩

/-- If the digests of the texts used do not collide, it was built from the requested texts. -/
theorem C49_exact (env : Env O A R) (fr : NewAddresses env) (ops : List (Op A)) (s s' : State O)
    (rs : List (Option R)) (hr : run env {} ops = .ok (s, rs)) (pid : Nat) (l g : Str) (a : A) (r : R)
    (hc : NoCollision env ((l, g) :: requested ops))
    (h : call env s pid l g a = .ok (s', r)) :
    ∃ o0 o, env.build l g = .ok o0 ∧ Grown env o0 o ∧ r = (env.use a o).1 := by
  obtain ⟨t, o0, o, h1, h2, h3, h4, h5, h6⟩ := C49_digests env fr ops s s' rs hr pid l g a r h
  have ht : t ∈ (l, g) :: requested ops := by
    rcases List.mem_append.1 h1 with h1 | h1
    · exact List.mem_cons_of_mem _ (pending_requested pid ops t h1)
    · rw [List.mem_singleton.1 h1]; exact List.mem_cons_self ..
  have := hc t ht (l, g) (List.mem_cons_self ..) h2 h3
  subst this
  exact ⟨o0, o, h4, h5, h6⟩

/-- What a call returns is what the history returns for it. -/
theorem C49_results (env : Env O A R) (fr : NewAddresses env) (ops : List (Op A)) (s : State O)
    (rs : List (Option R)) (hr : run env {} ops = .ok (s, rs)) (hc : NoCollision env (requested ops))
    (i pid : Nat) (l g : Str) (a : A) (hi : ops[i]? = some (.call pid l g a)) :
    ∃ o0 o, env.build l g = .ok o0 ∧ Grown env o0 o ∧ rs[i]? = some (some (env.use a o).1) := by
  have hsplit : ∀ (ops : List (Op A)) (i : Nat) (s0 : State O) (rs : List (Option R)),
      run env s0 ops = .ok (s, rs) → ops[i]? = some (.call pid l g a) →
      ∃ s1 rs1 s2 r, run env s0 (ops.take i) = .ok (s1, rs1) ∧ call env s1 pid l g a = .ok (s2, r) ∧
        rs[i]? = some (some r) := by
    intro ops
    induction ops with
    | nil => intro i s0 rs _ h; cases h
    | cons op ops ih =>
      intro i s0 rs h hi
      unfold run at h
      cases hs : step env s0 op with
      | undefined => rw [hs] at h; cases h
      | throws m => rw [hs] at h; cases h
      | ok x =>
        rw [hs] at h
        simp only at h
        cases hr' : run env x.1 ops with
        | undefined => rw [hr'] at h; cases h
        | throws m => rw [hr'] at h; cases h
        | ok y =>
          rw [hr'] at h
          simp only [Outcome.ok.injEq, Prod.mk.injEq] at h
          obtain ⟨h1, h2⟩ := h
          cases i with
          | zero =>
            simp only [List.getElem?_cons_zero, Option.some.injEq] at hi
            subst hi
            simp only [step] at hs
            cases hc : call env s0 pid l g a with
            | undefined => rw [hc] at hs; cases hs
            | throws m => rw [hc] at hs; cases hs
            | ok z =>
              rw [hc] at hs
              simp only [Outcome.ok.injEq] at hs
              exact ⟨s0, [], z.1, z.2, rfl, hc, by rw [← h2, ← hs]; rfl⟩
          | succ i =>
            rw [List.getElem?_cons_succ] at hi
            have hy : run env x.1 ops = .ok (s, y.2) := by rw [hr', ← h1]
            obtain ⟨s1, rs1, s2, r, k1, k2, k3⟩ := ih i x.1 y.2 hy hi
            refine ⟨s1, x.2 :: rs1, s2, r, ?_, k2, by rw [← h2]; exact k3⟩
            rw [List.take_succ_cons]
            simp [run, hs, k1]
  obtain ⟨s1, rs1, s2, r, h1, h2, h3⟩ := hsplit ops i {} rs hr hi
  have hmem : ∀ t ∈ (l, g) :: requested (ops.take i), t ∈ requested ops := by
    intro t ht
    rcases List.mem_cons.1 ht with rfl | ht
    · exact List.mem_flatMap.2 ⟨_, List.mem_of_getElem? hi, by simp [asked]⟩
    · obtain ⟨op, ho, hop⟩ := List.mem_flatMap.1 ht
      exact List.mem_flatMap.2 ⟨op, List.mem_of_mem_take ho, hop⟩
  obtain ⟨o0, o, k1, k2, k3⟩ := C49_exact env fr (ops.take i) s1 s2 rs1 h1 pid l g a r
    (fun t ht t' ht' => hc t (hmem t ht) t' (hmem t' ht')) h2
  exact ⟨o0, o, k1, k2, by rw [h3, k3]⟩

/-- The hypotheses hold for the session of the example, in which the standardizer for `a` is evicted and
built again. -/
example : NewAddresses toyCache ∧ NoCollision toyCache ((c!"a", c!"g") :: requested toyOps) ∧
    ∃ s rs, run toyCache {} toyOps = .ok (s, rs) ∧
      runIs (call toyCache s 1 c!"a" c!"g" 7) (fun s => decide ((entriesOf s 1).map (·.lexMd5) = [c!"c", c!"d", c!"e", c!"a"])) := by
  refine ⟨toyCache_fresh, ?_, of_runIs (by decide +kernel)⟩
  intro t _ t' _ h1 h2
  exact Prod.ext h1 h2

/-! ## C50 -/

/-- The cache of a query holds the standardizers for the pairs of digests a first-in first-out cache of four
holds after the requests of that query. -/
theorem C50_fifo (env : Env O A R) (fr : NewAddresses env) (ops : List (Op A)) (s : State O) (rs : List (Option R))
    (hr : run env {} ops = .ok (s, rs)) (pid : Nat) :
    (entriesOf s pid).map Entry.key =
      cachedKeys ((pending pid ops).map (fun t => (env.digest t.1, env.digest t.2))) := by
  have inv := run_inv env fr ops (inv_empty env) hr
  exact inv.keys pid

/-- These are at most four, without repetition, and the last of those that had to be created. -/
theorem C50_last_four {κ : Type} [DecidableEq κ] (ks : List κ) :
    (cachedKeys ks).length ≤ 4 ∧ (cachedKeys ks).Nodup ∧
    cachedKeys ks = (missed [] ks).drop ((missed [] ks).length - 4) := by
  refine ⟨(cachedKeys_bounds ks).1, (cachedKeys_bounds ks).2, ?_⟩
  exact cachedKeys_missed ks []

/-- At most four entries, with distinct digests, in every state of every query. -/
theorem C50_bounded (env : Env O A R) (fr : NewAddresses env) (ops : List (Op A)) (s : State O) (rs : List (Option R))
    (hr : run env {} ops = .ok (s, rs)) (pid : Nat) :
    (entriesOf s pid).length ≤ 4 ∧ ((entriesOf s pid).map Entry.key).Nodup := by
  rw [← List.length_map (f := Entry.key), C50_fifo env fr ops s rs hr pid]
  exact cachedKeys_bounds _

theorem eq_of_key : ∀ {q : List Entry} {e f : Entry}, (q.map Entry.key).Nodup → e ∈ q → f ∈ q → e.key = f.key → e = f
  | [], _, _, _, he, _, _ => by cases he
  | x :: q, e, f, hn, he, hf, hk => by
    rw [List.map_cons, List.nodup_cons] at hn
    rcases List.mem_cons.1 he with h1 | h1
    · rcases List.mem_cons.1 hf with h2 | h2
      · exact h1.trans h2.symm
      · exact absurd (List.mem_map.2 ⟨f, h2, hk.symm.trans (by rw [h1])⟩) hn.1
    · rcases List.mem_cons.1 hf with h2 | h2
      · exact absurd (List.mem_map.2 ⟨e, h1, hk.trans (by rw [h2])⟩) hn.1
      · exact eq_of_key hn.2 h1 h2 hk

/-- A hit changes nothing. -/
theorem C50_hit (env : Env O A R) (fr : NewAddresses env) (ops : List (Op A)) (s : State O) (rs : List (Option R))
    (hr : run env {} ops = .ok (s, rs)) (pid : Nat) (l g : Str) (e : Entry) (he : e ∈ entriesOf s pid)
    (hk : e.key = (env.digest l, env.digest g)) :
    ∃ s', getStd env s pid l g = .ok (s', e.std) ∧ s'.heap = s.heap ∧ s'.hash = s.hash ∧ s'.ctxs = s.ctxs ∧
      ∀ i, entriesOf s' i = entriesOf s i := by
  have inv := run_inv env fr ops (inv_empty env) hr
  rw [List.nil_append] at inv
  obtain ⟨w, hc⟩ := inv.portal pid
  have hex : ∃ e ∈ contents (portalCache s pid), e.key = (env.digest l, env.digest g) := ⟨e, by rw [hc]; exact he, hk⟩
  have hin := (isIn_iff env w l g).2 hex
  obtain ⟨e', he', hk', hg⟩ := getFrom_some env w l g hex
  have hee : e' = e := by
    rw [hc] at he'
    have hn := (C50_bounded env fr ops s rs hr pid).2
    exact eq_of_key hn he' he (hk'.trans hk.symm)
  subst hee
  refine ⟨{ s with portals := put pid (portalCache s pid) s.portals }, by simp [getStd, hin, hg], rfl, rfl, rfl, ?_⟩
  intro i
  rw [entriesOf_put rfl]
  by_cases hi : i = pid
  · rw [if_pos hi, hc, hi]
  · rw [if_neg hi]; rfl

/-- A miss adds the new standardizer; if there are four, it takes the place of the one created first. Other
queries keep theirs. -/
theorem C50_miss (env : Env O A R) (fr : NewAddresses env) (ops : List (Op A)) (s : State O) (rs : List (Option R))
    (hr : run env {} ops = .ok (s, rs)) (pid : Nat) (l g : Str) (o : O) (hb : env.build l g = .ok o)
    (hm : ∀ e ∈ entriesOf s pid, e.key ≠ (env.digest l, env.digest g)) :
    ∃ s' e, getStd env s pid l g = .ok (s', e.std) ∧ e.key = (env.digest l, env.digest g) ∧
      Cache.get e.std s'.heap = some o ∧
      entriesOf s' pid = (if (entriesOf s pid).length = 4 then (entriesOf s pid).tail else entriesOf s pid) ++ [e] ∧
      ∀ i, i ≠ pid → entriesOf s' i = entriesOf s i := by
  have inv := run_inv env fr ops (inv_empty env) hr
  rw [List.nil_append] at inv
  obtain ⟨w, hc⟩ := inv.portal pid
  have hin : isIn env (portalCache s pid) l g = false := by
    cases hi : isIn env (portalCache s pid) l g with
    | false => rfl
    | true =>
      obtain ⟨e, he, hk⟩ := (isIn_iff env w l g).1 hi
      exact absurd hk (hm e (by rw [← hc]; exact he))
  obtain ⟨s1, c', e, a1, w', hk, hcont, hport, _, hheap, _, _, L'⟩ :=
    addTo_ok env fr inv.live pid w (fun e => by rw [hc]) (by rw [hc]; exact (C50_bounded env fr ops s rs hr pid).2) l g o hb
  have hex : ∃ e ∈ contents c', e.key = (env.digest l, env.digest g) := ⟨e, by rw [hcont]; exact push_self _ _, hk⟩
  obtain ⟨e', he', hk', hg⟩ := getFrom_some env w' l g hex
  have hee : e' = e := by
    rw [hcont] at he'
    rcases mem_push he' with h1 | h1
    · exact absurd hk' (hm e' (by rw [← hc]; exact h1))
    · exact h1
  subst hee
  refine ⟨{ s1 with portals := put pid c' s1.portals }, e', by simp [getStd, hin, a1, hg], hk,
    get_of_mem L'.heapNodup hheap, ?_, ?_⟩
  · rw [entriesOf_put rfl, if_pos rfl, hcont, hc]
    unfold push
    have := (C50_bounded env fr ops s rs hr pid).1
    by_cases h4 : (entriesOf s pid).length = 4
    · rw [if_pos h4, if_neg (by omega)]
    · rw [if_neg h4, if_pos (by omega)]
  · intro i hi
    rw [entriesOf_put rfl, if_neg hi, hport]
    rfl

/-- In the example the fifth pair of texts evicted the first one, which a second request had not made
younger; the other query keeps its own. -/
example : ∃ s rs, run toyCache {} toyOps = .ok (s, rs) ∧
    decide ((entriesOf s 1).map (·.lexMd5) = [c!"b", c!"c", c!"d", c!"e"] ∧ (entriesOf s 2).map (·.lexMd5) = [c!"a"] ∧
      s.heap.length = 5) = true := of_runIs (by decide +kernel)

/-! ## C51 -/

/-- In a session in which all texts are valid nothing undefined happens and nothing fails: no standardizer
is used or freed after it has been freed, and no deletion finds its hash entry missing. -/
theorem C51_never_fails (env : Env O A R) (fr : NewAddresses env) (ops : List (Op A)) (hv : Valid env ops) :
    ∃ s rs, run env {} ops = .ok (s, rs) :=
  run_ok env fr ops (inv_empty env) hv

/-- In every state exactly the standardizers of the caches are live, each belongs to one entry of one
query, and the hash table has exactly their contexts. -/
theorem C51_hash_live (env : Env O A R) (fr : NewAddresses env) (ops : List (Op A)) (s : State O) (rs : List (Option R))
    (hr : run env {} ops = .ok (s, rs)) :
    (∀ p, (∃ o, Cache.get p s.heap = some o) ↔ ∃ pid e, e ∈ entriesOf s pid ∧ e.std = p) ∧
    (∀ c p, (c, p) ∈ s.hash.getD [] ↔ ∃ pid e, e ∈ entriesOf s pid ∧ e.ctx = c ∧ e.std = p) ∧
    (∀ c pid, (c, pid) ∈ s.ctxs ↔ ∃ e, e ∈ entriesOf s pid ∧ e.ctx = c) ∧
    (s.heap.map (·.1)).Nodup ∧ ((s.hash.getD []).map (·.1)).Nodup ∧ (s.ctxs.map (·.1)).Nodup ∧
    (∀ i e j f, e ∈ entriesOf s i → f ∈ entriesOf s j → e.std = f.std → i = j ∧ e = f) := by
  have inv := run_inv env fr ops (inv_empty env) hr
  refine ⟨fun p => ?_, inv.live.hash, inv.live.ctxs, inv.live.heapNodup, inv.live.hashNodup, inv.live.ctxsNodup,
    inv.live.stdInj⟩
  have := inv.live.heap p
  simp only [List.not_mem_nil, or_false] at this
  rw [← this]
  constructor
  · rintro ⟨o, ho⟩; exact ⟨o, get_mem ho⟩
  · rintro ⟨o, ho⟩; exact ⟨o, get_of_mem inv.live.heapNodup ho⟩

/-- When every query has ended everything has been destroyed. -/
theorem C51_all_destroyed (env : Env O A R) (fr : NewAddresses env) (ops : List (Op A)) (s : State O)
    (rs : List (Option R)) (hr : run env {} ops = .ok (s, rs)) (he : ∀ pid, pending pid ops = []) :
    s.heap = [] ∧ s.hash.getD [] = [] ∧ s.ctxs = [] ∧ s.portals = [] := by
  have inv := run_inv env fr ops (inv_empty env) hr
  rw [List.nil_append] at inv
  have hnone : ∀ i, entriesOf s i = [] := by
    intro i
    have := inv.keys i
    rw [he i] at this
    exact List.map_eq_nil_iff.1 this
  refine ⟨?_, ?_, ?_, ?_⟩
  · rw [List.eq_nil_iff_forall_not_mem]
    rintro ⟨p, o⟩ h
    rcases (inv.live.heap p).1 ⟨o, h⟩ with ⟨i, e, h1, _⟩ | h1
    · rw [hnone] at h1; cases h1
    · cases h1
  · rw [List.eq_nil_iff_forall_not_mem]
    rintro ⟨c, p⟩ h
    obtain ⟨i, e, h1, _⟩ := (inv.live.hash c p).1 h
    rw [hnone] at h1; cases h1
  · rw [List.eq_nil_iff_forall_not_mem]
    rintro ⟨c, i⟩ h
    obtain ⟨e, h1, _⟩ := (inv.live.ctxs c i).1 h
    rw [hnone] at h1; cases h1
  · cases hps : s.portals with
    | nil => rfl
    | cons x xs =>
      have : (Cache.get x.1 s.portals).isSome = true := by rw [hps]; simp [Cache.get]
      exact absurd (he x.1) ((inv.isOpen x.1).1 this)

/-- The session of the example, then the end of both queries. -/
example : Valid toyCache (toyOps ++ [.finish 1, .finish 2]) ∧ (∀ pid, pending pid (toyOps ++ [Op.finish 1, .finish 2]) = []) ∧
    runIs (run toyCache {} toyOps) (fun s => s.heap.length = 5 ∧ (s.hash.getD []).length = 5) ∧
    runIs (run toyCache {} (toyOps ++ [.finish 1])) (fun s => s.heap.length = 1 ∧ (s.hash.getD []).length = 1) ∧
    runIs (run toyCache {} (toyOps ++ [.finish 1, .finish 2])) (fun s => s.heap.length = 0) := by
  refine ⟨fun t _ => ⟨_, rfl⟩, ?_, by decide +kernel, by decide +kernel, by decide +kernel⟩
  intro pid
  have h1 : ∀ n : Nat, (n = pid) = (pid = n) := fun n => propext eq_comm
  by_cases ha : pid = 1
  · subst ha; decide +kernel
  · by_cases hb : pid = 2
    · subst hb; decide +kernel
    · simp [toyOps, pending, since, h1, ha, hb]

/-! ## C52 -/

/-- The result of a call, without the state. -/
def resultOf {α β : Type} : Outcome (α × β) → Outcome β
  | .ok x => .ok x.2
  | .throws m => .throws m
  | .undefined => .undefined

/-- After any history the result of a call is the one of a new session. -/
theorem C52_history_independent (env : Env O A R) (fr : NewAddresses env) (st : Steady env) (ops : List (Op A))
    (s : State O) (rs : List (Option R)) (hr : run env {} ops = .ok (s, rs)) (pid pid' : Nat) (l g : Str) (a : A)
    (hc : NoCollision env ((l, g) :: requested ops)) :
    resultOf (call env s pid l g a) = resultOf (call env {} pid' l g a) := by
  have inv := run_inv env fr ops (inv_empty env) hr
  rw [List.nil_append] at inv
  have key : ∀ (ops : List (Op A)) (s : State O) (pid : Nat), Inv env ops s → NoCollision env ((l, g) :: requested ops) →
      resultOf (call env s pid l g a) =
        (match env.build l g with
        | .ok o => .ok (env.use a o).1
        | .throws m => .throws m
        | .undefined => .undefined) := by
    intro ops s pid inv hc
    have hcol : ∀ t ∈ pending pid ops ++ [(l, g)], digests env (l, g) = digests env t → t = (l, g) := by
      intro t ht hd
      injection hd with h1 h2
      refine hc t ?_ (l, g) (List.mem_cons_self ..) h1.symm h2.symm
      rcases List.mem_append.1 ht with h | h
      · exact List.mem_cons_of_mem _ (pending_requested pid ops t h)
      · rw [List.mem_singleton.1 h]; exact List.mem_cons_self ..
    have hok : (isIn env (portalCache s pid) l g = true ∨ ∃ o, env.build l g = .ok o) →
        ∃ o0, env.build l g = .ok o0 ∧ resultOf (call env s pid l g a) = .ok (env.use a o0).1 := by
      intro h
      obtain ⟨s1, t, o0, o, h1, _, h3, h4, h5, h6⟩ := call_ok env fr inv pid l g a h
      rw [pending_snoc] at h3
      simp only [since, if_pos] at h3
      have := hcol t h3 h5
      subst this
      exact ⟨o0, h4, by rw [h1, resultOf, grown_steady st h6]⟩
    cases hb : env.build l g with
    | ok o =>
      obtain ⟨o0, h1, h2⟩ := hok (Or.inr ⟨o, hb⟩)
      rw [hb] at h1
      injection h1 with h1
      rw [h2, h1]
    | throws m =>
      cases hi : isIn env (portalCache s pid) l g with
      | true =>
        obtain ⟨o0, h1, _⟩ := hok (Or.inl hi)
        rw [hb] at h1; cases h1
      | false => rw [(call_miss_fails env a hi).2 m hb]; rfl
    | undefined =>
      cases hi : isIn env (portalCache s pid) l g with
      | true =>
        obtain ⟨o0, h1, _⟩ := hok (Or.inl hi)
        rw [hb] at h1; cases h1
      | false => rw [(call_miss_fails env a hi).1 hb]; rfl
  rw [key ops s pid inv hc, key [] {} pid' (inv_empty env) (by
    intro t ht t' ht' _ _
    simp only [requested, List.flatMap_nil, List.mem_singleton] at ht ht'
    rw [ht, ht'])]

/-- `as_standardize` gives the row of what `std_standardize` gives for the same texts, whatever happened
before, unless texts collide. -/
theorem C52_as_standardize (env : Wrapper.Env F D) (digest : Str → Str)
    (newStd newCtx : State (Lexicon × Grammar F) → Nat)
    (fr : NewAddresses (Wrapper.cacheEnv env digest newStd newCtx))
    (ops : List (Op Wrapper.Args)) (s : State (Lexicon × Grammar F)) (rs : List (Option (Option (List (Option Str)))))
    (hr : run (Wrapper.cacheEnv env digest newStd newCtx) {} ops = .ok (s, rs)) (pid : Nat) (lexicon grammar : Str)
    (a : Wrapper.Args)
    (hc : NoCollision (Wrapper.cacheEnv env digest newStd newCtx) ((lexicon, grammar) :: requested ops))
    (hl : ∃ l, Wrapper.loadLexicon env lexicon = .ok l) (hg : ∃ g, Wrapper.loadGrammar env grammar = .ok g) :
    resultOf (call (Wrapper.cacheEnv env digest newStd newCtx) s pid lexicon grammar a) =
      .ok ((Wrapper.stdStandardize env a.address grammar lexicon a.locale a.filter).map Wrapper.sqlRow) := by
  obtain ⟨l, hl⟩ := hl
  obtain ⟨g, hg⟩ := hg
  have hb : (Wrapper.cacheEnv env digest newStd newCtx).build lexicon grammar = .ok (l, g) := by
    simp [Wrapper.cacheEnv, Wrapper.createStd, Wrapper.createStdWith, Wrapper.getLexiconPtr, Wrapper.getGrammarPtr, hl, hg]
  rw [C52_history_independent _ fr (Wrapper.cacheEnv_steady env digest newStd newCtx) ops s rs hr pid pid lexicon grammar a hc]
  obtain ⟨s1, t, o0, o, h1, _, h3, h4, h5, h6⟩ := call_ok _ fr (inv_empty (Wrapper.cacheEnv env digest newStd newCtx))
    pid lexicon grammar a (Or.inr ⟨_, hb⟩)
  have ht : t = (lexicon, grammar) := by simpa [pending, since] using h3
  subst ht
  rw [hb] at h4
  injection h4 with h4
  rw [h1, resultOf, grown_steady (Wrapper.cacheEnv_steady env digest newStd newCtx) h6, ← h4]
  simp only [Wrapper.cacheEnv, Wrapper.useStd, Wrapper.stdStandardize, hg, hl]

/-- A lexicon text with the words of `townLexicon`. -/
def townText : Str := unlines [c!"LEXICON:\tT\tENG\ten\t2", c!"LEXENTRY:\tNEW YORK\tNY\tCITY\t", c!"LEXENTRY:\tSTR\tSTRASSE\tTYPE\t"]

def townArgs : Wrapper.Args := ⟨c!"12 new york str", c!"en", c!"SPACE", true, false, true⟩

/-- Two calls with real texts, of which the first fills pattern caches of the lexicon. -/
example : NewAddresses exCache ∧ NoCollision exCache ((townText, addrText) :: requested [.call 1 townText addrText townArgs]) ∧
    (∃ l, Wrapper.loadLexicon exEnv townText = .ok l) ∧ (∃ g, Wrapper.loadGrammar exEnv addrText = .ok g) ∧
    ∃ s rs, run exCache {} [.call 1 townText addrText townArgs] = .ok (s, rs) ∧
      decide (∃ o ∈ s.heap, o.2.1.regex_.length > 0) = true := by
  refine ⟨exCache_fresh, ?_, ?_, ?_, ?_⟩
  · intro t _ t' _ h1 h2
    exact Prod.ext h1 h2
  · obtain ⟨l, h, _⟩ := of_outcomeIs (o := Wrapper.loadLexicon exEnv townText) (p := fun _ => true) (by decide +kernel)
    exact ⟨l, h⟩
  · obtain ⟨l, h, _⟩ := of_outcomeIs (o := Wrapper.loadGrammar exEnv addrText) (p := fun _ => true) (by decide +kernel)
    exact ⟨l, h⟩
  · exact of_runIs (by decide +kernel)

/-! ## C53 -/

/-- Creating a standardizer never reports an error: it succeeds if both texts load and is undefined
otherwise. -/
theorem C53_crashes (env : Wrapper.Env F D) (lexicon grammar : Str) :
    ((∃ l g, Wrapper.loadLexicon env lexicon = .ok l ∧ Wrapper.loadGrammar env grammar = .ok g ∧
        Wrapper.createStd env lexicon grammar = .ok (l, g)) ∨
      (¬ (∃ l g, Wrapper.loadLexicon env lexicon = .ok l ∧ Wrapper.loadGrammar env grammar = .ok g) ∧
        Wrapper.createStd env lexicon grammar = .undefined)) := by
  unfold Wrapper.createStd Wrapper.createStdWith Wrapper.getLexiconPtr Wrapper.getGrammarPtr
  cases hl : Wrapper.loadLexicon env lexicon with
  | undefined => exact Or.inr ⟨(by rintro ⟨_, _, h, _⟩; cases h), rfl⟩
  | throws m => exact Or.inr ⟨(by rintro ⟨_, _, h, _⟩; cases h), rfl⟩
  | ok l =>
    cases hg : Wrapper.loadGrammar env grammar with
    | undefined => exact Or.inr ⟨(by rintro ⟨_, _, _, h⟩; cases h), rfl⟩
    | throws m => exact Or.inr ⟨(by rintro ⟨_, _, _, h⟩; cases h), rfl⟩
    | ok g => exact Or.inl ⟨l, g, rfl, rfl, rfl⟩

/-- In terms of the texts: a lexicon text that is not an archive, and a grammar of terminated lines. -/
theorem C53_valid_texts (env : Wrapper.Env F D) (h0 : env.fo.le0 env.fo.zero = true) (lexicon : Str) (ls : List Str)
    (ha : env.archive lexicon = .notArchive) (hn : ∀ l ∈ ls, '\n' ∉ l) (hb : NoBom (unlines ls)) :
    ((∃ o, Wrapper.createStd env lexicon (unlines ls) = .ok o) ↔
      (∃ h es, LexText env.icu lexicon h es) ∧
      (∃ ms rs, GrammarMeans env.u.toCharTables env.fo ls ms rs ∧ ¬ Dangling ms rs ∧ Rooted ms rs)) ∧
    ((¬ ∃ o, Wrapper.createStd env lexicon (unlines ls) = .ok o) →
      Wrapper.createStd env lexicon (unlines ls) = .undefined) := by
  have hlex : (∃ l, Wrapper.loadLexicon env lexicon = .ok l) ↔ ∃ h es, LexText env.icu lexicon h es := by
    unfold Wrapper.loadLexicon
    rw [ha]
    simp only
    constructor
    · rintro ⟨l, hl⟩
      cases hi : Lexicon.initialize env.icu c!"query-lex" lexicon with
      | error e => rw [hi] at hl; cases hl
      | ok l' => exact C18_only _ _ _ _ hi
    · rintro ⟨h, es, ht⟩
      obtain ⟨l, hl, _⟩ := C18_loads _ c!"query-lex" _ _ _ ht
      exact ⟨l, by rw [hl]⟩
  have hgr : (∃ g, Wrapper.loadGrammar env (unlines ls) = .ok g) ↔
      ∃ ms rs, GrammarMeans env.u.toCharTables env.fo ls ms rs ∧ ¬ Dangling ms rs ∧ Rooted ms rs := by
    unfold Wrapper.loadGrammar
    constructor
    · rintro ⟨g, hg⟩
      cases hi : Grammar.initialize env.u.toCharTables env.fo (unlines ls) with
      | error e => rw [hi] at hg; cases hg
      | ok g' => exact ⟨_, _, (C32_text_meaning _ _ h0 ls hn hb _ _).1 ⟨g', hi, rfl, rfl⟩⟩
    · rintro ⟨ms, rs, hm⟩
      obtain ⟨g, hg, _⟩ := (C32_text_meaning _ _ h0 ls hn hb _ _).2 hm
      exact ⟨g, by rw [hg]⟩
  rw [← hlex, ← hgr]
  rcases C53_crashes env lexicon (unlines ls) with ⟨l, g, h1, h2, h3⟩ | ⟨h1, h2⟩
  · exact ⟨⟨fun _ => ⟨⟨l, h1⟩, ⟨g, h2⟩⟩, fun _ => ⟨_, h3⟩⟩, fun h => absurd ⟨_, h3⟩ h⟩
  · refine ⟨⟨?_, ?_⟩, fun _ => h2⟩
    · rintro ⟨o, ho⟩; rw [h2] at ho; cases ho
    · rintro ⟨⟨l, hl⟩, g, hg⟩; exact absurd ⟨l, g, hl, hg⟩ h1

/-- Not even with a valid error pointer would a bad grammar be reported: the lexicon is then freed
twice. -/
theorem C53_bad_grammar_double_free (env : Wrapper.Env F D) (errMsgIsNull : Bool) (lexicon grammar : Str) (l : Lexicon)
    (m : Str) (hl : Wrapper.loadLexicon env lexicon = .ok l) (hg : Wrapper.loadGrammar env grammar = .throws m) :
    Wrapper.createStdWith env errMsgIsNull lexicon grammar = .undefined := by
  unfold Wrapper.createStdWith Wrapper.getLexiconPtr Wrapper.getGrammarPtr
  rw [hl, hg]
  cases errMsgIsNull <;> rfl

/-- So `as_standardize` crashes on a bad text, at any point of a session. -/
theorem C53_session (env : Wrapper.Env F D) (digest : Str → Str) (newStd newCtx : State (Lexicon × Grammar F) → Nat)
    (fr : NewAddresses (Wrapper.cacheEnv env digest newStd newCtx))
    (ops : List (Op Wrapper.Args)) (s : State (Lexicon × Grammar F)) (rs : List (Option (Option (List (Option Str)))))
    (hr : run (Wrapper.cacheEnv env digest newStd newCtx) {} ops = .ok (s, rs)) (pid : Nat) (lexicon grammar : Str)
    (a : Wrapper.Args)
    (hc : NoCollision (Wrapper.cacheEnv env digest newStd newCtx) ((lexicon, grammar) :: requested ops))
    (hbad : ¬ ∃ l g, Wrapper.loadLexicon env lexicon = .ok l ∧ Wrapper.loadGrammar env grammar = .ok g) :
    call (Wrapper.cacheEnv env digest newStd newCtx) s pid lexicon grammar a = .undefined := by
  have hu : (Wrapper.cacheEnv env digest newStd newCtx).build lexicon grammar = .undefined := by
    rcases C53_crashes env lexicon grammar with ⟨l, g, h1, h2, _⟩ | ⟨_, h⟩
    · exact absurd ⟨l, g, h1, h2⟩ hbad
    · exact h
  have h := C52_history_independent _ fr (Wrapper.cacheEnv_steady env digest newStd newCtx) ops s rs hr pid pid lexicon grammar a hc
  rw [(call_miss_fails _ a (isIn_empty (Wrapper.cacheEnv env digest newStd newCtx) pid lexicon grammar)).1 hu] at h
  cases hcall : call (Wrapper.cacheEnv env digest newStd newCtx) s pid lexicon grammar a with
  | undefined => rfl
  | ok x => rw [hcall] at h; cases h
  | throws m => rw [hcall] at h; cases h

/-- A lexicon text without header, and a grammar without section ADDRESS. -/
example : Wrapper.createStd exEnv c!"ROAD\n" addrText = .undefined ∧
    Wrapper.createStd exEnv townText (unlines [c!"[A]", c!"WORD -> EXTRA -> 0.1"]) = .undefined ∧
    (∃ o, Wrapper.createStd exEnv townText addrText = .ok o) := by
  refine ⟨?_, ?_, ?_⟩
  · rcases C53_crashes exEnv c!"ROAD\n" addrText with ⟨l, _, h, _⟩ | ⟨_, h⟩
    · have : outcomeIs (Wrapper.loadLexicon exEnv c!"ROAD\n") (fun _ => true) = false := by decide +kernel
      rw [h] at this; cases this
    · exact h
  · rcases C53_crashes exEnv townText (unlines [c!"[A]", c!"WORD -> EXTRA -> 0.1"]) with ⟨_, g, _, h, _⟩ | ⟨_, h⟩
    · have : outcomeIs (Wrapper.loadGrammar exEnv (unlines [c!"[A]", c!"WORD -> EXTRA -> 0.1"])) (fun _ => true) = false := by
        decide +kernel
      rw [h] at this; cases this
    · exact h
  · obtain ⟨o, h, _⟩ := of_outcomeIs (o := Wrapper.createStd exEnv townText addrText) (p := fun _ => true) (by decide +kernel)
    exact ⟨o, h⟩

end AS.Props
