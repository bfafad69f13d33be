import Verif.Spec.Cache
/-
Lemmas on the cache of standardizers.
-/
namespace AS
namespace Cache
variable {O A R : Type}

/-! ### Maps -/

theorem get_mem {α : Type} {k : Nat} {v : α} {m : List (Nat × α)} (h : get k m = some v) : (k, v) ∈ m := by
  unfold get at h
  cases hf : m.find? (fun e => decide (e.1 = k)) with
  | none => rw [hf] at h; cases h
  | some e =>
    rw [hf] at h
    have h1 := List.find?_some hf
    have h2 := List.mem_of_find?_eq_some hf
    simp only [decide_eq_true_eq] at h1
    simp only [Option.map_some, Option.some.injEq] at h
    rw [← h1, ← h]
    exact h2

theorem get_none {α : Type} {k : Nat} {m : List (Nat × α)} : get k m = none ↔ ∀ v, (k, v) ∉ m := by
  constructor
  · intro h v hv
    unfold get at h
    rw [Option.map_eq_none_iff, List.find?_eq_none] at h
    exact h _ hv (by simp)
  · intro h
    cases hg : get k m with
    | none => rfl
    | some v => exact absurd (get_mem hg) (h v)

theorem get_of_mem {α : Type} {k : Nat} {v : α} {m : List (Nat × α)} (hn : (m.map (·.1)).Nodup) (h : (k, v) ∈ m) :
    get k m = some v := by
  cases hg : get k m with
  | none => exact absurd h (get_none.1 hg v)
  | some w =>
    have hw := get_mem hg
    induction m with
    | nil => cases h
    | cons e m ih =>
      rw [List.map_cons, List.nodup_cons] at hn
      rcases List.mem_cons.1 h with rfl | h'
      · rcases List.mem_cons.1 hw with e' | hw'
        · injection e' with _ e2; rw [e2]
        · exact absurd (List.mem_map.2 ⟨_, hw', rfl⟩) hn.1
      · rcases List.mem_cons.1 hw with rfl | hw'
        · exact absurd (List.mem_map.2 ⟨_, h', rfl⟩) hn.1
        · have he : e.1 ≠ k := by
            rintro rfl
            exact hn.1 (List.mem_map.2 ⟨_, h', rfl⟩)
          refine ih hn.2 h' ?_ hw'
          unfold get at hg ⊢
          rw [List.find?_cons] at hg
          simpa [he] using hg

theorem mem_del {α : Type} {k k' : Nat} {v : α} {m : List (Nat × α)} : (k', v) ∈ del k m ↔ (k', v) ∈ m ∧ k' ≠ k := by
  simp [del]

theorem nodup_del {α : Type} {k : Nat} {m : List (Nat × α)} (h : (m.map (·.1)).Nodup) : ((del k m).map (·.1)).Nodup :=
  (List.Sublist.map _ List.filter_sublist).nodup h

theorem nodup_cons_of_get {α : Type} {k : Nat} {v : α} {m : List (Nat × α)} (h : (m.map (·.1)).Nodup)
    (hk : get k m = none) : (((k, v) :: m).map (·.1)).Nodup := by
  rw [List.map_cons, List.nodup_cons]
  refine ⟨?_, h⟩
  intro hm
  obtain ⟨e, he, e'⟩ := List.mem_map.1 hm
  exact get_none.1 hk e.2 (by rw [← show e.1 = k from e']; exact he)

theorem nodup_put {α : Type} {k : Nat} {v : α} {m : List (Nat × α)} (h : (m.map (·.1)).Nodup) :
    ((put k v m).map (·.1)).Nodup :=
  nodup_cons_of_get (nodup_del h) (get_none.2 (fun w hw => (mem_del.1 hw).2 rfl))

theorem mem_put {α : Type} {k k' : Nat} {v v' : α} {m : List (Nat × α)} :
    (k', v') ∈ put k v m ↔ (k' = k ∧ v' = v) ∨ ((k', v') ∈ m ∧ k' ≠ k) := by
  simp [put, mem_del]

theorem get_put_same {α : Type} {k : Nat} {v : α} {m : List (Nat × α)} : get k (put k v m) = some v := by
  simp [get, put]

theorem get_del_other {α : Type} {k k' : Nat} {m : List (Nat × α)} (hk : k' ≠ k) : get k' (del k m) = get k' m := by
  unfold get del
  congr 1
  rw [List.find?_filter]
  congr 1
  funext e
  by_cases h : e.1 = k'
  · simp [h, hk]
  · simp [h]

theorem get_del_same {α : Type} {k : Nat} {m : List (Nat × α)} : get k (del k m) = none :=
  get_none.2 (fun _ h => (mem_del.1 h).2 rfl)

theorem get_put_other {α : Type} {k k' : Nat} {v : α} {m : List (Nat × α)} (hk : k' ≠ k) :
    get k' (put k v m) = get k' m := by
  have : get k' (put k v m) = get k' (del k m) := by
    unfold put get
    rw [List.find?_cons]
    simp [Ne.symm hk]
  rw [this, get_del_other hk]

/-! ### Memory -/

/-- What is live is what the entries `E` refer to, and the standardizers `ex`. -/
structure Live (s : State O) (E : Nat → Entry → Prop) (ex : List Ptr) : Prop where
  heap : ∀ p, (∃ o, (p, o) ∈ s.heap) ↔ (∃ i e, E i e ∧ e.std = p) ∨ p ∈ ex
  heapNodup : (s.heap.map (·.1)).Nodup
  hash : ∀ c p, (c, p) ∈ s.hash.getD [] ↔ ∃ i e, E i e ∧ e.ctx = c ∧ e.std = p
  hashNodup : ((s.hash.getD []).map (·.1)).Nodup
  ctxs : ∀ c i, (c, i) ∈ s.ctxs ↔ ∃ e, E i e ∧ e.ctx = c
  ctxsNodup : (s.ctxs.map (·.1)).Nodup
  stdInj : ∀ i e j f, E i e → E j f → e.std = f.std → i = j ∧ e = f
  ctxInj : ∀ i e j f, E i e → E j f → e.ctx = f.ctx → i = j ∧ e = f
  exNew : ∀ p ∈ ex, ∀ i e, E i e → e.std ≠ p

theorem contextDelete_ok {s : State O} {E : Nat → Entry → Prop} {ex : List Ptr} (L : Live s E ex) {i : Nat} {e : Entry}
    (he : E i e) : ∃ s', contextDelete s e.ctx = .ok s' ∧ s'.portals = s.portals ∧ s'.clock = s.clock ∧
      s'.heap = del e.std s.heap ∧ s'.ctxs = del e.ctx s.ctxs ∧ Live s' (fun j f => E j f ∧ f ≠ e) ex := by
  have hctx : get e.ctx s.ctxs = some i := get_of_mem L.ctxsNodup ((L.ctxs _ _).2 ⟨e, he, rfl⟩)
  have hmem : (e.ctx, e.std) ∈ s.hash.getD [] := (L.hash _ _).2 ⟨i, e, he, rfl, rfl⟩
  have hhash : ∃ h, s.hash = some h := by
    cases hh : s.hash with
    | none => rw [hh] at hmem; cases hmem
    | some h => exact ⟨h, rfl⟩
  obtain ⟨h, hh⟩ := hhash
  have L' := L.hash
  have Ln := L.hashNodup
  rw [hh] at hmem L' Ln
  simp only [Option.getD_some] at hmem L' Ln
  have hget : get e.ctx h = some e.std := get_of_mem Ln hmem
  obtain ⟨o, ho⟩ := (L.heap e.std).2 (Or.inl ⟨i, e, he, rfl⟩)
  have hheap : get e.std s.heap = some o := get_of_mem L.heapNodup ho
  refine ⟨{ s with heap := del e.std s.heap, hash := some (del e.ctx h), ctxs := del e.ctx s.ctxs },
    ?_, rfl, rfl, rfl, rfl, ?_⟩
  · simp [contextDelete, hctx, stdCacheDelete, hh, hget, hheap]
  · have hne : ∀ j f, E j f → (f ≠ e ↔ f.std ≠ e.std) := by
      intro j f hf
      constructor
      · intro h1 h2; exact h1 (L.stdInj _ _ _ _ hf he h2).2
      · rintro h1 rfl; exact h1 rfl
    have hne' : ∀ j f, E j f → (f ≠ e ↔ f.ctx ≠ e.ctx) := by
      intro j f hf
      constructor
      · intro h1 h2; exact h1 (L.ctxInj _ _ _ _ hf he h2).2
      · rintro h1 rfl; exact h1 rfl
    refine ⟨?_, nodup_del L.heapNodup, ?_, nodup_del Ln, ?_, nodup_del L.ctxsNodup,
      fun i e j f h1 h2 => L.stdInj i e j f h1.1 h2.1, fun i e j f h1 h2 => L.ctxInj i e j f h1.1 h2.1,
      fun p hp j f h1 => L.exNew p hp j f h1.1⟩
    · intro p
      constructor
      · rintro ⟨o', ho'⟩
        obtain ⟨h1, h2⟩ := mem_del.1 ho'
        rcases (L.heap p).1 ⟨o', h1⟩ with ⟨j, f, hf, rfl⟩ | hx
        · exact Or.inl ⟨j, f, ⟨hf, (hne j f hf).2 h2⟩, rfl⟩
        · exact Or.inr hx
      · rintro (⟨j, f, ⟨hf, hfe⟩, rfl⟩ | hx)
        · obtain ⟨o', ho'⟩ := (L.heap f.std).2 (Or.inl ⟨j, f, hf, rfl⟩)
          exact ⟨o', mem_del.2 ⟨ho', (hne j f hf).1 hfe⟩⟩
        · obtain ⟨o', ho'⟩ := (L.heap p).2 (Or.inr hx)
          exact ⟨o', mem_del.2 ⟨ho', fun e' => L.exNew p hx i e he e'.symm⟩⟩
    · intro c p
      simp only [Option.getD_some, mem_del, L']
      constructor
      · rintro ⟨⟨j, f, hf, rfl, rfl⟩, h2⟩
        exact ⟨j, f, ⟨hf, (hne' j f hf).2 h2⟩, rfl, rfl⟩
      · rintro ⟨j, f, ⟨hf, hfe⟩, rfl, rfl⟩
        exact ⟨⟨j, f, hf, rfl, rfl⟩, (hne' j f hf).1 hfe⟩
    · intro c j
      simp only [mem_del, L.ctxs]
      constructor
      · rintro ⟨⟨f, hf, rfl⟩, h2⟩
        exact ⟨f, ⟨hf, (hne' j f hf).2 h2⟩, rfl⟩
      · rintro ⟨f, ⟨hf, hfe⟩, rfl⟩
        exact ⟨⟨f, hf, rfl⟩, (hne' j f hf).1 hfe⟩

theorem Live.congr {s : State O} {E E' : Nat → Entry → Prop} {ex : List Ptr} (L : Live s E ex)
    (h : ∀ i e, E i e ↔ E' i e) : Live s E' ex := by
  have : E = E' := by funext i e; exact propext (h i e)
  rw [← this]; exact L

/-! ### Slots -/

/-- The slots from the oldest to the newest. -/
def rot (c : Portal) : List Item := c.items.drop c.next ++ c.items.take c.next

/-- The slots in use are the newest ones. -/
structure WfPortal (c : Portal) : Prop where
  len : c.items.length = 4
  next : c.next < 4
  rot : rot c = List.replicate (4 - (contents c).length) ({} : Item) ++ (contents c).map Entry.item
  four : (contents c).length ≤ 4

theorem itemEntry_item (e : Entry) : itemEntry e.item = some e := rfl

theorem filterMap_entries (n : Nat) (q : List Entry) :
    (List.replicate n ({} : Item) ++ q.map Entry.item).filterMap itemEntry = q := by
  rw [List.filterMap_append]
  have h1 : (List.replicate n ({} : Item)).filterMap itemEntry = [] := by
    induction n with
    | zero => rfl
    | succ n ih => rw [List.replicate_succ, List.filterMap_cons]; exact ih
  have h2 : (q.map Entry.item).filterMap itemEntry = q := by
    induction q with
    | nil => rfl
    | cons e q ih => rw [List.map_cons, List.filterMap_cons, itemEntry_item]; simp only [ih]
  rw [h1, h2]; rfl

theorem wf_of_rot {c : Portal} (h1 : c.items.length = 4) (h2 : c.next < 4) (q : List Entry) (hq : q.length ≤ 4)
    (h : rot c = List.replicate (4 - q.length) ({} : Item) ++ q.map Entry.item) : WfPortal c ∧ contents c = q := by
  have : contents c = q := by
    show (rot c).filterMap itemEntry = q
    rw [h, filterMap_entries]
  exact ⟨⟨h1, h2, by rw [this, h], by rw [this]; exact hq⟩, this⟩

theorem rot_head {c : Portal} (h1 : c.items.length = 4) (h2 : c.next < 4) : ∃ x xs, rot c = x :: xs ∧ c.items[c.next]? = some x := by
  obtain ⟨items, next⟩ := c
  simp only at h1 h2
  match items, h1 with
  | [a, b, d, e], _ =>
    match next, h2 with
    | 0, _ => exact ⟨_, _, rfl, rfl⟩
    | 1, _ => exact ⟨_, _, rfl, rfl⟩
    | 2, _ => exact ⟨_, _, rfl, rfl⟩
    | 3, _ => exact ⟨_, _, rfl, rfl⟩

theorem rot_set {c : Portal} (h1 : c.items.length = 4) (h2 : c.next < 4) (x : Item) :
    rot { items := c.items.set c.next x, next := (c.next + 1) % 4 } = (rot c).tail ++ [x] := by
  obtain ⟨items, next⟩ := c
  simp only at h1 h2
  match items, h1 with
  | [a, b, d, e], _ =>
    match next, h2 with
    | 0, _ => rfl
    | 1, _ => rfl
    | 2, _ => rfl
    | 3, _ => simp [rot]

theorem wf_empty : WfPortal { items := List.replicate 4 {}, next := 0 } ∧
    contents { items := List.replicate 4 {}, next := 0 } = [] :=
  wf_of_rot rfl (by decide) [] (by decide) rfl

theorem mem_rot {c : Portal} {x : Item} : x ∈ rot c ↔ x ∈ c.items := by
  rw [rot, List.mem_append, Or.comm, ← List.mem_append, List.take_append_drop]

theorem hits_item (e : Entry) (a b : Str) : e.item.hits a b = true ↔ e.key = (a, b) := by
  simp [Item.hits, Entry.item, Entry.key]

theorem hits_empty (a b : Str) : ({} : Item).hits a b = false := rfl

theorem item_of_mem {c : Portal} (w : WfPortal c) {x : Item} (hx : x ∈ c.items) : x = {} ∨ ∃ e ∈ contents c, x = e.item := by
  have := mem_rot.2 hx
  rw [w.rot, List.mem_append] at this
  rcases this with h | h
  · exact Or.inl (List.eq_of_mem_replicate h)
  · obtain ⟨e, he, rfl⟩ := List.mem_map.1 h
    exact Or.inr ⟨e, he, rfl⟩

theorem mem_items {c : Portal} (w : WfPortal c) {e : Entry} (he : e ∈ contents c) : e.item ∈ c.items := by
  apply mem_rot.1
  rw [w.rot]
  exact List.mem_append_right _ (List.mem_map.2 ⟨e, he, rfl⟩)

theorem isIn_iff (env : Env O A R) {c : Portal} (w : WfPortal c) (l g : Str) :
    isIn env c l g = true ↔ ∃ e ∈ contents c, e.key = (env.digest l, env.digest g) := by
  rw [isIn, List.any_eq_true]
  constructor
  · rintro ⟨x, hx, hh⟩
    rcases item_of_mem w hx with rfl | ⟨e, he, rfl⟩
    · rw [hits_empty] at hh; cases hh
    · exact ⟨e, he, (hits_item e _ _).1 hh⟩
  · rintro ⟨e, he, hk⟩
    exact ⟨e.item, mem_items w he, (hits_item e _ _).2 hk⟩

theorem getFrom_some (env : Env O A R) {c : Portal} (w : WfPortal c) (l g : Str)
    (h : ∃ e ∈ contents c, e.key = (env.digest l, env.digest g)) :
    ∃ e ∈ contents c, e.key = (env.digest l, env.digest g) ∧ getFrom env c l g = some e.std := by
  obtain ⟨e, he, hk⟩ := h
  unfold getFrom
  cases hf : c.items.find? (fun it => it.hits (env.digest l) (env.digest g)) with
  | none =>
    rw [List.find?_eq_none] at hf
    exact absurd ((hits_item e _ _).2 hk) (hf _ (mem_items w he))
  | some x =>
    have h1 := List.find?_some hf
    have h2 := List.mem_of_find?_eq_some hf
    rcases item_of_mem w h2 with rfl | ⟨e', he', rfl⟩
    · rw [hits_empty] at h1; cases h1
    · exact ⟨e', he', (hits_item e' _ _).1 h1, rfl⟩

/-- A queue of at most four after one more has come. -/
def push (q : List Entry) (e : Entry) : List Entry := if q.length < 4 then q ++ [e] else q.tail ++ [e]

theorem set_set_same (items : List Item) (n : Nat) (x y : Item) : (items.set n x).set n y = items.set n y := by
  simp

theorem addTo_ok (env : Env O A R) (fr : NewAddresses env) {s : State O} {E : Nat → Entry → Prop} (L : Live s E [])
    (pid : Nat) {c : Portal} (w : WfPortal c) (hE : ∀ e, E pid e ↔ e ∈ contents c)
    (hn : ((contents c).map Entry.key).Nodup)
    (l g : Str) (o : O) (hb : env.build l g = .ok o) :
    ∃ s' c' e, addTo env s pid c l g = .ok (s', c') ∧ WfPortal c' ∧ e.key = (env.digest l, env.digest g) ∧
      contents c' = push (contents c) e ∧ s'.portals = s.portals ∧ s'.clock = s.clock ∧ (e.std, o) ∈ s'.heap ∧
      (∀ p o', (p, o') ∈ s'.heap → (p, o') ∈ s.heap ∨ (p = e.std ∧ o' = o)) ∧
      (∀ i f, E i f → f.std ≠ e.std) ∧
      Live s' (fun i f => if i = pid then f ∈ contents c' else E i f) [] := by
  have hp := fr.std s
  generalize hpn : env.newStd s = p at hp
  have hpnew : ∀ i e, E i e → e.std ≠ p := by
    intro i e he h
    obtain ⟨o', ho'⟩ := (L.heap e.std).2 (Or.inl ⟨i, e, he, rfl⟩)
    exact get_none.1 hp o' (h ▸ ho')
  have L1 : Live { s with heap := (p, o) :: s.heap } E [p] := by
    refine ⟨?_, nodup_cons_of_get L.heapNodup hp, L.hash, L.hashNodup, L.ctxs, L.ctxsNodup, L.stdInj, L.ctxInj, ?_⟩
    · intro q
      constructor
      · rintro ⟨o', ho'⟩
        rcases List.mem_cons.1 ho' with h | h
        · injection h with h1 _
          exact Or.inr (by rw [h1]; exact List.mem_singleton.2 rfl)
        · rcases (L.heap q).1 ⟨o', h⟩ with h | h
          · exact Or.inl h
          · cases h
      · rintro (h | h)
        · obtain ⟨o', ho'⟩ := (L.heap q).2 (Or.inl h)
          exact ⟨o', List.mem_cons_of_mem _ ho'⟩
        · rw [List.mem_singleton.1 h]
          exact ⟨o, List.mem_cons_self ..⟩
    · intro q hq i e he
      rw [List.mem_singleton.1 hq]
      exact hpnew i e he
  obtain ⟨x, xs, hrot, hx⟩ := rot_head w.len w.next
  -- the state and the entries after the eviction
  have hdel : ∃ s2 items2, deleteNextSlot { s with heap := (p, o) :: s.heap } c = .ok (s2, { c with items := items2 }) ∧
      (∀ y, items2.set c.next y = c.items.set c.next y) ∧ s2.portals = s.portals ∧ s2.clock = s.clock ∧
      (p, o) ∈ s2.heap ∧ (∀ q o', (q, o') ∈ s2.heap → (q, o') ∈ s.heap ∨ (q = p ∧ o' = o)) ∧
      Live s2 (fun i f => E i f ∧ (i = pid → f ∈ if (contents c).length < 4 then contents c else (contents c).tail)) [p] ∧
      rot c = x :: xs ∧ xs = List.replicate (3 - (if (contents c).length < 4 then contents c else (contents c).tail).length) ({} : Item) ++
        (if (contents c).length < 4 then contents c else (contents c).tail).map Entry.item := by
    have hr := w.rot
    rw [hrot] at hr
    by_cases hlt : (contents c).length < 4
    · have hx0 : x = {} ∧ xs = List.replicate (3 - (contents c).length) ({} : Item) ++ (contents c).map Entry.item := by
        rw [show 4 - (contents c).length = (3 - (contents c).length) + 1 by omega, List.replicate_succ] at hr
        injection hr with h1 h2
        exact ⟨h1, h2⟩
      refine ⟨{ s with heap := (p, o) :: s.heap }, c.items, ?_, fun _ => rfl, rfl, rfl, List.mem_cons_self .., ?_, ?_, hrot, ?_⟩
      · rw [hx0.1] at hx
        simp [deleteNextSlot, hx]
      · intro q o' h
        rcases List.mem_cons.1 h with h | h
        · injection h with h1 h2; exact Or.inr ⟨h1, h2⟩
        · exact Or.inl h
      · apply L1.congr
        intro i e
        rw [if_pos hlt]
        constructor
        · intro h
          exact ⟨h, fun hi => (hE e).1 (hi ▸ h)⟩
        · exact fun h => h.1
      · rw [if_pos hlt]; exact hx0.2
    · have h4 : (contents c).length = 4 := by have := w.four; omega
      rw [h4] at hr
      obtain ⟨e0, es, he0⟩ : ∃ e0 es, contents c = e0 :: es := by
        cases hc : contents c with
        | nil => rw [hc] at h4; cases h4
        | cons a b => exact ⟨a, b, rfl⟩
      rw [he0] at hr
      simp only [Nat.sub_self, List.replicate_zero, List.nil_append, List.map_cons, List.cons.injEq] at hr
      obtain ⟨hx0, hxs⟩ := hr
      have hE0 : E pid e0 := (hE e0).2 (by rw [he0]; exact List.mem_cons_self ..)
      obtain ⟨s2, h1, h2, h3, h5, h6, L2⟩ := contextDelete_ok L1 hE0
      refine ⟨s2, c.items.set c.next ⟨none, none, none, some e0.ctx⟩, ?_, ?_, h2, h3, ?_, ?_, ?_, hrot, ?_⟩
      · rw [hx0] at hx
        simp [deleteNextSlot, hx, Entry.item, h1]
      · intro y; exact set_set_same _ _ _ _
      · rw [h5]
        exact mem_del.2 ⟨List.mem_cons_self .., fun h => hpnew pid e0 hE0 h.symm⟩
      · intro q o' h
        rw [h5] at h
        rcases List.mem_cons.1 (mem_del.1 h).1 with h | h
        · injection h with h1 h2; exact Or.inr ⟨h1, h2⟩
        · exact Or.inl h
      · apply L2.congr
        intro i e
        rw [if_neg hlt, he0, List.tail_cons]
        constructor
        · rintro ⟨h, hne⟩
          refine ⟨h, ?_⟩
          rintro rfl
          have := (hE e).1 h
          rw [he0] at this
          rcases List.mem_cons.1 this with h | h
          · exact absurd h hne
          · exact h
        · rintro ⟨h, hm⟩
          refine ⟨h, ?_⟩
          rintro rfl
          have hi : i = pid := (L.stdInj _ _ _ _ h hE0 rfl).1
          rw [he0, List.map_cons, List.nodup_cons] at hn
          exact hn.1 (List.mem_map.2 ⟨_, hm hi, rfl⟩)
      · rw [if_neg hlt, he0, List.tail_cons, hxs]
        have : es.length = 3 := by rw [he0] at h4; simpa using h4
        simp [this]
  obtain ⟨s2, items2, d1, d2, d3, d4, d5, d6, L2, _, d7⟩ := hdel
  generalize hq : (if (contents c).length < 4 then contents c else (contents c).tail) = q at L2 d7
  have hq3 : q.length ≤ 3 := by
    rw [← hq]
    split
    · omega
    · have := w.four
      rw [List.length_tail]; omega
  have hc := fr.ctx s2
  generalize hcn : env.newCtx s2 = ctx at hc
  have hcnew : ∀ i e, (E i e ∧ (i = pid → e ∈ q)) → e.ctx ≠ ctx := by
    intro i e he h
    exact get_none.1 hc i ((L2.ctxs _ _).2 ⟨e, he, h⟩)
  have hhash : get ctx (s2.hash.getD []) = none := by
    rw [get_none]
    intro v hv
    obtain ⟨i, e, he, h1, _⟩ := (L2.hash _ _).1 hv
    exact hcnew i e he h1
  let e : Entry := ⟨env.digest l, env.digest g, p, ctx⟩
  have hw := wf_of_rot (c := { items := c.items.set c.next e.item, next := (c.next + 1) % 4 })
    (by simp [w.len]) (Nat.mod_lt _ (by decide)) (q ++ [e]) (by rw [List.length_append, List.length_singleton]; omega) (by
      rw [rot_set w.len w.next, hrot, List.tail_cons, d7, List.length_append, List.length_singleton,
        List.map_append, List.append_assoc, show 4 - (q.length + 1) = 3 - q.length by omega]
      rfl)
  refine ⟨{ s2 with ctxs := (ctx, pid) :: s2.ctxs, hash := some ((ctx, p) :: s2.hash.getD []) },
    { items := c.items.set c.next e.item, next := (c.next + 1) % 4 }, e, ?_, hw.1, rfl, ?_, d3, d4, d5, d6,
    fun i f hf => hpnew i f hf, ?_⟩
  · simp only [addTo, hb, hpn, d1, hcn, addHashEntry, hhash, d2]
    rfl
  · rw [hw.2, push, ← hq]
    split <;> rfl
  · rw [hw.2]
    have hEq : ∀ i f, (if i = pid then f ∈ q ++ [e] else E i f) ↔
        ((E i f ∧ (i = pid → f ∈ q)) ∨ (i = pid ∧ f = e)) := by
      intro i f
      by_cases hi : i = pid
      · subst hi
        rw [if_pos rfl, List.mem_append, List.mem_singleton]
        constructor
        · rintro (h | h)
          · left
            refine ⟨(hE f).2 ?_, fun _ => h⟩
            rw [← hq] at h
            split at h
            · exact h
            · exact List.mem_of_mem_tail h
          · exact Or.inr ⟨rfl, h⟩
        · rintro (h | h)
          · exact Or.inl (h.2 rfl)
          · exact Or.inr h.2
      · rw [if_neg hi]
        constructor
        · intro h; exact Or.inl ⟨h, fun h' => absurd h' hi⟩
        · rintro (h | h)
          · exact h.1
          · exact absurd h.1 hi
    apply Live.congr (E := fun i f => (E i f ∧ (i = pid → f ∈ q)) ∨ (i = pid ∧ f = e)) _ (fun i f => (hEq i f).symm)
    refine ⟨?_, L2.heapNodup, ?_, nodup_cons_of_get L2.hashNodup hhash, ?_, nodup_cons_of_get L2.ctxsNodup hc, ?_, ?_, ?_⟩
    · intro r
      rw [L2.heap r]
      constructor
      · rintro (⟨i, f, hf, h⟩ | h)
        · exact Or.inl ⟨i, f, Or.inl hf, h⟩
        · exact Or.inl ⟨pid, e, Or.inr ⟨rfl, rfl⟩, (List.mem_singleton.1 h).symm⟩
      · rintro (⟨i, f, hf | ⟨_, rfl⟩, h⟩ | h)
        · exact Or.inl ⟨i, f, hf, h⟩
        · exact Or.inr (List.mem_singleton.2 h.symm)
        · cases h
    · intro c' r
      simp only [Option.getD_some, List.mem_cons, L2.hash, Prod.mk.injEq]
      constructor
      · rintro (⟨rfl, rfl⟩ | ⟨i, f, hf, h⟩)
        · exact ⟨pid, e, Or.inr ⟨rfl, rfl⟩, rfl, rfl⟩
        · exact ⟨i, f, Or.inl hf, h⟩
      · rintro ⟨i, f, hf | ⟨_, rfl⟩, h⟩
        · exact Or.inr ⟨i, f, hf, h⟩
        · exact Or.inl ⟨h.1.symm, h.2.symm⟩
    · intro c' i
      simp only [List.mem_cons, L2.ctxs, Prod.mk.injEq]
      constructor
      · rintro (⟨rfl, rfl⟩ | ⟨f, hf, h⟩)
        · exact ⟨e, Or.inr ⟨rfl, rfl⟩, rfl⟩
        · exact ⟨f, Or.inl hf, h⟩
      · rintro ⟨f, hf | ⟨h1, rfl⟩, h⟩
        · exact Or.inr ⟨f, hf, h⟩
        · exact Or.inl ⟨h.symm, h1⟩
    · rintro i f j k (h1 | ⟨rfl, rfl⟩) (h2 | ⟨rfl, rfl⟩) h
      · exact L2.stdInj i f j k h1 h2 h
      · exact absurd h (hpnew i f h1.1)
      · exact absurd h.symm (hpnew j k h2.1)
      · exact ⟨rfl, rfl⟩
    · rintro i f j k (h1 | ⟨rfl, rfl⟩) (h2 | ⟨rfl, rfl⟩) h
      · exact L2.ctxInj i f j k h1 h2 h
      · exact absurd h (hcnew i f h1)
      · exact absurd h.symm (hcnew j k h2)
      · exact ⟨rfl, rfl⟩
    · intro r hr; cases hr

/-! ### Sessions -/

theorem pending_snoc (pid : Nat) (ops : List (Op A)) (op : Op A) :
    pending pid (ops ++ [op]) = since pid (pending pid ops) op := by
  simp [pending, List.foldl_append]

theorem cachedKeys_snoc {κ : Type} [DecidableEq κ] (ks : List κ) (k : κ) : cachedKeys (ks ++ [k]) = fifo (cachedKeys ks) k := by
  simp [cachedKeys, List.foldl_append]

theorem fifo_bounds {κ : Type} [DecidableEq κ] {q : List κ} (k : κ) (h : q.length ≤ 4 ∧ q.Nodup) :
    (fifo q k).length ≤ 4 ∧ (fifo q k).Nodup := by
  unfold fifo
  split
  · exact h
  · next hk =>
    split
    · refine ⟨by rw [List.length_append, List.length_singleton]; omega, ?_⟩
      rw [List.nodup_append]
      refine ⟨h.2, by simp, ?_⟩
      rintro a ha b hb rfl
      exact hk (List.mem_singleton.1 hb ▸ ha)
    · refine ⟨by rw [List.length_append, List.length_singleton, List.length_tail]; omega, ?_⟩
      rw [List.nodup_append]
      refine ⟨(List.tail_sublist q).nodup h.2, by simp, ?_⟩
      rintro a ha b hb rfl
      exact hk (List.mem_singleton.1 hb ▸ List.mem_of_mem_tail ha)

theorem cachedKeys_bounds {κ : Type} [DecidableEq κ] (ks : List κ) : (cachedKeys ks).length ≤ 4 ∧ (cachedKeys ks).Nodup := by
  unfold cachedKeys
  have : ∀ (q : List κ), (q.length ≤ 4 ∧ q.Nodup) → ((ks.foldl fifo q).length ≤ 4 ∧ (ks.foldl fifo q).Nodup) := by
    induction ks with
    | nil => exact fun _ h => h
    | cons k ks ih => exact fun q h => ih _ (fifo_bounds k h)
  exact this [] ⟨by simp, by simp⟩

/-- The digests of a pair of texts. -/
def digests (env : Env O A R) (t : Str × Str) : Str × Str := (env.digest t.1, env.digest t.2)

/-- What holds in every state of a session. -/
structure Inv (env : Env O A R) (ops : List (Op A)) (s : State O) : Prop where
  live : Live s (fun i e => e ∈ entriesOf s i) []
  portals : (s.portals.map (·.1)).Nodup
  wf : ∀ i c, get i s.portals = some c → WfPortal c
  keys : ∀ i, (entriesOf s i).map Entry.key = cachedKeys ((pending i ops).map (digests env))
  isOpen : ∀ i, (get i s.portals).isSome = true ↔ pending i ops ≠ []
  good : ∀ i e, e ∈ entriesOf s i → ∀ o, (e.std, o) ∈ s.heap → ∃ t o0, t ∈ pending i ops ∧ env.build t.1 t.2 = .ok o0 ∧
    e.key = digests env t ∧ Grown env o0 o

theorem inv_empty (env : Env O A R) : Inv env ([] : List (Op A)) {} where
  live := by
    refine ⟨?_, by simp, ?_, by simp, ?_, by simp, ?_, ?_, ?_⟩ <;> simp [entriesOf, get]
  portals := by simp
  wf := by simp [get]
  keys := by simp [entriesOf, get, pending, cachedKeys]
  isOpen := by simp [get, pending]
  good := by simp [entriesOf, get]

theorem Inv.portal {env : Env O A R} {ops : List (Op A)} {s : State O} (h : Inv env ops s) (pid : Nat) :
    WfPortal (portalCache s pid) ∧ contents (portalCache s pid) = entriesOf s pid := by
  unfold portalCache entriesOf
  cases hg : get pid s.portals with
  | none => exact wf_empty
  | some c => exact ⟨h.wf pid c hg, rfl⟩

theorem entriesOf_put {s : State O} {pid : Nat} {c : Portal} {ps : List (Nat × Portal)} (h : s.portals = put pid c ps) (i : Nat) :
    entriesOf s i = if i = pid then contents c else (match get i ps with | some c => contents c | none => []) := by
  unfold entriesOf
  by_cases hi : i = pid
  · subst hi; rw [if_pos rfl, h, get_put_same]
  · rw [if_neg hi, h, get_put_other hi]
    cases get i ps <;> rfl

theorem fifo_push {q : List Entry} {e : Entry} (h : e.key ∉ q.map Entry.key) :
    (push q e).map Entry.key = fifo (q.map Entry.key) e.key := by
  unfold push fifo
  rw [if_neg h, List.length_map]
  split
  · simp
  · simp [List.map_tail]

theorem mem_push {q : List Entry} {e f : Entry} (h : f ∈ push q e) : f ∈ q ∨ f = e := by
  unfold push at h
  split at h
  · simpa using h
  · rcases List.mem_append.1 h with h | h
    · exact Or.inl (List.mem_of_mem_tail h)
    · exact Or.inr (List.mem_singleton.1 h)

theorem push_self (q : List Entry) (e : Entry) : e ∈ push q e := by
  unfold push
  split <;> simp

theorem key_mem_fifo {κ : Type} [DecidableEq κ] (q : List κ) (k : κ) : k ∈ fifo q k := by
  unfold fifo
  split
  · assumption
  · split <;> simp

theorem addTo_build (env : Env O A R) {s : State O} {pid : Nat} {c : Portal} {l g : Str} {r : State O × Portal}
    (h : addTo env s pid c l g = .ok r) : ∃ o, env.build l g = .ok o := by
  unfold addTo at h
  cases hb : env.build l g with
  | ok o => exact ⟨o, rfl⟩
  | throws m => rw [hb] at h; cases h
  | undefined => rw [hb] at h; cases h

theorem Live.portals_irrelevant {s : State O} {E : Nat → Entry → Prop} {ex : List Ptr} (L : Live s E ex)
    (ps : List (Nat × Portal)) : Live { s with portals := ps } E ex :=
  ⟨L.heap, L.heapNodup, L.hash, L.hashNodup, L.ctxs, L.ctxsNodup, L.stdInj, L.ctxInj, L.exNew⟩

theorem getStd_ok (env : Env O A R) (fr : NewAddresses env) {ops : List (Op A)} {s : State O} (h : Inv env ops s) (pid : Nat)
    (l g : Str) (a : A)
    (hb : isIn env (portalCache s pid) l g = true ∨ ∃ o, env.build l g = .ok o) :
    ∃ s' e, getStd env s pid l g = .ok (s', e.std) ∧ e ∈ entriesOf s' pid ∧ e.key = digests env (l, g) ∧
      Inv env (ops ++ [.call pid l g a]) s' := by
  obtain ⟨w, hc⟩ := h.portal pid
  by_cases hin : isIn env (portalCache s pid) l g = true
  · have hex := (isIn_iff env w l g).1 hin
    obtain ⟨e, he, hk, hg⟩ := getFrom_some env w l g hex
    refine ⟨{ s with portals := put pid (portalCache s pid) s.portals }, e, ?_, ?_, hk, ?_⟩
    · simp [getStd, hin, hg]
    · rw [entriesOf_put rfl, if_pos rfl]; exact he
    · have hent : ∀ i, entriesOf { s with portals := put pid (portalCache s pid) s.portals } i = entriesOf s i := by
        intro i
        rw [entriesOf_put rfl]
        by_cases hi : i = pid
        · rw [if_pos hi, hc, hi]
        · rw [if_neg hi]; rfl
      have hp : ∀ i, cachedKeys ((pending i (ops ++ [Op.call pid l g a])).map (digests env)) =
          cachedKeys ((pending i ops).map (digests env)) := by
        intro i
        rw [pending_snoc]
        simp only [since]
        by_cases hi : pid = i
        · subst hi
          rw [if_pos rfl, List.map_append, List.map_singleton, cachedKeys_snoc, ← h.keys]
          unfold fifo
          rw [if_pos]
          rw [← hc]
          exact List.mem_map.2 ⟨e, he, hk⟩
        · rw [if_neg hi]
      refine ⟨?_, nodup_put h.portals, ?_, ?_, ?_, ?_⟩
      · apply (h.live.portals_irrelevant _).congr
        intro i f
        rw [hent i]
      · intro i c hi
        by_cases hip : i = pid
        · subst hip
          simp only [get_put_same, Option.some.injEq] at hi
          rw [← hi]; exact w
        · simp only [get_put_other hip] at hi
          exact h.wf i c hi
      · intro i; rw [hent, hp, h.keys]
      · intro i
        rw [pending_snoc]
        simp only [since]
        by_cases hip : i = pid
        · subst hip; simp [get_put_same]
        · rw [get_put_other hip, if_neg (Ne.symm hip)]; exact h.isOpen i
      · intro i f hf o ho
        rw [hent] at hf
        obtain ⟨t, o0, ht, h1⟩ := h.good i f hf o ho
        refine ⟨t, o0, ?_, h1⟩
        rw [pending_snoc]
        simp only [since]
        split
        · exact List.mem_append_left _ ht
        · exact ht
  · obtain ⟨o, ho⟩ := hb.resolve_left hin
    have hnot : ∀ e ∈ contents (portalCache s pid), e.key ≠ digests env (l, g) := by
      intro e he hk
      exact hin ((isIn_iff env w l g).2 ⟨e, he, hk⟩)
    have hnd : ((contents (portalCache s pid)).map Entry.key).Nodup := by
      rw [hc, h.keys]; exact (cachedKeys_bounds _).2
    obtain ⟨s1, c', e, a1, w', hk, hcont, hport, _, hheap, hsub, hnew, L'⟩ :=
      addTo_ok env fr h.live pid w (fun e => by rw [hc]) hnd l g o ho
    have hex : ∃ e ∈ contents c', e.key = (env.digest l, env.digest g) := ⟨e, by rw [hcont]; exact push_self _ _, hk⟩
    obtain ⟨e', he', hk', hg⟩ := getFrom_some env w' l g hex
    have hee : e' = e := by
      rw [hcont] at he'
      rcases mem_push he' with h1 | h1
      · exact absurd hk' (hnot e' h1)
      · exact h1
    subst hee
    have hent : ∀ i, entriesOf { s1 with portals := put pid c' s1.portals } i = if i = pid then contents c' else entriesOf s i := by
      intro i
      rw [entriesOf_put rfl, hport]
      rfl
    refine ⟨{ s1 with portals := put pid c' s1.portals }, e', ?_, ?_, hk, ?_⟩
    · simp [getStd, hin, a1, hg]
    · rw [hent, if_pos rfl]; exact he'
    · refine ⟨?_, ?_, ?_, ?_, ?_, ?_⟩
      · apply (L'.portals_irrelevant _).congr
        intro i f
        rw [hent]
        split <;> exact Iff.rfl
      · simp only [hport]; exact nodup_put h.portals
      · intro i c hi
        simp only [hport] at hi
        by_cases hip : i = pid
        · subst hip
          simp only [get_put_same, Option.some.injEq] at hi
          rw [← hi]; exact w'
        · simp only [get_put_other hip] at hi
          exact h.wf i c hi
      · intro i
        rw [hent, pending_snoc]
        simp only [since]
        by_cases hip : i = pid
        · subst hip
          rw [if_pos rfl, if_pos rfl, List.map_append, List.map_singleton, cachedKeys_snoc, ← h.keys, hcont, fifo_push, hc, hk]
          · rfl
          · intro hm
            obtain ⟨f, hf, hfk⟩ := List.mem_map.1 hm
            exact hnot f hf (hfk.trans hk)
        · rw [if_neg hip, if_neg (Ne.symm hip), h.keys]
      · intro i
        rw [pending_snoc]
        simp only [hport, since]
        by_cases hip : i = pid
        · subst hip; simp [get_put_same]
        · rw [get_put_other hip, if_neg (Ne.symm hip)]; exact h.isOpen i
      · intro i f hf o' ho'
        rw [hent] at hf
        rw [pending_snoc]
        simp only [since]
        have hold : f ∈ entriesOf s i → ∃ t o0, (t ∈ if pid = i then pending i ops ++ [(l, g)] else pending i ops) ∧
            env.build t.1 t.2 = .ok o0 ∧ f.key = digests env t ∧ Grown env o0 o' := by
          intro hf'
          rcases hsub _ _ ho' with h1 | ⟨h1, _⟩
          · obtain ⟨t, o0, ht, h2⟩ := h.good i f hf' o' h1
            refine ⟨t, o0, ?_, h2⟩
            split
            · exact List.mem_append_left _ ht
            · exact ht
          · exact absurd h1 (hnew i f hf')
        by_cases hip : i = pid
        · subst hip
          rw [if_pos rfl, hcont] at hf
          rcases mem_push hf with h1 | h1
          · exact hold (by rw [← hc]; exact h1)
          · subst h1
            rw [if_pos rfl]
            refine ⟨(l, g), o, by simp, ho, hk, ?_⟩
            have : o' = o := by
              have h1 := get_of_mem L'.heapNodup ho'
              have h2 := get_of_mem L'.heapNodup hheap
              rw [h1] at h2; injection h2
            rw [this]; exact Grown.new
        · rw [if_neg hip] at hf
          exact hold hf

theorem getStd_build (env : Env O A R) {s : State O} {pid : Nat} {l g : Str} {r : State O × Ptr}
    (h : getStd env s pid l g = .ok r) :
    isIn env (portalCache s pid) l g = true ∨ ∃ o, env.build l g = .ok o := by
  by_cases hin : isIn env (portalCache s pid) l g = true
  · exact Or.inl hin
  · right
    simp only [getStd, if_neg hin] at h
    cases ha : addTo env s pid (portalCache s pid) l g with
    | undefined => rw [ha] at h; cases h
    | throws m => rw [ha] at h; cases h
    | ok x => exact addTo_build env ha

/-- Replacing the content of a live standardizer. -/
theorem inv_use (env : Env O A R) {ops : List (Op A)} {s : State O} (h : Inv env ops s) (a : A) {p : Ptr} {o : O}
    (hp : get p s.heap = some o) (n : Nat) :
    Inv env ops { s with heap := put p (env.use a o).2 s.heap, clock := n } := by
  refine ⟨⟨?_, nodup_put h.live.heapNodup, h.live.hash, h.live.hashNodup, h.live.ctxs, h.live.ctxsNodup, h.live.stdInj,
    h.live.ctxInj, h.live.exNew⟩, h.portals, h.wf, h.keys, h.isOpen, ?_⟩
  · intro q
    show _ ↔ (∃ i e, e ∈ entriesOf s i ∧ e.std = q) ∨ q ∈ []
    rw [← h.live.heap q]
    constructor
    · rintro ⟨o', ho'⟩
      rcases mem_put.1 ho' with ⟨rfl, _⟩ | ⟨h1, _⟩
      · exact ⟨o, get_mem hp⟩
      · exact ⟨o', h1⟩
    · rintro ⟨o', ho'⟩
      by_cases hq : q = p
      · exact ⟨_, mem_put.2 (Or.inl ⟨hq, rfl⟩)⟩
      · exact ⟨o', mem_put.2 (Or.inr ⟨ho', hq⟩)⟩
  · intro i e he o' ho'
    have he' : e ∈ entriesOf s i := he
    rcases mem_put.1 ho' with ⟨h1, h2⟩ | ⟨h1, _⟩
    · obtain ⟨t, o0, t1, t2, t3, t4⟩ := h.good i e he' o (h1 ▸ get_mem hp)
      exact ⟨t, o0, t1, t2, t3, h2 ▸ Grown.used a t4⟩
    · exact h.good i e he' o' h1

theorem call_ok (env : Env O A R) (fr : NewAddresses env) {ops : List (Op A)} {s : State O} (h : Inv env ops s) (pid : Nat)
    (l g : Str) (a : A)
    (hb : isIn env (portalCache s pid) l g = true ∨ ∃ o, env.build l g = .ok o) :
    ∃ s' t o0 o, call env s pid l g a = .ok (s', (env.use a o).1) ∧ Inv env (ops ++ [.call pid l g a]) s' ∧
      t ∈ pending pid (ops ++ [.call pid l g a]) ∧ env.build t.1 t.2 = .ok o0 ∧ digests env (l, g) = digests env t ∧
      Grown env o0 o := by
  obtain ⟨s1, e, h1, h2, h3, h4⟩ := getStd_ok env fr h pid l g a hb
  obtain ⟨o, ho⟩ := (h4.live.heap e.std).2 (Or.inl ⟨pid, e, h2, rfl⟩)
  have hg := get_of_mem h4.live.heapNodup ho
  obtain ⟨t, o0, t1, t2, t3, t4⟩ := h4.good pid e h2 o ho
  refine ⟨{ s1 with heap := put e.std (env.use a o).2 s1.heap, clock := s1.clock + 1 }, t, o0, o, ?_,
    inv_use env h4 a hg _, t1, t2, h3 ▸ t3, t4⟩
  simp [call, h1, hg]

theorem call_build (env : Env O A R) {s : State O} {pid : Nat} {l g : Str} {a : A} {r : State O × R}
    (h : call env s pid l g a = .ok r) :
    isIn env (portalCache s pid) l g = true ∨ ∃ o, env.build l g = .ok o := by
  unfold call at h
  cases hg : getStd env s pid l g with
  | undefined => rw [hg] at h; cases h
  | throws m => rw [hg] at h; cases h
  | ok x => exact getStd_build env hg

theorem contextsDelete_ok {E : Nat → Entry → Prop} (cs : List Ptr) :
    ∀ {s : State O} {E : Nat → Entry → Prop}, Live s E [] → cs.Nodup → (∀ c ∈ cs, ∃ i e, E i e ∧ e.ctx = c) →
    ∃ s', contextsDelete s cs = .ok s' ∧ s'.portals = s.portals ∧ (∀ x ∈ s'.heap, x ∈ s.heap) ∧
      Live s' (fun i e => E i e ∧ e.ctx ∉ cs) [] := by
  induction cs with
  | nil =>
    intro s E L _ _
    exact ⟨s, rfl, rfl, fun _ h => h, L.congr (fun i e => by simp)⟩
  | cons c cs ih =>
    intro s E L hn hc
    rw [List.nodup_cons] at hn
    obtain ⟨i, e, he, rfl⟩ := hc c (List.mem_cons_self ..)
    obtain ⟨s1, h1, h2, _, h4, _, L1⟩ := contextDelete_ok L he
    obtain ⟨s2, k1, k2, k3, L2⟩ := ih L1 hn.2 (by
      intro c' hc'
      obtain ⟨j, f, hf, rfl⟩ := hc c' (List.mem_cons_of_mem _ hc')
      refine ⟨j, f, ⟨hf, ?_⟩, rfl⟩
      rintro rfl
      exact hn.1 hc')
    refine ⟨s2, by simp [contextsDelete, h1, k1], k2.trans h2, ?_, L2.congr ?_⟩
    · intro x hx
      have := k3 x hx
      rw [h4] at this
      exact (mem_del (v := x.2).1 this).1
    · intro j f
      rw [List.mem_cons, not_or]
      constructor
      · rintro ⟨⟨hf, hne⟩, hm⟩
        exact ⟨hf, fun hx => hne (L.ctxInj _ _ _ _ hf he hx).2, hm⟩
      · rintro ⟨hf, hne, hm⟩
        exact ⟨⟨hf, fun hx => hne (by rw [hx])⟩, hm⟩

theorem finish_ok (env : Env O A R) {ops : List (Op A)} {s : State O} (h : Inv env ops s) (pid : Nat) :
    ∃ s', finish s pid = .ok s' ∧ Inv env (ops ++ [.finish pid]) s' := by
  have hmem : ∀ c, c ∈ (s.ctxs.filter (fun e => e.2 = pid)).map (·.1) ↔ ∃ e ∈ entriesOf s pid, e.ctx = c := by
    intro c
    rw [← h.live.ctxs c pid, List.mem_map]
    constructor
    · rintro ⟨x, hx, rfl⟩
      rw [List.mem_filter, decide_eq_true_eq] at hx
      rw [← hx.2]; exact hx.1
    · intro hx
      exact ⟨_, List.mem_filter.2 ⟨hx, by simp⟩, rfl⟩
  obtain ⟨s1, h1, h2, h3, L⟩ := contextsDelete_ok (E := fun i e => e ∈ entriesOf s i)
    ((s.ctxs.filter (fun e => e.2 = pid)).map (·.1)) h.live
    ((List.Sublist.map _ List.filter_sublist).nodup h.live.ctxsNodup) (by
      intro c hc
      obtain ⟨e, he, hx⟩ := (hmem c).1 hc
      exact ⟨pid, e, he, hx⟩)
  refine ⟨{ s1 with portals := del pid s1.portals, clock := s1.clock + 1 }, by simp [finish, h1], ?_⟩
  have hent : ∀ i, entriesOf { s1 with portals := del pid s1.portals, clock := s1.clock + 1 } i =
      if i = pid then [] else entriesOf s i := by
    intro i
    unfold entriesOf
    simp only [h2]
    by_cases hi : i = pid
    · rw [if_pos hi, hi, get_del_same]
    · rw [if_neg hi, get_del_other hi]
  have hE : ∀ i e, (e ∈ entriesOf s i ∧ e.ctx ∉ (s.ctxs.filter (fun e => e.2 = pid)).map (·.1)) ↔
      e ∈ (if i = pid then [] else entriesOf s i) := by
    intro i e
    rw [hmem]
    by_cases hi : i = pid
    · rw [if_pos hi]
      constructor
      · rintro ⟨h1, h2⟩
        exact absurd ⟨e, hi ▸ h1, rfl⟩ h2
      · intro h; cases h
    · rw [if_neg hi]
      constructor
      · exact fun h => h.1
      · intro he
        refine ⟨he, ?_⟩
        rintro ⟨f, hf, hx⟩
        exact hi (h.live.ctxInj _ _ _ _ he hf hx.symm).1
  refine ⟨?_, ?_, ?_, ?_, ?_, ?_⟩
  · have L' := L.congr (E' := fun i e => e ∈ entriesOf { s1 with portals := del pid s1.portals, clock := s1.clock + 1 } i)
      (fun i e => by rw [hent]; exact hE i e)
    exact ⟨L'.heap, L'.heapNodup, L'.hash, L'.hashNodup, L'.ctxs, L'.ctxsNodup, L'.stdInj, L'.ctxInj, L'.exNew⟩
  · simp only [h2]; exact nodup_del h.portals
  · intro i c hi
    simp only [h2] at hi
    by_cases hip : i = pid
    · rw [hip, get_del_same] at hi; cases hi
    · rw [get_del_other hip] at hi; exact h.wf i c hi
  · intro i
    rw [hent, pending_snoc]
    simp only [since]
    by_cases hip : i = pid
    · rw [if_pos hip, if_pos hip.symm]; rfl
    · rw [if_neg hip, if_neg (Ne.symm hip), h.keys]
  · intro i
    rw [pending_snoc]
    simp only [h2, since]
    by_cases hip : i = pid
    · rw [if_pos hip.symm, hip, get_del_same]; simp
    · rw [if_neg (Ne.symm hip), get_del_other hip]; exact h.isOpen i
  · intro i e he o ho
    rw [hent] at he
    rw [pending_snoc]
    simp only [since]
    by_cases hip : i = pid
    · rw [if_pos hip] at he; cases he
    · rw [if_neg hip] at he
      rw [if_neg (Ne.symm hip)]
      exact h.good i e he o (h3 _ ho)

/-- Every event of a valid session succeeds and keeps the invariant. -/
theorem step_ok (env : Env O A R) (fr : NewAddresses env) {ops : List (Op A)} {s : State O} (h : Inv env ops s) (op : Op A)
    (hb : Valid env [op]) : ∃ s' r, step env s op = .ok (s', r) ∧ Inv env (ops ++ [op]) s' := by
  cases op with
  | call pid l g a =>
    obtain ⟨s', _, _, o, h1, h2, _⟩ := call_ok env fr h pid l g a (Or.inr (hb (l, g) (by simp [requested, asked])))
    exact ⟨s', some (env.use a o).1, by simp [step, h1], h2⟩
  | finish pid =>
    obtain ⟨s', h1, h2⟩ := finish_ok env h pid
    exact ⟨s', none, by simp [step, h1], h2⟩

theorem step_inv (env : Env O A R) (fr : NewAddresses env) {ops : List (Op A)} {s s' : State O} (h : Inv env ops s) {op : Op A}
    {r : Option R} (hs : step env s op = .ok (s', r)) : Inv env (ops ++ [op]) s' := by
  cases op with
  | call pid l g a =>
    simp only [step] at hs
    cases hc : call env s pid l g a with
    | undefined => rw [hc] at hs; cases hs
    | throws m => rw [hc] at hs; cases hs
    | ok x =>
      obtain ⟨s1, _, _, o, h1, h2, _⟩ := call_ok env fr h pid l g a (call_build env hc)
      rw [h1] at hs
      simp only [Outcome.ok.injEq, Prod.mk.injEq] at hs
      rw [← hs.1]; exact h2
  | finish pid =>
    obtain ⟨s1, h1, h2⟩ := finish_ok env h pid
    simp only [step, h1, Outcome.ok.injEq, Prod.mk.injEq] at hs
    rw [← hs.1]; exact h2

theorem run_inv (env : Env O A R) (fr : NewAddresses env) (ops : List (Op A)) : ∀ {done : List (Op A)} {s s' : State O} {rs},
    Inv env done s → run env s ops = .ok (s', rs) → Inv env (done ++ ops) s' := by
  induction ops with
  | nil =>
    intro done s s' rs h hr
    simp only [run, Outcome.ok.injEq, Prod.mk.injEq] at hr
    rw [List.append_nil, ← hr.1]; exact h
  | cons op ops ih =>
    intro done s s' rs h hr
    unfold run at hr
    cases hs : step env s op with
    | undefined => rw [hs] at hr; cases hr
    | throws m => rw [hs] at hr; cases hr
    | ok x =>
      obtain ⟨s1, r⟩ := x
      rw [hs] at hr
      simp only at hr
      cases hr' : run env s1 ops with
      | undefined => rw [hr'] at hr; cases hr
      | throws m => rw [hr'] at hr; cases hr
      | ok y =>
        obtain ⟨s2, rs2⟩ := y
        rw [hr'] at hr
        simp only [Outcome.ok.injEq, Prod.mk.injEq] at hr
        have := ih (step_inv env fr h hs) hr'
        rw [List.append_assoc] at this
        rw [← hr.1]; exact this

theorem run_ok (env : Env O A R) (fr : NewAddresses env) (ops : List (Op A)) : ∀ {done : List (Op A)} {s : State O},
    Inv env done s → Valid env ops → ∃ s' rs, run env s ops = .ok (s', rs) := by
  induction ops with
  | nil => intro done s _ _; exact ⟨s, [], rfl⟩
  | cons op ops ih =>
    intro done s h hv
    obtain ⟨s1, r, h1, h2⟩ := step_ok env fr h op (fun t ht => hv t (by
      unfold requested at ht ⊢
      rw [List.flatMap_cons]
      rw [List.flatMap_cons, List.flatMap_nil, List.append_nil] at ht
      exact List.mem_append_left _ ht))
    obtain ⟨s2, rs, h3⟩ := ih h2 (fun t ht => hv t (by
      unfold requested at ht ⊢
      rw [List.flatMap_cons]
      exact List.mem_append_right _ ht))
    exact ⟨s2, r :: rs, by simp [run, h1, h3]⟩

theorem pending_requested (pid : Nat) (ops : List (Op A)) : ∀ t ∈ pending pid ops, t ∈ requested ops := by
  have : ∀ (ops : List (Op A)) (acc : List (Str × Str)), ∀ t ∈ ops.foldl (since pid) acc, t ∈ acc ∨ t ∈ requested ops := by
    intro ops
    induction ops with
    | nil => intro acc t ht; exact Or.inl ht
    | cons op ops ih =>
      intro acc t ht
      rw [List.foldl_cons] at ht
      rw [requested, List.flatMap_cons]
      rcases ih _ t ht with h | h
      · cases op with
        | call p l g a =>
          simp only [since] at h
          split at h
          · rcases List.mem_append.1 h with h | h
            · exact Or.inl h
            · exact Or.inr (List.mem_append_left _ h)
          · exact Or.inl h
        | finish p =>
          simp only [since] at h
          split at h
          · cases h
          · exact Or.inl h
      · exact Or.inr (List.mem_append_right _ h)
  intro t ht
  rcases this ops [] t ht with h | h
  · cases h
  · exact h

theorem grown_steady {env : Env O A R} (st : Steady env) {o o' : O} (h : Grown env o o') (a : A) :
    (env.use a o').1 = (env.use a o).1 := by
  induction h with
  | new => rfl
  | used b _ ih => rw [st, ih]

/-! ### First in, first out -/

theorem cachedKeys_missed {κ : Type} [DecidableEq κ] : ∀ (ks done : List κ), cachedKeys (done ++ ks) =
    (cachedKeys done ++ missed done ks).drop ((cachedKeys done ++ missed done ks).length - 4)
  | [], done => by
    have := (cachedKeys_bounds done).1
    simp only [missed, List.append_nil]
    rw [show (cachedKeys done).length - 4 = 0 by omega, List.drop_zero]
  | k :: ks, done => by
    have hb := (cachedKeys_bounds done).1
    have ih := cachedKeys_missed ks (done ++ [k])
    rw [List.append_assoc, List.singleton_append, cachedKeys_snoc] at ih
    rw [ih]
    rw [show missed done (k :: ks) = if k ∈ cachedKeys done then missed (done ++ [k]) ks else k :: missed (done ++ [k]) ks from rfl]
    generalize missed (done ++ [k]) ks = m
    unfold fifo
    split
    · rfl
    · split
      · rw [List.append_assoc, List.singleton_append]
      · next h =>
        cases hq : cachedKeys done with
        | nil => rw [hq] at h; exact absurd (by simp) h
        | cons a q =>
          rw [hq] at hb h
          simp only [List.length_cons] at hb h
          rw [List.tail_cons, List.append_assoc, List.singleton_append, List.cons_append, List.length_cons,
            show (q ++ k :: m).length + 1 - 4 = ((q ++ k :: m).length - 4) + 1 by
              rw [List.length_append, List.length_cons]; omega, List.drop_succ_cons]

/-! ### Outcomes -/

theorem portalCache_empty (pid : Nat) : portalCache ({} : State O) pid = { items := List.replicate 4 {}, next := 0 } := rfl

theorem isIn_empty (env : Env O A R) (pid : Nat) (l g : Str) : isIn env (portalCache ({} : State O) pid) l g = false := rfl

theorem call_miss_fails (env : Env O A R) {s : State O} {pid : Nat} {l g : Str} (a : A)
    (hin : isIn env (portalCache s pid) l g = false) :
    (env.build l g = .undefined → call env s pid l g a = .undefined) ∧
    (∀ m, env.build l g = .throws m → call env s pid l g a = .throws m) := by
  constructor
  · intro h; simp [call, getStd, hin, addTo, h]
  · intro m h; simp [call, getStd, hin, addTo, h]

end Cache

namespace Wrapper
variable {F D : Type}

/-- Two lexicons that differ at most in which patterns have been built. -/
structure SameLex (l l' : Lexicon) : Prop where
  lex : l'.lex = l.lex
  locale : l'.locale = l.locale
  regex : l'.regex.2 = l.regex.2
  pre : l'.regexPrefixAtt.2 = l.regexPrefixAtt.2
  suf : l'.regexSuffixAtt.2 = l.regexSuffixAtt.2

theorem SameLex.trans {a b c : Lexicon} (h : SameLex a b) (k : SameLex b c) : SameLex a c :=
  ⟨k.lex.trans h.lex, k.locale.trans h.locale, k.regex.trans h.regex, k.pre.trans h.pre, k.suf.trans h.suf⟩

theorem sameLex_refl (l : Lexicon) : SameLex l l := ⟨rfl, rfl, rfl, rfl, rfl⟩

theorem sameLex_regex (l : Lexicon) : SameLex l l.regex.1 := by
  constructor <;> simp only [Lexicon.regex, Lexicon.regexPrefixAtt, Lexicon.regexSuffixAtt]
  · split <;> rfl
  · split <;> rfl
  · by_cases h : l.regex_.length = 0
    · simp only [h, if_true]
      split <;> rfl
    · simp only [h, if_false]
  · by_cases h : l.regex_.length = 0
    · simp only [h, if_true]
      split <;> rfl
    · simp only [h, if_false]
  · by_cases h : l.regex_.length = 0
    · simp only [h, if_true]
      split <;> rfl
    · simp only [h, if_false]

theorem sameLex_prefix (l : Lexicon) : SameLex l l.regexPrefixAtt.1 := by
  constructor <;> simp only [Lexicon.regex, Lexicon.regexPrefixAtt, Lexicon.regexSuffixAtt]
  · split <;> rfl
  · split <;> rfl
  all_goals
    by_cases h : l.regexPrefix.length = 0
    · simp only [h, if_true]
      split <;> rfl
    · simp only [h, if_false]

theorem sameLex_suffix (l : Lexicon) : SameLex l l.regexSuffixAtt.1 := by
  constructor <;> simp only [Lexicon.regex, Lexicon.regexPrefixAtt, Lexicon.regexSuffixAtt]
  · split <;> rfl
  · split <;> rfl
  all_goals
    by_cases h : l.regexSuffix.length = 0
    · simp only [h, if_true]
      split <;> rfl
    · simp only [h, if_false]

theorem sameLex_touched (a : Args) (l : Lexicon) : SameLex l (touched a l) := by
  have h1 : SameLex l (if a.touchesAll then l.regex.1 else l) := by
    split
    · exact sameLex_regex l
    · exact sameLex_refl l
  unfold touched
  generalize (if a.touchesAll then l.regex.1 else l) = l1 at h1
  have h2 : SameLex l1 (if a.touchesPrefix then l1.regexPrefixAtt.1 else l1) := by
    split
    · exact sameLex_prefix l1
    · exact sameLex_refl l1
  simp only
  generalize (if a.touchesPrefix then l1.regexPrefixAtt.1 else l1) = l2 at h2
  have h3 : SameLex l2 (if a.touchesSuffix then l2.regexSuffixAtt.1 else l2) := by
    split
    · exact sameLex_suffix l2
    · exact sameLex_refl l2
  exact (h1.trans h2).trans h3

theorem SameLex.find {l l' : Lexicon} (h : SameLex l l') : l'.find = l.find := by
  funext k; unfold Lexicon.find; rw [h.lex]

theorem SameLex.classify {l l' : Lexicon} (h : SameLex l l') (u : UTables) : l'.classify u = l.classify u := by
  funext t c; unfold Lexicon.classify; rw [h.find]

theorem SameLex.wordToken {l l' : Lexicon} (h : SameLex l l') (u : UTables) :
    Tokenizer.wordToken u l' = Tokenizer.wordToken u l := by
  funext s; unfold Tokenizer.wordToken; rw [h.classify]

theorem SameLex.standardize {l l' : Lexicon} (h : SameLex l l') : l'.standardize = l.standardize := by
  funext t; unfold Lexicon.standardize; rw [h.find]

theorem SameLex.getTokens {l l' : Lexicon} (h : SameLex l l') (icu : Icu) (u : UTables) (x : LexRe) :
    Tokenizer.getTokens icu u l' x = Tokenizer.getTokens icu u l x := by
  have h1 : Tokenizer.roundTokens u l' x = Tokenizer.roundTokens u l x := by
    funext r
    unfold Tokenizer.roundTokens Tokenizer.splitToken
    rw [h.classify, h.wordToken]
  funext f s
  unfold Tokenizer.getTokens Tokenizer.prepare
  rw [h1, h.locale]

theorem SameLex.getAltTokens {l l' : Lexicon} (h : SameLex l l') (u : UTables) :
    Tokenizer.getAltTokens u l' = Tokenizer.getAltTokens u l := by
  have h1 : ∀ i n as, Tokenizer.altOne u l' i n as = Tokenizer.altOne u l i n as := by
    intro i n as
    induction as generalizing n with
    | nil => rfl
    | cons a as ih => simp only [Tokenizer.altOne, ih, h.wordToken]
  funext ts
  unfold Tokenizer.getAltTokens
  simp only [h1]

theorem SameLex.collect {l l' : Lexicon} (h : SameLex l l') : ∀ ts v, collect l' v ts = collect l v ts
  | [], _ => rfl
  | t :: ts, v => by
    unfold Wrapper.collect
    rw [h.standardize]
    cases l.standardize t with
    | none => rfl
    | some t =>
      simp only
      cases slotOf t.outclass with
      | none => exact SameLex.collect h ts _
      | some i => exact SameLex.collect h ts _

theorem SameLex.phrases {l l' : Lexicon} (h : SameLex l l') (env : Env F D) (locale filter address : Str) :
    phrasesOf env l' locale filter address = phrasesOf env l locale filter address := by
  unfold phrasesOf lexRe
  rw [h.regex, h.pre, h.suf, h.getTokens, h.getAltTokens]

theorem SameLex.addr {l l' : Lexicon} (h : SameLex l l') (env : Env F D) (g : Grammar F) (locale filter address : Str) :
    standardizeAddr env g l' locale filter address = standardizeAddr env g l locale filter address := by
  unfold standardizeAddr standardizeAddrWith
  rw [h.phrases]
  simp only [h.collect]

theorem cacheEnv_steady (env : Env F D) (digest : Str → Str) (newStd newCtx : Cache.State (Lexicon × Grammar F) → Nat) :
    Cache.Steady (cacheEnv env digest newStd newCtx) := by
  intro a b o
  show (standardizeAddr env o.2 (touched b o.1) a.locale a.filter a.address).map sqlRow = _
  rw [(sameLex_touched b o.1).addr]
  rfl

end Wrapper
end AS
