import Verif.Spec.Heap
/-
Lemmas on the heap of the C interface.
-/
namespace AS
namespace Heap
open Wrapper
variable {F D : Type}

/-- The addresses in use. -/
def keys (h : Heap D) : List Nat := h.map (·.1)

theorem keys_append (a b : Heap D) : keys (a ++ b) = keys a ++ keys b := by simp [keys]

theorem get_isSome_iff (a : Nat) (h : Heap D) : (get a h).isSome ↔ a ∈ keys h := by
  induction h with
  | nil => simp [get, keys]
  | cons b h ih =>
    obtain ⟨b, c⟩ := b
    by_cases hb : b = a
    · simp [get, keys, hb]
    · have : ¬ a = b := fun h => hb h.symm
      simp only [get, hb, if_false, ih]
      simp [keys, this]

theorem get_eq_none_iff (a : Nat) (h : Heap D) : get a h = none ↔ a ∉ keys h := by
  rw [← get_isSome_iff]; cases get a h <;> simp

theorem get_append_left {a : Nat} {n h : Heap D} {c : Cell D} (hn : get a n = some c) :
    get a (n ++ h) = some c := by
  induction n with
  | nil => simp [get] at hn
  | cons b n ih =>
    obtain ⟨b, x⟩ := b
    by_cases hb : b = a
    · simp only [get, hb, if_true] at hn; simpa [get, hb] using hn
    · simp only [get, hb, if_false] at hn; simpa [get, hb] using ih hn

theorem get_append_right {a : Nat} {n h : Heap D} (hn : a ∉ keys n) : get a (n ++ h) = get a h := by
  induction n with
  | nil => rfl
  | cons b n ih =>
    obtain ⟨b, x⟩ := b
    simp only [keys, List.map_cons, List.mem_cons, not_or] at hn
    have hb : ¬ b = a := fun h => hn.1 h.symm
    simpa [get, hb] using ih hn.2

theorem put_append_right {a : Nat} {n h : Heap D} (c : Cell D) (hn : a ∉ keys n) :
    put a c (n ++ h) = n ++ put a c h := by
  induction n with
  | nil => rfl
  | cons b n ih =>
    obtain ⟨b, x⟩ := b
    simp only [keys, List.map_cons, List.mem_cons, not_or] at hn
    have hb : ¬ b = a := fun h => hn.1 h.symm
    simpa [put, hb] using ih hn.2

theorem filter_fresh {a : Nat} {h : Heap D} (hn : a ∉ keys h) : h.filter (fun b => b.1 ≠ a) = h := by
  rw [List.filter_eq_self]
  intro b hb
  simp only [ne_eq, decide_not, Bool.not_eq_eq_eq_not, Bool.not_true, decide_eq_false_iff_not]
  intro hab
  exact hn (List.mem_map.2 ⟨b, hb, hab⟩)

theorem keys_filter (a : Nat) (h : Heap D) :
    keys (h.filter (fun b => b.1 ≠ a)) = (keys h).filter (fun b => b ≠ a) := by
  induction h with
  | nil => rfl
  | cons b h ih =>
    by_cases hb : b.1 = a
    · simpa [keys, hb] using ih
    · simpa [keys, hb] using ih

/-- Blocks `new` came on top of `h`, at the addresses `ps`. -/
structure Ext (h : Heap D) (ps : List Nat) (new : Heap D) : Prop where
  perm : ps.Perm (keys new)
  nodup : (keys new).Nodup
  fresh : ∀ a ∈ keys new, a ∉ keys h

theorem Ext.nil (h : Heap D) : Ext h [] [] := ⟨by simp [keys], by simp [keys], by simp [keys]⟩

theorem Ext.comp {h n1 n2 : Heap D} {ps qs : List Nat} (h1 : Ext h ps n1) (h2 : Ext (n1 ++ h) qs n2) :
    Ext h (ps ++ qs) (n2 ++ n1) := by
  refine ⟨?_, ?_, ?_⟩
  · rw [keys_append]
    exact (List.perm_append_comm).trans (h2.perm.append h1.perm)
  · rw [keys_append, List.nodup_append]
    refine ⟨h2.nodup, h1.nodup, ?_⟩
    intro a ha b hb hab
    subst hab
    have := h2.fresh a ha
    rw [keys_append] at this
    exact this (List.mem_append_left _ hb)
  · intro a ha
    rw [keys_append, List.mem_append] at ha
    rcases ha with ha | ha
    · have := h2.fresh a ha
      rw [keys_append] at this
      exact fun hh => this (List.mem_append_right _ hh)
    · exact h1.fresh a ha

/-- What was in `n1` stays readable. -/
theorem Ext.get_keep {h n1 n2 : Heap D} {qs : List Nat} (h2 : Ext (n1 ++ h) qs n2) {a : Nat} {c : Cell D}
    (hg : get a n1 = some c) : get a (n2 ++ n1) = some c := by
  rw [get_append_right]
  · exact hg
  · intro ha
    have := h2.fresh a ha
    rw [keys_append] at this
    exact this (List.mem_append_left _ ((get_isSome_iff a n1).1 (by simp [hg])))

/-- Freeing exactly what came gives the heap as it was. -/
theorem freeAll_ext {ps : List (Option Nat)} : ∀ {h new : Heap D}, Ext h (ps.filterMap id) new →
    freeAll ps (new ++ h) = some h := by
  induction ps with
  | nil =>
    intro h new he
    have : keys new = [] := by simpa using he.perm.symm
    have : new = [] := by simpa [keys] using this
    subst this
    rfl
  | cons p ps ih =>
    intro h new he
    cases p with
    | none => exact ih (by simpa using he)
    | some a =>
      have hp : (a :: ps.filterMap id).Perm (keys new) := by simpa using he.perm
      have ha : a ∈ keys new := hp.subset (List.mem_cons_self ..)
      have hnh : a ∉ keys h := he.fresh a ha
      have hs : (get a (new ++ h)).isSome := by
        rw [get_isSome_iff, keys_append]; exact List.mem_append_left _ ha
      have hnd : (a :: ps.filterMap id).Nodup := hp.nodup_iff.2 he.nodup
      rw [List.nodup_cons] at hnd
      simp only [freeAll, free, hs, if_true, Option.bind_some, List.filter_append]
      rw [filter_fresh hnh]
      apply ih
      refine ⟨?_, ?_, ?_⟩
      · rw [keys_filter]
        have h2 := hp.filter (fun b => decide (b ≠ a))
        have h3 : (a :: ps.filterMap id).filter (fun b => decide (b ≠ a)) = ps.filterMap id := by
          rw [List.filter_cons_of_neg (by simp), List.filter_eq_self]
          intro x hx
          simp only [ne_eq, decide_not, Bool.not_eq_eq_eq_not, Bool.not_true, decide_eq_false_iff_not]
          intro hxa; subst hxa; exact hnd.1 hx
        rw [h3] at h2
        exact h2
      · rw [keys_filter]; exact he.nodup.filter _
      · intro x hx
        rw [keys_filter] at hx
        exact he.fresh x (List.mem_filter.1 hx).1

theorem fresh_keys {al : Allocator D} (hf : Fresh al) {h : Heap D} {n a : Nat} (ha : al h n = some a) : a ∉ keys h := by
  intro hm
  obtain ⟨b, hb, hba⟩ := List.mem_map.1 hm
  exact hf h n a ha b hb hba

/-- One block more. -/
theorem ext_one {h : Heap D} {a : Nat} (c : Cell D) (ha : a ∉ keys h) : Ext h [a] [(a, c)] :=
  ⟨by simp [keys], by simp [keys], by simpa [keys] using ha⟩

theorem strdup_ext {al : Allocator D} (hf : Fresh al) (s : Str) (h : Heap D) :
    ∃ new, (strdup al s h).2 = new ++ h ∧ Ext h (strdup al s h).1.toList new ∧
      (∀ a, (strdup al s h).1 = some a → get a new = some (.text s)) ∧
      (NeverFails al → ∃ a, (strdup al s h).1 = some a) := by
  unfold strdup
  cases ha : al h (s.length + 1) with
  | none =>
    refine ⟨[], rfl, by simpa using Ext.nil h, by simp, ?_⟩
    intro hn
    obtain ⟨a, haa⟩ := hn h (s.length + 1)
    simp [haa] at ha
  | some a =>
    refine ⟨[(a, .text s)], rfl, by simpa using ext_one _ (fresh_keys hf ha), ?_, ?_⟩
    · intro b hb
      simp only [Option.some.injEq] at hb
      simp [get, hb]
    · intro _; exact ⟨a, rfl⟩

/-- The pointers point to the texts, where they are not NULL. -/
def Reads (g : Heap D) : List (Option Str) → List (Option Nat) → Prop
  | [], [] => True
  | s :: ss, p :: ps => (∀ a, p = some a → ∃ t, s = some t ∧ get a g = some (.text t)) ∧ Reads g ss ps
  | _, _ => False

theorem Reads.mono {g g' : Heap D} (hg : ∀ a c, get a g = some c → get a g' = some c) :
    ∀ {ss : List (Option Str)} {ps : List (Option Nat)}, Reads g ss ps → Reads g' ss ps
  | [], [], _ => trivial
  | s :: ss, p :: ps, h => by
    refine ⟨?_, Reads.mono hg h.2⟩
    intro a ha
    obtain ⟨t, ht, h'⟩ := h.1 a ha
    exact ⟨t, ht, hg _ _ h'⟩
  | [], _ :: _, h => h.elim
  | _ :: _, [], h => h.elim

/-- No pointer is NULL where there is a text. -/
def Filled : List (Option Str) → List (Option Nat) → Prop
  | [], [] => True
  | s :: ss, p :: ps => (s.isSome → p.isSome) ∧ Filled ss ps
  | _, _ => False

theorem dupAll_ext {al : Allocator D} (hf : Fresh al) : ∀ (ss : List (Option Str)) (h : Heap D),
    ∃ new, (dupAll al ss h).2 = new ++ h ∧ Ext h ((dupAll al ss h).1.filterMap id) new ∧
      Reads new ss (dupAll al ss h).1 ∧ (NeverFails al → Filled ss (dupAll al ss h).1)
  | [], h => ⟨[], rfl, Ext.nil h, trivial, fun _ => trivial⟩
  | none :: ss, h => by
    obtain ⟨new, h1, h2, h3, h4⟩ := dupAll_ext hf ss h
    exact ⟨new, h1, by simpa [dupAll] using h2, ⟨by simp, h3⟩, fun hn => ⟨by simp, h4 hn⟩⟩
  | some s :: ss, h => by
    obtain ⟨n1, a1, a2, a3, a4⟩ := strdup_ext hf s h
    obtain ⟨n2, b1, b2, b3, b4⟩ := dupAll_ext hf ss (strdup al s h).2
    rw [a1] at b2
    refine ⟨n2 ++ n1, ?_, ?_, ⟨?_, ?_⟩, ?_⟩
    · simp only [dupAll]; rw [b1, a1, List.append_assoc]
    · have := a2.comp b2
      rw [← a1] at this
      cases hp : (strdup al s h).1 with
      | none => simpa [dupAll, hp] using this
      | some a => simpa [dupAll, hp] using this
    · intro a ha
      exact ⟨s, rfl, b2.get_keep (a3 a ha)⟩
    · exact Reads.mono (fun a c hg => get_append_left hg) b3
    · intro hn
      refine ⟨?_, b4 hn⟩
      intro _
      obtain ⟨a, ha⟩ := a4 hn
      show (strdup al s h).1.isSome = true
      rw [ha]; rfl

/-- Copying gives each text or nothing. -/
theorem copyAll_reads {g : Heap D} : ∀ {ss : List (Option Str)} {ps : List (Option Nat)}, Reads g ss ps →
    ∃ vs, copyAll g ps = some vs ∧ vs.length = ss.length ∧
      (∀ i : Nat, vs[i]? = ss[i]? ∨ vs[i]? = some none) ∧ (Filled ss ps → vs = ss)
  | [], [], _ => ⟨[], rfl, rfl, fun _ => Or.inl rfl, fun _ => rfl⟩
  | s :: ss, p :: ps, h => by
    obtain ⟨vs, h1, h2, h3, h4⟩ := copyAll_reads h.2
    cases p with
    | none =>
      refine ⟨none :: vs, by simp [copyAll, h1], by simp [h2], ?_, ?_⟩
      · intro i
        cases i with
        | zero => exact Or.inr rfl
        | succ i => simpa using h3 i
      · intro hfl
        cases s with
        | none => rw [h4 hfl.2]
        | some s => simp [Filled] at hfl
    | some a =>
      obtain ⟨t, ht, hg⟩ := h.1 a rfl
      subst ht
      refine ⟨some t :: vs, by simp [copyAll, textAt, hg, h1], by simp [h2], ?_, ?_⟩
      · intro i
        cases i with
        | zero => exact Or.inl rfl
        | succ i => simpa using h3 i
      · intro hfl; rw [h4 hfl.2]
  | [], _ :: _, h => h.elim
  | _ :: _, [], h => h.elim

/-- What a message leaves. -/
theorem fail_ext {al : Allocator D} (hf : Fresh al) (m : Option Str) (h : Heap D) :
    (fail al m h).1.ptr = none ∧ (fail al m h).1.nrec = 0 ∧
    ∃ new, (fail al m h).2 = new ++ h ∧ Ext h (fail al m h).1.err.toList new ∧
      (∀ a, (fail al m h).1.err = some a → ∃ s, m = some s ∧ new = [(a, .text s)]) ∧
      (NeverFails al → (fail al m h).1.err.isSome = m.isSome) := by
  cases m with
  | none => exact ⟨rfl, rfl, [], rfl, Ext.nil h, by simp [fail], by simp [fail]⟩
  | some m =>
    obtain ⟨new, h1, h2, h3, h4⟩ := strdup_ext hf m h
    refine ⟨rfl, rfl, new, h1, h2, ?_, ?_⟩
    · intro a ha
      refine ⟨m, rfl, ?_⟩
      have ha' : (strdup al m h).1 = some a := ha
      unfold strdup at h1 ha'
      cases hx : al h (m.length + 1) with
      | none => simp [hx] at ha'
      | some b =>
        simp only [hx, Option.some.injEq] at ha' h1
        subst ha'
        have : [(b, Cell.text m)] ++ h = new ++ h := by simpa using h1
        exact (List.append_cancel_right this).symm
    · intro hn
      obtain ⟨a, ha⟩ := h4 hn
      simp [fail, ha]

/-! ### `as_standardize` -/

/-- The record and its texts freed. -/
theorem stdaddrFree_ext {h new : Heap D} {a : Nat} {ps : List (Option Nat)} (ha : a ∉ keys h)
    (he : Ext ((a, Cell.addr ps) :: h) (ps.filterMap id) new) :
    stdaddrFree (some a) (new ++ (a, .addr ps) :: h) = some h := by
  have hn : a ∉ keys new := by
    intro hm
    exact he.fresh a hm (by simp [keys])
  have hg : get a (new ++ (a, Cell.addr ps) :: h) = some (.addr ps) := by
    rw [get_append_right hn]; simp [get]
  simp only [stdaddrFree, hg, freeAll_ext he, Option.bind_some]
  have hx : h.filter (fun b => b.1 ≠ a) = h := filter_fresh ha
  simp only [free, get, if_true, Option.isSome_some]
  rw [List.filter_cons_of_neg (by simp), hx]

/-- The keys of a heap do not depend on the content of a block. -/
theorem Ext.recell {h new : Heap D} {a : Nat} {c : Cell D} (c' : Cell D) {ps : List Nat}
    (he : Ext ((a, c) :: h) ps new) : Ext ((a, c') :: h) ps new :=
  ⟨he.perm, he.nodup, he.fresh⟩

theorem giveAddr_run {al : Allocator D} (hf : Fresh al) (r : Ret StdAddr) (h : Heap D)
    (hr : r.value.isSome → r.err = none) (hroom : r.value.isSome → (al h 1).isSome) :
    ∃ vs new, asStandardizeWith (giveAddr al r h).1 (giveAddr al r h).2 = some (vs, new ++ h) ∧
      vs.length = 17 ∧ (∀ i : Nat, vs[i]? = (sqlRow r)[i]? ∨ vs[i]? = some none) ∧
      (NeverFails al → vs = sqlRow r) ∧
      (∀ b ∈ new, ∃ m, r.err = some m ∧ b.2 = .text m) ∧ new.length ≤ messageBlocks r ∧
      (NeverFails al → new.length = messageBlocks r) := by
  obtain ⟨v, e⟩ := r
  cases v with
  | none =>
    obtain ⟨h1, h2, new, h3, h4, h5, h6⟩ := fail_ext hf e h
    refine ⟨List.replicate 17 none, new, ?_, by simp, ?_, ?_, ?_, ?_, ?_⟩
    · simp [giveAddr, asStandardizeWith, h1, h3]
    · intro i; exact Or.inl rfl
    · intro _; rfl
    · intro b hb
      cases he : (fail al e h).1.err with
      | none =>
        have := h4.perm
        rw [he] at this
        have hk : keys new = [] := by simpa using this.symm
        have : new = [] := by simpa [keys] using hk
        simp [this] at hb
      | some a =>
        obtain ⟨s, hs, hn⟩ := h5 a he
        rw [hn] at hb
        simp only [List.mem_singleton] at hb
        exact ⟨s, hs, by rw [hb]⟩
    · have hl := h4.perm.length_eq
      cases he : (fail al e h).1.err with
      | none =>
        rw [he] at hl
        simp only [Option.toList_none, List.length_nil] at hl
        simp only [keys, List.length_map] at hl
        omega
      | some a =>
        obtain ⟨s, hs, hn⟩ := h5 a he
        simp [hn, messageBlocks, hs]
    · intro hn
      have hl := h4.perm.length_eq
      have h6 := h6 hn
      simp only [keys, List.length_map] at hl
      rw [← hl]
      cases he : (fail al e h).1.err with
      | none => rw [he] at h6; simp only [Option.isSome_none] at h6; simp [messageBlocks, ← h6]
      | some a => rw [he] at h6; simp only [Option.isSome_some] at h6; simp [messageBlocks, ← h6]
  | some s =>
    have he : e = none := hr rfl
    subst he
    cases ha : al h 1 with
    | none => have := hroom rfl; simp [ha] at this
    | some a =>
      have hak := fresh_keys hf ha
      obtain ⟨new, h1, h2, h3, h4⟩ := dupAll_ext hf (fields s) ((a, .addr (List.replicate 17 none)) :: h)
      have hnk : a ∉ keys new := fun hm => h2.fresh a hm (by simp [keys])
      have hput : put a (.addr (dupAll al (fields s) ((a, .addr (List.replicate 17 none)) :: h)).1)
          (dupAll al (fields s) ((a, .addr (List.replicate 17 none)) :: h)).2 =
          new ++ (a, .addr (dupAll al (fields s) ((a, .addr (List.replicate 17 none)) :: h)).1) :: h := by
        rw [h1, put_append_right _ hnk]; simp [put]
      generalize hps : (dupAll al (fields s) ((a, .addr (List.replicate 17 none)) :: h)).1 = ps at *
      have hg : get a (new ++ (a, Cell.addr ps) :: h) = some (.addr ps) := by
        rw [get_append_right hnk]; simp [get]
      obtain ⟨vs, c1, c2, c3, c4⟩ := copyAll_reads (g := new ++ (a, Cell.addr ps) :: h)
        (Reads.mono (fun x c hx => get_append_left hx) h3)
      refine ⟨vs, [], ?_, ?_, ?_, ?_, by simp, by simp, by simp [messageBlocks]⟩
      · have hfree := stdaddrFree_ext hak (h2.recell (.addr ps))
        have e1 : (giveAddr al ⟨some s, none⟩ h).1 = { ptr := some a, err := none } := by simp [giveAddr, ha]
        have e2 : (giveAddr al ⟨some s, none⟩ h).2 = new ++ (a, Cell.addr ps) :: h := by
          simp only [giveAddr, ha, hps]; exact hput
        rw [e1, e2]
        simp only [asStandardizeWith, hg, c1, hfree, Option.map_some, List.nil_append]
      · rw [c2]; rfl
      · intro i; exact c3 i
      · intro hn; exact c4 (h4 hn)

/-! ### Rows -/

/-- The rows with their texts readable. -/
def RowsRead (g : Heap D) : List ParseRow → List TokRow → Prop
  | [], [] => True
  | r :: rs, t :: ts => (t.pat = r.pat ∧ t.seq = r.seq ∧ textAt t.word g = some r.word ∧ textAt t.inclass g = some r.inclass ∧
      textAt t.attached g = some r.attached) ∧ RowsRead g rs ts
  | _, _ => False

theorem textAt_mono {g g' : Heap D} (hg : ∀ a c, get a g = some c → get a g' = some c) {p : Option Nat} {s : Str}
    (h : textAt p g = some s) : textAt p g' = some s := by
  cases p with
  | none => simp [textAt] at h
  | some a =>
    simp only [textAt] at h ⊢
    cases hc : get a g with
    | none => simp [hc] at h
    | some c => rw [hg a c hc]; rw [hc] at h; exact h

theorem RowsRead.mono {g g' : Heap D} (hg : ∀ a c, get a g = some c → get a g' = some c) :
    ∀ {rs : List ParseRow} {ts : List TokRow}, RowsRead g rs ts → RowsRead g' rs ts
  | [], [], _ => trivial
  | _ :: _, _ :: _, h =>
    ⟨⟨h.1.1, h.1.2.1, textAt_mono hg h.1.2.2.1, textAt_mono hg h.1.2.2.2.1, textAt_mono hg h.1.2.2.2.2⟩,
      RowsRead.mono hg h.2⟩
  | [], _ :: _, h => h.elim
  | _ :: _, [], h => h.elim

theorem RowsRead.length {g : Heap D} : ∀ {rs : List ParseRow} {ts : List TokRow}, RowsRead g rs ts → ts.length = rs.length
  | [], [], _ => rfl
  | _ :: _, _ :: _, h => by simp [RowsRead.length h.2]
  | [], _ :: _, h => h.elim
  | _ :: _, [], h => h.elim

theorem RowsRead.row {g : Heap D} : ∀ {rs : List ParseRow} {ts : List TokRow}, RowsRead g rs ts → ∀ {i : Nat} {r : ParseRow},
    rs[i]? = some r → ∃ t, ts[i]? = some t ∧ t.pat = r.pat ∧ t.seq = r.seq ∧ textAt t.word g = some r.word ∧
      textAt t.inclass g = some r.inclass ∧ textAt t.attached g = some r.attached
  | [], _, _, i, r, hi => by simp at hi
  | r0 :: rs, t :: ts, h, 0, r, hi => by
    simp only [List.getElem?_cons_zero, Option.some.injEq] at hi
    subst hi
    exact ⟨t, rfl, h.1⟩
  | r0 :: rs, t :: ts, h, i + 1, r, hi => by
    simp only [List.getElem?_cons_succ] at hi ⊢
    exact RowsRead.row h.2 hi
  | _ :: _, [], h, _, _, _ => h.elim

theorem strdup_read {al : Allocator D} (hf : Fresh al) (hn : NeverFails al) (s : Str) (h : Heap D) :
    ∃ a, (strdup al s h).1 = some a ∧ (strdup al s h).2 = [(a, .text s)] ++ h ∧ Ext h [a] [(a, .text s)] := by
  obtain ⟨a, ha⟩ := hn h (s.length + 1)
  exact ⟨a, by simp [strdup, ha], by simp [strdup, ha], ext_one _ (fresh_keys hf ha)⟩

theorem dupRows_ext {al : Allocator D} (hf : Fresh al) (hn : NeverFails al) : ∀ (rs : List ParseRow) (h : Heap D),
    ∃ new, (dupRows al rs h).2 = new ++ h ∧ Ext h (((dupRows al rs h).1.flatMap TokRow.ptrs).filterMap id) new ∧
      RowsRead new rs (dupRows al rs h).1 ∧ new.length = 3 * rs.length
  | [], h => ⟨[], rfl, Ext.nil h, trivial, rfl⟩
  | r :: rs, h => by
    obtain ⟨a, a1, a2, a3⟩ := strdup_read hf hn r.word h
    obtain ⟨b, b1, b2, b3⟩ := strdup_read hf hn r.inclass (strdup al r.word h).2
    obtain ⟨c, c1, c2, c3⟩ := strdup_read hf hn r.attached (strdup al r.inclass (strdup al r.word h).2).2
    obtain ⟨new, d1, d2, d3, d4⟩ := dupRows_ext hf hn rs
      (strdup al r.attached (strdup al r.inclass (strdup al r.word h).2).2).2
    rw [a2] at b3
    have e1 := a3.comp b3
    rw [b2, a2, ← List.append_assoc] at c3
    have e2 := e1.comp c3
    have hheap : (strdup al r.attached (strdup al r.inclass (strdup al r.word h).2).2).2 =
        ([(c, Cell.text r.attached)] ++ ([(b, .text r.inclass)] ++ [(a, .text r.word)])) ++ h := by
      rw [c2, b2, a2]; simp
    rw [hheap] at d2
    have e3 := e2.comp d2
    have keepN : ∀ x cc, get x [(a, Cell.text (D := D) r.word)] = some cc → get x
        (new ++ ([(c, Cell.text r.attached)] ++ ([(b, .text r.inclass)] ++ [(a, .text r.word)]))) = some cc :=
      fun x cc hx => d2.get_keep (c3.get_keep (b3.get_keep hx))
    have keepB : ∀ x cc, get x [(b, Cell.text (D := D) r.inclass)] = some cc → get x
        (new ++ ([(c, Cell.text r.attached)] ++ ([(b, .text r.inclass)] ++ [(a, .text r.word)]))) = some cc :=
      fun x cc hx => d2.get_keep (c3.get_keep (get_append_left hx))
    have keepC : ∀ x cc, get x [(c, Cell.text (D := D) r.attached)] = some cc → get x
        (new ++ ([(c, Cell.text r.attached)] ++ ([(b, .text r.inclass)] ++ [(a, .text r.word)]))) = some cc :=
      fun x cc hx => d2.get_keep (get_append_left hx)
    have hrows : (dupRows al (r :: rs) h).1 = { pat := r.pat, seq := r.seq, word := some a, inclass := some b, attached := some c } ::
        (dupRows al rs (strdup al r.attached (strdup al r.inclass (strdup al r.word h).2).2).2).1 := by
      simp [dupRows, a1, b1, c1]
    rw [hrows]
    refine ⟨new ++ ([(c, Cell.text r.attached)] ++ ([(b, .text r.inclass)] ++ [(a, .text r.word)])), ?_, ?_, ⟨⟨rfl, rfl, ?_, ?_, ?_⟩, ?_⟩, ?_⟩
    · simp only [dupRows]; rw [d1, hheap]; simp
    · rw [hheap]
      simpa [TokRow.ptrs] using e3
    · exact textAt_mono keepN (by simp [textAt, get])
    · exact textAt_mono keepB (by simp [textAt, get])
    · exact textAt_mono keepC (by simp [textAt, get])
    · exact RowsRead.mono (fun x cc hx => get_append_left hx) d3
    · simp [d4]; omega

/-- The rows of `as_match` with their texts readable. -/
def MatchesRead (g : Heap D) : List (MatchRow D) → List (MTokRow D) → Prop
  | [], [] => True
  | r :: rs, t :: ts => (t.score = r.score ∧ t.nrules = r.nrules ∧ textAt t.tokens g = some r.tokens) ∧ MatchesRead g rs ts
  | _, _ => False

theorem MatchesRead.mono {g g' : Heap D} (hg : ∀ a c, get a g = some c → get a g' = some c) :
    ∀ {rs : List (MatchRow D)} {ts : List (MTokRow D)}, MatchesRead g rs ts → MatchesRead g' rs ts
  | [], [], _ => trivial
  | _ :: _, _ :: _, h => ⟨⟨h.1.1, h.1.2.1, textAt_mono hg h.1.2.2⟩, MatchesRead.mono hg h.2⟩
  | [], _ :: _, h => h.elim
  | _ :: _, [], h => h.elim

theorem MatchesRead.length {g : Heap D} : ∀ {rs : List (MatchRow D)} {ts : List (MTokRow D)}, MatchesRead g rs ts →
    ts.length = rs.length
  | [], [], _ => rfl
  | _ :: _, _ :: _, h => by simp [MatchesRead.length h.2]
  | [], _ :: _, h => h.elim
  | _ :: _, [], h => h.elim

theorem MatchesRead.row {g : Heap D} : ∀ {rs : List (MatchRow D)} {ts : List (MTokRow D)}, MatchesRead g rs ts →
    ∀ {i : Nat} {r : MatchRow D}, rs[i]? = some r →
    ∃ t, ts[i]? = some t ∧ t.score = r.score ∧ t.nrules = r.nrules ∧ textAt t.tokens g = some r.tokens
  | [], _, _, i, r, hi => by simp at hi
  | r0 :: rs, t :: ts, h, 0, r, hi => by
    simp only [List.getElem?_cons_zero, Option.some.injEq] at hi
    subst hi
    exact ⟨t, rfl, h.1⟩
  | r0 :: rs, t :: ts, h, i + 1, r, hi => by
    simp only [List.getElem?_cons_succ] at hi ⊢
    exact MatchesRead.row h.2 hi
  | _ :: _, [], h, _, _, _ => h.elim

theorem dupMatches_ext {al : Allocator D} (hf : Fresh al) (hn : NeverFails al) : ∀ (rs : List (MatchRow D)) (h : Heap D),
    ∃ new, (dupMatches al rs h).2 = new ++ h ∧ Ext h (((dupMatches al rs h).1.map (·.tokens)).filterMap id) new ∧
      MatchesRead new rs (dupMatches al rs h).1 ∧ new.length = rs.length
  | [], h => ⟨[], rfl, Ext.nil h, trivial, rfl⟩
  | r :: rs, h => by
    obtain ⟨a, a1, a2, a3⟩ := strdup_read hf hn r.tokens h
    obtain ⟨new, d1, d2, d3, d4⟩ := dupMatches_ext hf hn rs (strdup al r.tokens h).2
    rw [a2] at d2
    have e3 := a3.comp d2
    have hrows : (dupMatches al (r :: rs) h).1 = { tokens := some a, score := r.score, nrules := r.nrules } ::
        (dupMatches al rs (strdup al r.tokens h).2).1 := by simp [dupMatches, a1]
    rw [hrows]
    refine ⟨new ++ [(a, .text r.tokens)], ?_, ?_, ⟨⟨rfl, rfl, ?_⟩, ?_⟩, by simp [d4]⟩
    · simp only [dupMatches]; rw [d1, a2]; simp
    · rw [a2]
      simpa using e3
    · exact textAt_mono (fun x cc hx => d2.get_keep hx) (by simp [textAt, get])
    · exact MatchesRead.mono (fun x cc hx => get_append_left hx) d3

/-! ### Fetching -/

/-- The heap version follows the version on rows, call by call. -/
theorem fetch_follows {ρ τ : Type} {call : Sql.Ctx ρ → Option (Sql.Step τ × Sql.Ctx ρ)}
    {hcall : Ctx → Heap D → Option (Sql.Step τ × Ctx × Heap D)} {p : Option Nat} {n : Nat} {rows : Option (List ρ)}
    {h hend : Heap D}
    (hnext : ∀ i, i < n → ∀ fr s c, call ⟨i, n, rows, fr⟩ = some (s, c) → c = ⟨i + 1, n, rows, fr⟩ ∧
      (∃ r, s = .next r) ∧ hcall ⟨i, n, p⟩ h = some (s, ⟨i + 1, n, p⟩, h))
    (hdone : ∀ fr, ∃ c, call ⟨n, n, rows, fr⟩ = some (.done, c))
    (hhdone : hcall ⟨n, n, p⟩ h = some (.done, ⟨n, n, p⟩, hend)) :
    ∀ (k i : Nat) (fr : Nat), i ≤ n → ∀ ts fin c, Sql.fetch call k ⟨i, n, rows, fr⟩ = some (ts, fin, c) →
      fetch hcall k ⟨i, n, p⟩ h = some (ts, fin, if k + i ≤ n then h else hend) ∧ fin = decide (n < k + i) := by
  intro k
  induction k with
  | zero =>
    intro i fr hi ts fin c he
    simp only [Sql.fetch, Option.some.injEq, Prod.mk.injEq] at he
    obtain ⟨rfl, rfl, _⟩ := he
    simp only [fetch, Nat.zero_add, hi, if_true]
    simp; omega
  | succ k ih =>
    intro i fr hi ts fin c he
    simp only [Sql.fetch] at he
    by_cases hin : i < n
    · cases hc : call ⟨i, n, rows, fr⟩ with
      | none => simp [hc] at he
      | some sc =>
        obtain ⟨s, c'⟩ := sc
        obtain ⟨hc', ⟨r, hs⟩, hh⟩ := hnext i hin fr s c' hc
        subst hs hc'
        simp only [hc] at he
        cases hf : Sql.fetch call k ⟨i + 1, n, rows, fr⟩ with
        | none => simp [hf] at he
        | some x =>
          obtain ⟨rs, fin', c'⟩ := x
          simp only [hf, Option.some.injEq, Prod.mk.injEq] at he
          obtain ⟨rfl, rfl, rfl⟩ := he
          obtain ⟨g1, g2⟩ := ih (i + 1) fr hin rs fin' c' hf
          simp only [fetch, hh, g1]
          refine ⟨?_, ?_⟩
          · rw [show k + (i + 1) = k + 1 + i by omega]
          · rw [g2, show k + (i + 1) = k + 1 + i by omega]
    · have : i = n := by omega
      subst this
      obtain ⟨c', hc⟩ := hdone fr
      simp only [hc, Option.some.injEq, Prod.mk.injEq] at he
      obtain ⟨rfl, rfl, rfl⟩ := he
      simp only [fetch, hhdone]
      refine ⟨?_, ?_⟩
      · rw [if_neg (by omega)]
      · simp

end Heap
end AS
