import Verif.Lemmas.Heap
import Verif.Props.Sql
/-
Property C82: what the SQL functions leave on the C heap.
-/
namespace AS.Props
open AS AS.Wrapper
variable {F D : Type}

/-! ## Steps -/

theorem onHeap_roomy {al : Heap.Allocator D} (hn : Heap.NeverFails al) (h : Heap.Heap D) (env : Env F D) :
    Heap.onHeap al h env = Heap.roomy env := by
  have : (fun n => (al h n).isSome) = (fun _ : Nat => true) := by
    funext n
    obtain ⟨a, ha⟩ := hn h n
    simp [ha]
  simp [Heap.onHeap, Heap.roomy, this]

/-- A value comes without message, and only if its record could be allocated. -/
theorem addr_value_alone {env : Env F D} {g : Grammar F} {l : Lexicon} {address locale filter : Str} {r : Ret StdAddr}
    (hr : standardizeAddr env g l locale filter address = some r) (hv : r.value.isSome) :
    r.err = none ∧ env.alloc 1 = true := by
  unfold standardizeAddr standardizeAddrWith at hr
  repeat' split at hr
  all_goals first
    | (simp only [Option.some.injEq] at hr; subst hr; first | (simp at hv; done) | exact ⟨rfl, by assumption⟩)
    | simp at hr

theorem std_value_alone {env : Env F D} {address grammar lexicon locale filter : Str} {r : Ret StdAddr}
    (hr : stdStandardize env address grammar lexicon locale filter = some r) (hv : r.value.isSome) :
    r.err = none ∧ env.alloc 1 = true := by
  unfold stdStandardize standardizeAddr standardizeAddrWith at hr
  repeat' split at hr
  all_goals first
    | (simp only [Option.some.injEq] at hr; subst hr; first | (simp at hv; done) | exact ⟨rfl, by assumption⟩)
    | simp at hr

theorem parse_value_alone {env : Env F D} {address lexicon locale filter : Str} {r : Ret (List ParseRow)}
    (hr : stdParseAddress env address lexicon locale filter = some r) (hv : r.value.isSome) : r.err = none := by
  unfold stdParseAddress parseAddr parseAddrWith at hr
  cases hl : loadLexicon env lexicon with
  | undefined => simp [hl] at hr
  | throws m => simp only [hl, Option.some.injEq] at hr; subst hr; simp at hv
  | ok l =>
    simp only [hl] at hr
    cases hp : phrasesOf env l locale filter address with
    | undefined => simp [hp] at hr
    | throws m => simp only [hp, Option.some.injEq] at hr; subst hr; simp at hv
    | ok ps =>
      simp only [hp] at hr
      by_cases h1 : ¬ env.alloc (parseCount 0 ps) = true
      · rw [if_pos h1] at hr; simp only [Option.some.injEq] at hr; subst hr; simp at hv
      · rw [if_neg h1] at hr
        by_cases h2 : parseCount 0 ps ≥ 2 ^ 31 ∨ ps.length ≥ 2 ^ 31
        · rw [if_pos h2] at hr; simp at hr
        · rw [if_neg h2] at hr; simp only [Option.some.injEq] at hr; subst hr; rfl

theorem match_value_alone {env : Env F D} {address grammar lexicon locale filter : Str} {r : Ret (List (MatchRow D))}
    (hr : stdMatchAddress env address grammar lexicon locale filter = some r) (hv : r.value.isSome) : r.err = none := by
  unfold stdMatchAddress matchAddr matchAddrWith at hr
  repeat' split at hr
  all_goals first
    | (simp only [Option.some.injEq] at hr; subst hr; first | (simp at hv; done) | rfl)
    | (dsimp only at hr; split at hr)
    | simp at hr
  all_goals first
    | (simp only [Option.some.injEq] at hr; subst hr; first | (simp at hv; done) | rfl)
    | (split at hr)
    | simp at hr
  all_goals first
    | (simp only [Option.some.injEq] at hr; subst hr; first | (simp at hv; done) | rfl)
    | simp at hr

/-! ## C82 -/

/-- `as_standardize`, whatever requests for memory fail: it frees and reads nothing that is not in use. Blocks that
were in use before stay as they are; what it got is freed, except the text of a message. A column is as the
interface says, or NULL; NULL only if memory ran out. -/
theorem C82_standardize (al : Heap.Allocator D) (hf : Heap.Fresh al) (env : Env F D)
    (address grammar lexicon locale filter : Str) (h : Heap.Heap D) (r : Ret StdAddr)
    (hr : stdStandardize (Heap.onHeap al h env) address grammar lexicon locale filter = some r) :
    ∃ vs new, Heap.asStandardize al env address grammar lexicon locale filter h = some (vs, new ++ h) ∧
      vs.length = 17 ∧ (∀ i : Nat, vs[i]? = (sqlRow r)[i]? ∨ vs[i]? = some none) ∧
      (Heap.NeverFails al → vs = sqlRow r) ∧
      (∀ b ∈ new, ∃ m, r.err = some m ∧ b.2 = .text m) ∧ new.length ≤ Heap.messageBlocks r ∧
      (Heap.NeverFails al → new.length = Heap.messageBlocks r) := by
  unfold Heap.asStandardize
  rw [hr]
  exact Heap.giveAddr_run hf r h (fun hv => (std_value_alone hr hv).1) (fun hv => (std_value_alone hr hv).2)

/-- The same with a standardizer from the query cache. -/
theorem C82_standardize_cached (al : Heap.Allocator D) (hf : Heap.Fresh al) (env : Env F D) (g : Grammar F) (l : Lexicon)
    (address locale filter : Str) (h : Heap.Heap D) (r : Ret StdAddr)
    (hr : standardizeAddr (Heap.onHeap al h env) g l locale filter address = some r) :
    ∃ vs new, Heap.asStandardizePtrs al env g l address locale filter h = some (vs, new ++ h) ∧
      vs.length = 17 ∧ (∀ i : Nat, vs[i]? = (sqlRow r)[i]? ∨ vs[i]? = some none) ∧
      (Heap.NeverFails al → vs = sqlRow r) ∧
      (∀ b ∈ new, ∃ m, r.err = some m ∧ b.2 = .text m) ∧ new.length ≤ Heap.messageBlocks r ∧
      (Heap.NeverFails al → new.length = Heap.messageBlocks r) := by
  unfold Heap.asStandardizePtrs
  rw [hr]
  exact Heap.giveAddr_run hf r h (fun hv => (addr_value_alone hr hv).1) (fun hv => (addr_value_alone hr hv).2)

/-- `as_parse` on the heap gives the rows it gives on values, and leaves what `leaves` says. -/
theorem C82_parse (al : Heap.Allocator D) (hf : Heap.Fresh al) (hn : Heap.NeverFails al) (env : Env F D) (lib calls : Nat)
    (address lexicon locale filter : Str) (h : Heap.Heap D) (ts : List Sql.ParseTuple) (fin : Bool) (c : Sql.Ctx ParseRow)
    (hs : Sql.asParse (Heap.roomy env) calls address lexicon locale filter = some (ts, fin, c)) :
    ∃ new, Heap.asParse al env calls address lexicon locale filter h = some (ts, fin, new ++ h) ∧
      new.length = Heap.leaves env lib (.parse calls address lexicon locale filter) := by
  unfold Sql.asParse at hs
  unfold Heap.asParse Heap.leaves
  rw [onHeap_roomy hn]
  cases hr : stdParseAddress (Heap.roomy env) address lexicon locale filter with
  | none => rw [hr] at hs; simp [Sql.firstCall] at hs
  | some r =>
    rw [hr] at hs
    have halone := parse_value_alone hr
    obtain ⟨v, e⟩ := r
    cases v with
    | none =>
      obtain ⟨h1, h2, new, h3, h4, h5, h6⟩ := Heap.fail_ext hf e h
      have hlen : new.length = Heap.messageBlocks (⟨none, e⟩ : Ret (List ParseRow)) := by
        have hl := h4.perm.length_eq
        have h6 := h6 hn
        simp only [Heap.keys, List.length_map] at hl
        rw [← hl]
        cases he : (Heap.fail al e h).1.err with
        | none => rw [he] at h6; simp only [Option.isSome_none] at h6; simp [Heap.messageBlocks, ← h6]
        | some a => rw [he] at h6; simp only [Option.isSome_some] at h6; simp [Heap.messageBlocks, ← h6]
      refine ⟨new, ?_, by simpa [hr, Heap.rowBlocks] using hlen⟩
      simp only [Sql.firstCall] at hs
      have hfc : Heap.firstCall (Heap.fail al e h).1 = ⟨0, 0, none⟩ := by simp [Heap.firstCall, h1, h2]
      simp only [Heap.giveTokens, hfc, h3]
      have := Heap.fetch_follows (call := Sql.parseCall) (hcall := Heap.parseCall (D := D)) (p := none) (n := 0)
        (rows := none) (h := new ++ h) (hend := new ++ h) (fun i hi => absurd hi (Nat.not_lt_zero i))
        (fun fr => ⟨_, by simp [Sql.parseCall]; rfl⟩) (by simp [Heap.parseCall, Heap.tokensFree])
        calls 0 0 (Nat.le_refl 0) ts fin c hs
      rw [this.1]
      simp
    | some rows =>
      have he : e = none := halone rfl
      subst he
      obtain ⟨a, ha⟩ := hn h rows.length
      have hak := Heap.fresh_keys hf ha
      obtain ⟨new, h1, h2, h3, h4⟩ := Heap.dupRows_ext hf hn rows ((a, .tokens []) :: h)
      have hnk : a ∉ Heap.keys new := fun hm => h2.fresh a hm (by simp [Heap.keys])
      generalize hps : (Heap.dupRows al rows ((a, .tokens []) :: h)).1 = tr at *
      have hput : Heap.put a (.tokens tr) (Heap.dupRows al rows ((a, .tokens []) :: h)).2 =
          new ++ (a, .tokens tr) :: h := by
        rw [h1, Heap.put_append_right _ hnk]; simp [Heap.put]
      have hg : Heap.get a (new ++ (a, Heap.Cell.tokens tr) :: h) = some (.tokens tr) := by
        rw [Heap.get_append_right hnk]; simp [Heap.get]
      have hread : Heap.RowsRead (new ++ (a, Heap.Cell.tokens tr) :: h) rows tr :=
        Heap.RowsRead.mono (fun x c hx => Heap.get_append_left hx) h3
      simp only [Sql.firstCall] at hs
      have hend : (Heap.parseCall ⟨rows.length, rows.length, some a⟩ (new ++ (a, Heap.Cell.tokens tr) :: h)) =
          some (.done, ⟨rows.length, rows.length, some a⟩,
            if rows = [] then (a, .tokens tr) :: h else h) := by
        cases hrows : rows with
        | nil =>
          subst hrows
          have : new = [] := by
            have : new.length = 0 := by simpa using h4
            exact List.length_eq_zero_iff.1 this
          subst this
          simp [Heap.parseCall, Heap.tokensFree]
        | cons r rs =>
          rw [← hrows]
          have hne : rows ≠ [] := by rw [hrows]; simp
          have hpos : ¬ rows.length < 1 := by rw [hrows]; simp
          have hfree := Heap.freeAll_ext (h2.recell (.tokens tr))
          have hx : h.filter (fun b => b.1 ≠ a) = h := Heap.filter_fresh hak
          simp only [Heap.parseCall, Nat.lt_irrefl, if_false, Heap.tokensFree, hpos, hg, hread.length, Nat.le_refl, if_true]
          rw [← hread.length, List.take_length, hfree]
          simp only [Option.bind_some, Heap.free, Heap.get, if_true, Option.isSome_some]
          rw [List.filter_cons_of_neg (by simp), hx]
          simp [hne]
      have := Heap.fetch_follows (call := Sql.parseCall) (hcall := Heap.parseCall (D := D)) (p := some a) (n := rows.length)
        (rows := some rows) (h := new ++ (a, Heap.Cell.tokens tr) :: h)
        (hend := if rows = [] then (a, .tokens tr) :: h else h) ?_
        (fun fr => ⟨_, by simp [Sql.parseCall]; rfl⟩) hend calls 0 0 (Nat.zero_le _) ts fin c hs
      · simp only [Heap.giveTokens, ha, hps, hput, Heap.firstCall]
        rw [this.1]
        by_cases hk : calls + 0 ≤ rows.length
        · refine ⟨new ++ [(a, .tokens tr)], by simp only [hk, if_true]; simp, ?_⟩
          have hk' : calls ≤ rows.length := by omega
          by_cases hrows : rows = []
          · subst hrows
            have : new.length = 0 := by simpa using h4
            simp [hr, this]
          · simp [hr, hrows, Heap.rowBlocks, hk', h4]; omega
        · have hk' : ¬ calls ≤ rows.length := by omega
          by_cases hrows : rows = []
          · subst hrows
            exact ⟨[(a, .tokens tr)], by simp only [hk, if_false, if_true]; simp, by simp [hr]⟩
          · refine ⟨[], by simp only [hk, if_false, hrows]; simp, by simp [hr, hrows, Heap.rowBlocks, hk']⟩
      · intro i hi fr s c' hcall
        obtain ⟨r, hri⟩ : ∃ r, rows[i]? = some r := ⟨rows[i], List.getElem?_eq_getElem hi⟩
        obtain ⟨t, ht, p1, p2, p3, p4, p5⟩ := hread.row hri
        simp only [Sql.parseCall, hi, if_true, hri] at hcall
        split at hcall
        · simp at hcall
        · rename_i hov
          simp only [Option.some.injEq, Prod.mk.injEq] at hcall
          obtain ⟨rfl, rfl⟩ := hcall
          refine ⟨rfl, ⟨_, rfl⟩, ?_⟩
          simp only [Heap.parseCall, hi, if_true, hg, ht, p1, p2, p3, p4, p5, if_neg hov]

/-- `as_match` on the heap gives the rows it gives on values, and leaves what `leaves` says. -/
theorem C82_match (al : Heap.Allocator D) (hf : Heap.Fresh al) (hn : Heap.NeverFails al) (env : Env F D) (lib calls : Nat)
    (address grammar lexicon locale filter : Str) (h : Heap.Heap D) (ts : List (List (Sql.Col D))) (fin : Bool)
    (c : Sql.Ctx (MatchRow D))
    (hs : Sql.asMatch (Heap.roomy env) calls address grammar lexicon locale filter = some (ts, fin, c)) :
    ∃ new, Heap.asMatch al env calls address grammar lexicon locale filter h = some (ts, fin, new ++ h) ∧
      new.length = Heap.leaves env lib (.matching calls address grammar lexicon locale filter) := by
  unfold Sql.asMatch at hs
  unfold Heap.asMatch Heap.leaves
  rw [onHeap_roomy hn]
  cases hr : stdMatchAddress (Heap.roomy env) address grammar lexicon locale filter with
  | none => rw [hr] at hs; simp [Sql.firstCall] at hs
  | some r =>
    rw [hr] at hs
    have halone := match_value_alone hr
    obtain ⟨v, e⟩ := r
    cases v with
    | none =>
      obtain ⟨h1, h2, new, h3, h4, h5, h6⟩ := Heap.fail_ext hf e h
      have hlen : new.length = Heap.messageBlocks (⟨none, e⟩ : Ret (List (MatchRow D))) := by
        have hl := h4.perm.length_eq
        have h6 := h6 hn
        simp only [Heap.keys, List.length_map] at hl
        rw [← hl]
        cases he : (Heap.fail al e h).1.err with
        | none => rw [he] at h6; simp only [Option.isSome_none] at h6; simp [Heap.messageBlocks, ← h6]
        | some a => rw [he] at h6; simp only [Option.isSome_some] at h6; simp [Heap.messageBlocks, ← h6]
      refine ⟨new, ?_, by simpa [hr, Heap.rowBlocks] using hlen⟩
      simp only [Sql.firstCall] at hs
      have hfc : Heap.firstCall (Heap.fail al e h).1 = ⟨0, 0, none⟩ := by simp [Heap.firstCall, h1, h2]
      simp only [Heap.giveMatches, hfc, h3]
      have := Heap.fetch_follows (call := Sql.matchCall (D := D) Sql.matchColumns)
        (hcall := Heap.matchCall (D := D) Sql.matchColumns) (p := none) (n := 0)
        (rows := none) (h := new ++ h) (hend := new ++ h) (fun i hi => absurd hi (Nat.not_lt_zero i))
        (fun fr => ⟨_, by simp [Sql.matchCall]; rfl⟩) (by simp [Heap.matchCall, Heap.mtokensFree, Heap.free])
        calls 0 0 (Nat.le_refl 0) ts fin c hs
      rw [this.1]
      simp
    | some rows =>
      have he : e = none := halone rfl
      subst he
      obtain ⟨a, ha⟩ := hn h rows.length
      have hak := Heap.fresh_keys hf ha
      obtain ⟨new, h1, h2, h3, h4⟩ := Heap.dupMatches_ext hf hn rows ((a, .mtokens []) :: h)
      have hnk : a ∉ Heap.keys new := fun hm => h2.fresh a hm (by simp [Heap.keys])
      generalize hps : (Heap.dupMatches al rows ((a, .mtokens []) :: h)).1 = tr at *
      have hput : Heap.put a (.mtokens tr) (Heap.dupMatches al rows ((a, .mtokens []) :: h)).2 =
          new ++ (a, .mtokens tr) :: h := by
        rw [h1, Heap.put_append_right _ hnk]; simp [Heap.put]
      have hg : Heap.get a (new ++ (a, Heap.Cell.mtokens tr) :: h) = some (.mtokens tr) := by
        rw [Heap.get_append_right hnk]; simp [Heap.get]
      have hread : Heap.MatchesRead (new ++ (a, Heap.Cell.mtokens tr) :: h) rows tr :=
        Heap.MatchesRead.mono (fun x c hx => Heap.get_append_left hx) h3
      simp only [Sql.firstCall] at hs
      have hx : h.filter (fun b => b.1 ≠ a) = h := Heap.filter_fresh hak
      have hend : (Heap.matchCall Sql.matchColumns ⟨rows.length, rows.length, some a⟩
          (new ++ (a, Heap.Cell.mtokens tr) :: h)) = some (.done, ⟨rows.length, rows.length, some a⟩, h) := by
        have hlast : Heap.free (some a) ((a, Heap.Cell.mtokens tr) :: h) = some h := by
          simp only [Heap.free, Heap.get, if_true, Option.isSome_some]
          rw [List.filter_cons_of_neg (by simp), hx]
        by_cases hrows : rows.length = 0
        · have : new = [] := List.length_eq_zero_iff.1 (by rw [h4]; exact hrows)
          subst this
          simp only [Heap.matchCall, Nat.lt_irrefl, if_false, Heap.mtokensFree, hrows, if_true, List.nil_append]
          rw [hlast]; rfl
        · have hfree := Heap.freeAll_ext (h2.recell (.mtokens tr))
          simp only [Heap.matchCall, Nat.lt_irrefl, if_false, Heap.mtokensFree, hrows, hg, hread.length, Nat.le_refl, if_true]
          rw [← hread.length, List.take_length, hfree]
          simp only [Option.bind_some, hlast, Option.map_some]
      have := Heap.fetch_follows (call := Sql.matchCall (D := D) Sql.matchColumns)
        (hcall := Heap.matchCall (D := D) Sql.matchColumns) (p := some a) (n := rows.length)
        (rows := some rows) (h := new ++ (a, Heap.Cell.mtokens tr) :: h) (hend := h) ?_
        (fun fr => ⟨_, by simp [Sql.matchCall]; rfl⟩) hend calls 0 0 (Nat.zero_le _) ts fin c hs
      · simp only [Heap.giveMatches, ha, hps, hput, Heap.firstCall]
        rw [this.1]
        by_cases hk : calls + 0 ≤ rows.length
        · refine ⟨new ++ [(a, .mtokens tr)], by simp only [hk, if_true]; simp, ?_⟩
          have hk' : calls ≤ rows.length := by omega
          simp [hr, Heap.rowBlocks, hk', h4]; omega
        · have hk' : ¬ calls ≤ rows.length := by omega
          exact ⟨[], by simp only [hk, if_false]; simp, by simp [hr, Heap.rowBlocks, hk']⟩
      · intro i hi fr s c' hcall
        obtain ⟨r, hri⟩ : ∃ r, rows[i]? = some r := ⟨rows[i], List.getElem?_eq_getElem hi⟩
        obtain ⟨t, ht, p1, p2, p3⟩ := hread.row hri
        simp only [Sql.matchCall, hi, if_true, hri] at hcall
        split at hcall
        · simp at hcall
        · rename_i hov
          simp only [Option.some.injEq, Prod.mk.injEq] at hcall
          obtain ⟨rfl, rfl⟩ := hcall
          refine ⟨rfl, ⟨_, rfl⟩, ?_⟩
          simp only [Heap.matchCall, hi, if_true, hg, ht, p1, p2, p3, if_neg hov]

/-- `as_compile_lexicon`, whatever requests fail: it has a defined outcome; only the text of a message stays. -/
theorem C82_compile (al : Heap.Allocator D) (hf : Heap.Fresh al) (icu : Icu) (lexWhat : Lexicon.Error → Str) (lib : Nat)
    (text : Str) (h : Heap.Heap D) :
    ∃ res new, Heap.asCompileLexicon al icu lexWhat lib text h = some (res, new ++ h) ∧
      new.length ≤ Heap.messageBlocks (Archive.serializeLexicon icu lexWhat lib text) ∧
      (Heap.NeverFails al → res = Archive.asCompileLexicon icu lexWhat lib text ∧
        new.length = Heap.messageBlocks (Archive.serializeLexicon icu lexWhat lib text)) := by
  have hone : (Archive.serializeLexicon icu lexWhat lib text).value.isSome →
      (Archive.serializeLexicon icu lexWhat lib text).err = none := by
    unfold Archive.serializeLexicon
    split
    · simp
    · dsimp only; split <;> simp
  unfold Heap.asCompileLexicon Archive.asCompileLexicon
  generalize hr : Archive.serializeLexicon icu lexWhat lib text = r at hone
  obtain ⟨v, e⟩ := r
  cases v with
  | none =>
    cases e with
    | none => exact ⟨_, [], rfl, by simp, fun _ => ⟨rfl, rfl⟩⟩
    | some m =>
      simp only [Heap.giveText, Heap.fail, Heap.strdup]
      cases ha : al h (m.length + 1) with
      | none =>
        refine ⟨_, [], rfl, by simp, ?_⟩
        intro hn
        obtain ⟨a, haa⟩ := hn h (m.length + 1)
        simp [haa] at ha
      | some a =>
        refine ⟨_, [(a, .text m)], by simp [Heap.textAt, Heap.get]; rfl, by simp [Heap.messageBlocks], ?_⟩
        intro _
        exact ⟨rfl, by simp [Heap.messageBlocks]⟩
  | some s =>
    have he : e = none := hone rfl
    subst he
    simp only [Heap.giveText, Heap.strdup]
    cases ha : al h (s.length + 1) with
    | none =>
      refine ⟨_, [], rfl, by simp, ?_⟩
      intro hn
      obtain ⟨a, haa⟩ := hn h (s.length + 1)
      simp [haa] at ha
    | some a =>
      have hx : h.filter (fun b => b.1 ≠ a) = h := Heap.filter_fresh (Heap.fresh_keys hf ha)
      refine ⟨.value s, [], ?_, by simp, fun _ => ⟨rfl, by simp [Heap.messageBlocks]⟩⟩
      simp only [Heap.textAt, Heap.get, if_true, Heap.free, Option.isSome_some]
      rw [List.filter_cons_of_neg (by simp), hx]
      rfl

/-- Requests one after the other, with memory enough: no block is freed twice and none that was not allocated; the
blocks in use before are as they were; the blocks left over add up. -/
theorem C82_session (al : Heap.Allocator D) (hf : Heap.Fresh al) (hn : Heap.NeverFails al) (env : Env F D) (lib : Nat) :
    ∀ (qs : List Heap.Request) (h : Heap.Heap D), (∀ q ∈ qs, Heap.Defined env q) →
      ∃ new, Heap.session al env lib qs h = some (new ++ h) ∧ new.length = (qs.map (Heap.leaves env lib)).sum := by
  intro qs
  induction qs with
  | nil => intro h _; exact ⟨[], rfl, rfl⟩
  | cons q qs ih =>
    intro h hd
    have hone : ∃ new, Heap.serve al env lib q h = some (new ++ h) ∧ new.length = Heap.leaves env lib q := by
      have hq := hd q (List.mem_cons_self ..)
      cases q with
      | standardize address grammar lexicon locale filter =>
        simp only [Heap.Defined, Option.isSome_iff_exists] at hq
        obtain ⟨r, hr⟩ := hq
        have hr' := hr
        rw [← onHeap_roomy hn h env] at hr'
        obtain ⟨vs, new, h1, _, _, _, _, _, h2⟩ := C82_standardize al hf env address grammar lexicon locale filter h r hr'
        exact ⟨new, by simp [Heap.serve, h1], by simp [Heap.leaves, hr, h2 hn]⟩
      | parse calls address lexicon locale filter =>
        simp only [Heap.Defined, Option.isSome_iff_exists] at hq
        obtain ⟨⟨ts, fin, c⟩, hr⟩ := hq
        obtain ⟨new, h1, h2⟩ := C82_parse al hf hn env lib calls address lexicon locale filter h ts fin c hr
        exact ⟨new, by simp [Heap.serve, h1], h2⟩
      | matching calls address grammar lexicon locale filter =>
        simp only [Heap.Defined, Option.isSome_iff_exists] at hq
        obtain ⟨⟨ts, fin, c⟩, hr⟩ := hq
        obtain ⟨new, h1, h2⟩ := C82_match al hf hn env lib calls address grammar lexicon locale filter h ts fin c hr
        exact ⟨new, by simp [Heap.serve, h1], h2⟩
      | compile lexicon =>
        obtain ⟨res, new, h1, _, h2⟩ := C82_compile al hf env.icu env.lexWhat lib lexicon h
        exact ⟨new, by simp [Heap.serve, h1], (h2 hn).2⟩
    obtain ⟨n1, s1, l1⟩ := hone
    obtain ⟨n2, s2, l2⟩ := ih (n1 ++ h) (fun q hq => hd q (List.mem_cons_of_mem _ hq))
    refine ⟨n2 ++ n1, by simp [Heap.session, s1, s2], by simp [l1, l2]; omega⟩

theorem get_put (a : Nat) (c : Heap.Cell D) : ∀ (h : Heap.Heap D),
    Heap.get a (Heap.put a c h) = none ∨ Heap.get a (Heap.put a c h) = some c
  | [] => Or.inl rfl
  | (b, x) :: h => by
    by_cases hb : b = a
    · simp [Heap.put, Heap.get, hb]
    · simpa [Heap.put, Heap.get, hb] using get_put a c h

/-- `strdup` is not checked: if there is no memory for the first word, `as_parse` reads through NULL. -/
theorem C82_parse_unchecked (al : Heap.Allocator D) (env : Env F D) (calls : Nat) (address lexicon locale filter : Str)
    (h : Heap.Heap D) (row : ParseRow) (rows : List ParseRow) (a : Nat)
    (hr : stdParseAddress (Heap.onHeap al h env) address lexicon locale filter = some ⟨some (row :: rows), none⟩)
    (ha : al h (rows.length + 1) = some a) (hw : al ((a, .tokens []) :: h) (row.word.length + 1) = none) :
    Heap.asParse al env (calls + 1) address lexicon locale filter h = none := by
  unfold Heap.asParse
  rw [hr]
  simp only [Heap.giveTokens, List.length_cons, ha, Heap.firstCall]
  generalize hd : Heap.dupRows al (row :: rows) ((a, .tokens []) :: h) = d
  have h0 : ∃ t ts, d.1 = t :: ts ∧ t.word = none := by
    rw [← hd]
    refine ⟨_, _, rfl, ?_⟩
    simp [hw]
  obtain ⟨t, ts, h1, h2⟩ := h0
  simp only [Heap.fetch]
  rw [show Heap.parseCall ⟨0, rows.length + 1, some a⟩ (Heap.put a (.tokens d.1) d.2) = none from ?_]
  simp only [Heap.parseCall, Nat.zero_lt_succ, if_true]
  rcases get_put a (.tokens d.1) d.2 with hg | hg
  · rw [hg]
  · rw [hg, h1]
    simp [h2, Heap.textAt]

/-- The same for the first text of `as_match`. -/
theorem C82_match_unchecked (al : Heap.Allocator D) (env : Env F D) (calls : Nat) (address grammar lexicon locale filter : Str)
    (h : Heap.Heap D) (row : MatchRow D) (rows : List (MatchRow D)) (a : Nat)
    (hr : stdMatchAddress (Heap.onHeap al h env) address grammar lexicon locale filter = some ⟨some (row :: rows), none⟩)
    (ha : al h (rows.length + 1) = some a) (hw : al ((a, .mtokens []) :: h) (row.tokens.length + 1) = none) :
    Heap.asMatch al env (calls + 1) address grammar lexicon locale filter h = none := by
  unfold Heap.asMatch
  rw [hr]
  simp only [Heap.giveMatches, List.length_cons, ha, Heap.firstCall]
  generalize hd : Heap.dupMatches al (row :: rows) ((a, .mtokens []) :: h) = d
  have h0 : ∃ t ts, d.1 = t :: ts ∧ t.tokens = none := by
    rw [← hd]
    refine ⟨_, _, rfl, ?_⟩
    simp [hw]
  obtain ⟨t, ts, h1, h2⟩ := h0
  simp only [Heap.fetch]
  rw [show Heap.matchCall Sql.matchColumns ⟨0, rows.length + 1, some a⟩ (Heap.put a (.mtokens d.1) d.2) = none from ?_]
  simp only [Heap.matchCall, Nat.zero_lt_succ, if_true]
  rcases get_put a (.mtokens d.1) d.2 with hg | hg
  · rw [hg]
  · rw [hg, h1]
    simp [h2, Heap.textAt]

/-! ### Examples -/

/-- An allocator: the next number. -/
def nextAddress : Heap.Allocator D := fun h _ => some (h.foldl (fun m b => max m (b.1 + 1)) 1)

theorem foldl_max_ge {h : Heap.Heap D} : ∀ {m : Nat}, m ≤ h.foldl (fun m b => max m (b.1 + 1)) m := by
  induction h with
  | nil => intro m; exact Nat.le_refl m
  | cons b h ih => intro m; exact Nat.le_trans (Nat.le_max_left m (b.1 + 1)) ih

theorem foldl_max_gt {h : Heap.Heap D} : ∀ {m : Nat} {b : Nat × Heap.Cell D}, b ∈ h →
    b.1 < h.foldl (fun m b => max m (b.1 + 1)) m := by
  induction h with
  | nil => intro m b hb; simp at hb
  | cons x h ih =>
    intro m b hb
    rcases List.mem_cons.1 hb with rfl | hb
    · exact Nat.lt_of_lt_of_le (Nat.lt_of_lt_of_le (Nat.lt_succ_self _) (Nat.le_max_right m (b.1 + 1))) foldl_max_ge
    · exact ih hb

theorem nextAddress_fresh : Heap.Fresh (nextAddress (D := D)) := by
  intro h n a ha b hb
  simp only [nextAddress, Option.some.injEq] at ha
  have := foldl_max_gt (m := 1) hb
  omega

theorem nextAddress_never_fails : Heap.NeverFails (nextAddress (D := D)) := fun _ _ => ⟨_, rfl⟩

/-- The columns of `as_standardize`, or nothing. -/
def columnsOf (r : Option (List (Option Str) × Heap.Heap Rat)) : List (Option Str) := (r.map (·.1)).getD []

/-- The blocks in use afterwards. -/
def blocksOf (r : Option (Heap.Heap Rat)) : Option Nat := r.map (·.length)

/-- Stopping `as_parse` after five of seven rows leaves the array and 21 texts; running it to the end leaves
nothing; an empty address leaves the empty array. A lexicon that cannot be read leaves the message. -/
example :
    blocksOf ((Heap.asParse nextAddress exEnv 5 c!"12 new york str" townText c!"en" c!"SPACE" []).map (·.2.2)) = some 22 ∧
    blocksOf ((Heap.asParse nextAddress exEnv 8 c!"12 new york str" townText c!"en" c!"SPACE" []).map (·.2.2)) = some 0 ∧
    blocksOf ((Heap.asParse nextAddress exEnv 1 [] townText c!"en" c!"SPACE" []).map (·.2.2)) = some 1 ∧
    blocksOf ((Heap.asParse nextAddress exEnv 1 c!"12 new york" c!"LEXENTRY:\tx" c!"en" c!"SPACE" []).map (·.2.2)) = some 1 := by
  decide +kernel

/-- An allocator with room for so many blocks. -/
def roomFor (k : Nat) : Heap.Allocator D := fun h n => if h.length < k then nextAddress h n else none

theorem roomFor_fresh (k : Nat) : Heap.Fresh (roomFor (D := D) k) := by
  intro h n a ha b hb
  unfold roomFor at ha
  split at ha
  · exact nextAddress_fresh h n a ha b hb
  · simp at ha

/-- With memory enough four columns are filled and nothing is left, although a block was in use before; with room
for four blocks some columns are lost, with room for none there is no row and no message; with room for the message
only, the message is left. -/
example :
    let row := fun (al : Heap.Allocator Rat) (h : Heap.Heap Rat) =>
      Heap.asStandardize al exEnv c!"12 new york str" addrText townText c!"en" c!"SPACE" h
    (columnsOf (row nextAddress [(7, .text c!"x")])).map Option.isSome =
      [false, true, false, false, false, false, true, false, false, false, true, false, false, false, false, false, true] ∧
    (row nextAddress [(7, .text c!"x")]).map (·.2) = some [(7, .text c!"x")] ∧
    (columnsOf (row (roomFor 4) [(7, .text c!"x")])).map Option.isSome =
      [false, true, false, false, false, false, true, false, false, false, false, false, false, false, false, false, false] ∧
    (row (roomFor 4) [(7, .text c!"x")]).map (·.2) = some [(7, .text c!"x")] ∧
    row (roomFor 0) [] = some (List.replicate 17 none, []) ∧
    (Heap.asStandardize nextAddress exEnv c!"12" addrText c!"LEXENTRY:\tx" c!"en" c!"SPACE" []).map (·.2) =
      some [(1, .text c!"bad lexicon")] := by
  decide +kernel

/-- No memory for the first word, or for the first text of `as_match`. -/
example : Heap.asParse (roomFor 1) exEnv 1 c!"12 new york str" townText c!"en" c!"SPACE" [] = none ∧
    Heap.asMatch (roomFor 1) exEnv 1 c!"1 new york str" addrText townText c!"en" c!"SPACE" [] = none ∧
    (Heap.asMatch (roomFor 3) exEnv 3 c!"1 new york str" addrText townText c!"en" c!"SPACE" []).map (·.2.2.length) = some 0 := by
  decide +kernel

/-- A session that leaves 22 + 0 + 3 + 1 + 1 blocks. -/
def leakySession : List Heap.Request :=
  [.parse 5 c!"12 new york str" townText c!"en" c!"SPACE", .standardize c!"12 new york str" addrText townText c!"en" c!"SPACE",
    .matching 2 c!"1 new york str" addrText townText c!"en" c!"SPACE", .compile c!"LEXENTRY:\tx", .parse 3 [] townText c!"en" c!"SPACE"]

example : (∀ q ∈ leakySession, Heap.Defined exEnv q) ∧ leakySession.map (Heap.leaves exEnv 15) = [22, 0, 3, 1, 1] ∧
    blocksOf (Heap.session nextAddress exEnv 15 leakySession []) = some 27 := by
  refine ⟨?_, by decide +kernel, by decide +kernel⟩
  simp only [leakySession, List.mem_cons, List.not_mem_nil, or_false, forall_eq_or_imp, forall_eq]
  refine ⟨?_, ?_, ?_, trivial, ?_⟩
  · show Option.isSome _ = true
    decide +kernel
  · show Option.isSome _ = true
    decide +kernel
  · show Option.isSome _ = true
    decide +kernel
  · show Option.isSome _ = true
    decide +kernel

end AS.Props
