import Verif.Spec.PagcLex
import Verif.Lemmas.PagcText
import Verif.Lemmas.LexCheck
/-
The lexicon of PAGC: what the hash holds, and the text printed.
-/
namespace AS
namespace Pagc

/-! ### Fields -/

theorem tabs_eq : ∀ (s f : Str), ∃ p ps, splitOn '\t' s = p :: ps ∧ tabs f s = (f.reverse ++ p) :: ps
  | [], f => ⟨[], [], rfl, by simp [tabs]⟩
  | c :: s, f => by
    rw [tabs, splitOn]
    by_cases hc : c = '\t'
    · obtain ⟨p, ps, h1, h2⟩ := tabs_eq s []
      refine ⟨[], p :: ps, ?_, ?_⟩
      · rw [if_pos hc, h1]
      · rw [if_pos hc, h2]; simp
    · obtain ⟨p, ps, h1, h2⟩ := tabs_eq s (c :: f)
      refine ⟨c :: p, ps, ?_, ?_⟩
      · rw [if_neg hc, h1]
      · rw [if_neg hc, h2]; simp

theorem tabs_splitOn (s : Str) : tabs [] s = splitOn '\t' s := by
  obtain ⟨p, ps, h1, h2⟩ := tabs_eq s []
  rw [h1, h2]; rfl

theorem tabFields_last {x : Str} (h : (splitOn '\t' x).getLast? ≠ some []) : tabFields x = splitOn '\t' x := by
  unfold tabFields
  rw [tabs_splitOn]
  have : (splitOn '\t' x).reverse.dropWhile List.isEmpty = (splitOn '\t' x).reverse := by
    cases hr : (splitOn '\t' x).reverse with
    | nil => rfl
    | cons p ps =>
      have : (splitOn '\t' x).getLast? = some p := by rw [← List.head?_reverse, hr]; rfl
      rw [List.dropWhile_cons, if_neg]
      cases p with
      | nil => exact absurd this h
      | cons _ _ => simp
  rw [this, List.reverse_reverse]

theorem tabFields_length (x : Str) : (tabFields x).length ≤ (splitOn '\t' x).length := by
  unfold tabFields
  rw [tabs_splitOn, List.length_reverse]
  have := (List.dropWhile_sublist List.isEmpty (l := (splitOn '\t' x).reverse)).length_le
  simpa using this

theorem tabFields_record {l : Str} {r : Record} (h : RecordLine l r) : ∃ n c, tabFields l = [n, r.word, c, r.std] ∧
    Number c ∧ decimal c = r.code ∧ '\t' ∉ r.word ∧ '\t' ∉ r.std ∧ r.std ≠ [] := by
  obtain ⟨n, c, h1, h2, h3, h4⟩ := h
  obtain ⟨p, ps, e, hn, _⟩ := splitOn_spec '\t' l
  rw [← e, h1] at hn
  exact ⟨n, c, by rw [tabFields_last (by rw [h1]; simpa using h2), h1], h3, h4, hn _ (by simp), hn _ (by simp), h2⟩

/-! ### The hash -/

/-- The key of an entry. -/
def keyOf (w s : Str) : Str := w ++ '\t' :: s

theorem keyOf_inj : ∀ {w w' s s' : Str}, '\t' ∉ w → '\t' ∉ w' → keyOf w s = keyOf w' s' → w = w' ∧ s = s'
  | [], [], s, s', _, _, h => by simpa [keyOf] using h
  | [], c :: w', s, s', _, h2, h => by
    simp only [keyOf, List.nil_append, List.cons_append, List.cons.injEq] at h
    exact absurd (h.1 ▸ List.mem_cons_self) h2
  | c :: w, [], s, s', h1, _, h => by
    simp only [keyOf, List.nil_append, List.cons_append, List.cons.injEq] at h
    exact absurd (h.1 ▸ List.mem_cons_self) h1
  | c :: w, d :: w', s, s', h1, h2, h => by
    simp only [keyOf, List.cons_append, List.cons.injEq] at h
    obtain ⟨e1, e2⟩ := keyOf_inj (fun hm => h1 (List.mem_cons_of_mem _ hm)) (fun hm => h2 (List.mem_cons_of_mem _ hm)) h.2
    exact ⟨by rw [h.1, e1], e2⟩

/-- The classes of a word with a standard word, in the order of the file. -/
def codesOf (rs : List Record) (w s : Str) : List Nat := (rs.filter (fun r => r.word = w ∧ r.std = s)).map (·.code)

def slotOf (rs : List Record) (r : Record) : Slot :=
  ⟨r.word, r.std, (codesOf rs r.word r.std).map (fun n => item types (n : Nat))⟩

/-- The hash holds these entries. -/
def Holds (rs : List Record) (t : Table) : Prop :=
  (t.map (·.1)).Nodup ∧ ∀ k o, (k, o) ∈ t ↔ ∃ r ∈ rs, k = keyOf r.word r.std ∧ o = some (slotOf rs r)

theorem lookup_none {t : Table} {k : Str} : t.lookup k = none ↔ ∀ o, (k, o) ∉ t := by
  induction t with
  | nil => simp
  | cons e t ih =>
    obtain ⟨k', o'⟩ := e
    rw [List.lookup_cons]
    by_cases h : k = k'
    · subst h
      simp only [beq_self_eq_true]
      constructor
      · intro h; cases h
      · intro h; exact absurd List.mem_cons_self (h o')
    · have hb : (k == k') = false := by simpa using h
      simp only [hb]
      rw [ih]
      constructor
      · intro h2 o hm
        rcases List.mem_cons.1 hm with e | hm
        · exact h (Prod.mk.inj e).1
        · exact h2 o hm
      · intro h2 o hm; exact h2 o (List.mem_cons_of_mem _ hm)

theorem lookup_some {t : Table} {k : Str} {o : Option Slot} (h : t.lookup k = some o) : (k, o) ∈ t := by
  induction t with
  | nil => cases h
  | cons e t ih =>
    obtain ⟨k', o'⟩ := e
    rw [List.lookup_cons] at h
    by_cases hk : k = k'
    · subst hk
      simp only [beq_self_eq_true] at h
      cases h
      exact List.mem_cons_self
    · have hb : (k == k') = false := by simpa using hk
      simp only [hb] at h
      exact List.mem_cons_of_mem _ (ih h)

theorem codesOf_snoc (rs : List Record) (r : Record) (w s : Str) :
    codesOf (rs ++ [r]) w s = codesOf rs w s ++ (if r.word = w ∧ r.std = s then [r.code] else []) := by
  unfold codesOf
  rw [List.filter_append, List.map_append]
  congr 1
  by_cases h : r.word = w ∧ r.std = s
  · simp [h]
  · rw [if_neg h, List.filter_cons, if_neg (by simpa using h)]
    rfl

theorem codesOf_nil {rs : List Record} {w s : Str} (h : ∀ r ∈ rs, ¬ (r.word = w ∧ r.std = s)) : codesOf rs w s = [] := by
  unfold codesOf
  rw [List.filter_eq_nil_iff.2]
  · rfl
  · intro r hr; simpa using h r hr

theorem readLine_record {nu : Numbers} (hnu : Exact nu) {matched : Str → Str → Option Bool} (hm : MatchesSelf matched)
    {rs : List Record} (htab : ∀ r ∈ rs, '\t' ∉ r.word) {t : Table} (ht : Holds rs t) {out l : Str} {r : Record} (hl : RecordLine l r)
    (hp : ∀ c ∈ r.std, c ∉ special) :
    ∃ t', readLine nu matched (t, out) l = some (t', out) ∧ Holds (rs ++ [r]) t' := by
  obtain ⟨n, c, hf, hc, hd, h1, h2, _⟩ := tabFields_record hl
  unfold readLine
  rw [hf]
  simp only
  rw [show r.word ++ '\t' :: r.std = keyOf r.word r.std from rfl, (hnu c hc).1, hd]
  obtain ⟨hnd, hmem⟩ := ht
  cases hlk : t.lookup (keyOf r.word r.std) with
  | none =>
    have hno := lookup_none.1 hlk
    have hno' : ∀ r' ∈ rs, ¬ (r'.word = r.word ∧ r'.std = r.std) := by
      rintro r' hr' ⟨e1, e2⟩
      exact hno _ ((hmem _ _).2 ⟨r', hr', by rw [e1, e2], rfl⟩)
    refine ⟨_, rfl, ?_, ?_⟩
    · rw [List.map_append, List.nodup_append]
      refine ⟨hnd, by simp, ?_⟩
      intro a ha b hb e
      obtain ⟨⟨k, o⟩, hk, rfl⟩ := List.mem_map.1 ha
      simp only [List.map_cons, List.map_nil, List.mem_singleton] at hb
      subst hb
      simp only at e
      subst e
      exact hno o hk
    · intro k o
      rw [List.mem_append, List.mem_singleton, hmem]
      constructor
      · rintro (⟨r', hr', e1, e2⟩ | e)
        · refine ⟨r', List.mem_append_left _ hr', e1, ?_⟩
          rw [e2, slotOf, slotOf, codesOf_snoc, if_neg (fun h => hno' r' hr' ⟨h.1.symm, h.2.symm⟩), List.append_nil]
        · cases e
          refine ⟨r, List.mem_append_right _ (List.mem_singleton.2 rfl), rfl, ?_⟩
          rw [slotOf, codesOf_snoc, codesOf_nil hno', if_pos ⟨rfl, rfl⟩]
          rfl
      · rintro ⟨r', hr', e1, e2⟩
        rcases List.mem_append.1 hr' with hr' | hr'
        · refine Or.inl ⟨r', hr', e1, ?_⟩
          rw [e2, slotOf, slotOf, codesOf_snoc, if_neg (fun h => hno' r' hr' ⟨h.1.symm, h.2.symm⟩), List.append_nil]
        · cases List.mem_singleton.1 hr'
          refine Or.inr ?_
          rw [e1, e2, slotOf, codesOf_snoc, codesOf_nil hno', if_pos ⟨rfl, rfl⟩]
          rfl
  | some d =>
    obtain ⟨r', hr', e1, rfl⟩ := (hmem _ _).1 (lookup_some hlk)
    obtain ⟨ew, es⟩ := keyOf_inj h1 (htab r' hr') e1
    have hmt : matched r.std ((some (slotOf rs r')).elim [] (·.std)) = some true := by
      show matched r.std r'.std = some true
      rw [← es]
      exact hm r.std hp
    simp only [hmt]
    refine ⟨_, rfl, ?_, ?_⟩
    · have : (t.push (keyOf r.word r.std) (item types (r.code : Nat))).map (·.1) = t.map (·.1) := by
        unfold Table.push
        rw [List.map_map]
        apply List.map_congr_left
        intro e _
        simp only [Function.comp_apply]
        split <;> rfl
      rw [this]
      exact hnd
    · intro k o
      unfold Table.push
      rw [List.mem_map]
      constructor
      · rintro ⟨⟨k', o'⟩, hk', e⟩
        obtain ⟨q, hq, f1, f2⟩ := (hmem _ _).1 hk'
        subst f2
        refine ⟨q, List.mem_append_left _ hq, ?_⟩
        split at e
        · rename_i hkk
          cases e
          simp only at hkk
          refine ⟨f1, ?_⟩
          obtain ⟨a1, a2⟩ := keyOf_inj (htab q hq) h1 (f1.symm.trans hkk)
          simp only [Option.map_some, Option.some.injEq]
          rw [slotOf, slotOf, codesOf_snoc, if_pos ⟨a1.symm, a2.symm⟩]
          simp
        · rename_i hkk
          cases e
          refine ⟨f1, ?_⟩
          rw [slotOf, slotOf, codesOf_snoc, if_neg, List.append_nil]
          rintro ⟨a1, a2⟩
          exact hkk (by rw [f1, a1, a2])
      · rintro ⟨q, hq, f1, f2⟩
        have hq' : ∃ q' ∈ rs, q'.word = q.word ∧ q'.std = q.std := by
          rcases List.mem_append.1 hq with hq | hq
          · exact ⟨q, hq, rfl, rfl⟩
          · cases List.mem_singleton.1 hq
            exact ⟨r', hr', ew.symm, es.symm⟩
        obtain ⟨q', hq', g1, g2⟩ := hq'
        refine ⟨(keyOf q.word q.std, some (slotOf rs q)), (hmem _ _).2 ⟨q', hq', by rw [g1, g2], ?_⟩, ?_⟩
        · rw [slotOf, slotOf, g1, g2]
        · split
          · rename_i hkk
            simp only at hkk
            obtain ⟨a1, a2⟩ := keyOf_inj (g1 ▸ htab q' hq') h1 hkk
            rw [f1, f2]
            simp only [Option.map_some, Prod.mk.injEq, true_and, Option.some.injEq]
            rw [slotOf, slotOf, codesOf_snoc, if_pos ⟨a1.symm, a2.symm⟩]
            simp
          · rename_i hkk
            rw [f1, f2, slotOf, slotOf, codesOf_snoc, if_neg, List.append_nil]
            rintro ⟨a1, a2⟩
            exact hkk (by simp [a1, a2])

theorem readLine_other {nu : Numbers} {matched : Str → Str → Option Bool} {st : Table × Str} {l : Str}
    (h : (splitOn '\t' l).length < 4 ∨ (4 < (splitOn '\t' l).length ∧ (splitOn '\t' l).getLast? ≠ some [])) :
    readLine nu matched st l = some st := by
  have hlen : (tabFields l).length ≠ 4 := by
    rcases h with h | ⟨h, h'⟩
    · have := tabFields_length l; omega
    · rw [tabFields_last h']; omega
  unfold readLine
  split
  · rename_i e; rw [e] at hlen; exact absurd rfl hlen
  · rfl

theorem readLines_holds {nu : Numbers} (hnu : Exact nu) {matched : Str → Str → Option Bool} (hm : MatchesSelf matched)
    {ls : List Str} {rs : List Record} (h : HasRecords ls rs) : ∀ {pre : List Record} {t : Table} {out : Str},
    (∀ r ∈ pre, '\t' ∉ r.word) → (∀ r ∈ rs, ∀ c ∈ r.std, c ∉ special) → Holds pre t →
    ∃ t', readLines nu matched (t, out) ls = some (t', out) ∧ Holds (pre ++ rs) t' := by
  induction h with
  | nil => intro pre t out _ _ ht; exact ⟨t, rfl, by rwa [List.append_nil]⟩
  | @record l ls r rs hl _ ih =>
    intro pre t out htab hp ht
    obtain ⟨t', e, ht'⟩ := readLine_record hnu hm htab ht (out := out) hl (hp r List.mem_cons_self)
    obtain ⟨_, _, _, _, _, h1, _⟩ := tabFields_record hl
    obtain ⟨t2, e2, ht2⟩ := ih (pre := pre ++ [r]) (t := t') (out := out) (by
      intro q hq
      rcases List.mem_append.1 hq with hq | hq
      · exact htab q hq
      · rw [List.mem_singleton.1 hq]; exact h1) (fun q hq => hp q (List.mem_cons_of_mem _ hq)) ht'
    refine ⟨t2, ?_, ?_⟩
    · rw [readLines, e, Option.bind_some, e2]
    · rwa [List.append_assoc] at ht2
  | other hl _ ih =>
    intro pre t out htab hp ht
    obtain ⟨t2, e2, ht2⟩ := ih (out := out) htab hp ht
    exact ⟨t2, by rw [readLines, readLine_other hl, Option.bind_some, e2], ht2⟩

theorem records_tabs {ls : List Str} {rs : List Record} (h : HasRecords ls rs) :
    ∀ r ∈ rs, '\t' ∉ r.word ∧ '\t' ∉ r.std := by
  induction h with
  | nil => intro r hr; cases hr
  | record hl _ ih =>
    intro r hr
    rcases List.mem_cons.1 hr with rfl | hr
    · obtain ⟨_, _, _, _, _, h1, h2, _⟩ := tabFields_record hl
      exact ⟨h1, h2⟩
    · exact ih r hr
  | other _ _ ih => exact ih

theorem records_lines {ls : List Str} {rs : List Record} (h : HasRecords ls rs) {P : Char → Prop} (hP : ∀ l ∈ ls, ∀ c ∈ l, P c) :
    ∀ r ∈ rs, (∀ c ∈ r.word, P c) ∧ ∀ c ∈ r.std, P c := by
  induction h with
  | nil => intro r hr; cases hr
  | @record l ls r rs hl _ ih =>
    intro q hq
    rcases List.mem_cons.1 hq with rfl | hq
    · obtain ⟨n, c, h1, _⟩ := hl
      obtain ⟨p, ps, e, _, hj⟩ := splitOn_spec '\t' l
      rw [h1] at e
      rw [← e] at hj
      have hl := hP l List.mem_cons_self
      rw [hj] at hl
      constructor
      · intro x hx; exact hl x (by simp [joinWith, hx])
      · intro x hx; exact hl x (by simp [joinWith, hx])
    · exact ih (fun l hl => hP l (List.mem_cons_of_mem _ hl)) q hq
  | other _ _ ih => exact ih (fun l hl => hP l (List.mem_cons_of_mem _ hl))

/-! ### The order -/

theorem textLe_iff : ∀ (a b : Str), textLe a b = true ↔ a = b ∨ Before a b
  | [], [] => by simp [textLe]
  | [], c :: s => ⟨fun _ => Or.inr .shorter, fun _ => rfl⟩
  | c :: s, [] => by
    constructor
    · intro h; cases h
    · rintro (h | h) <;> cases h
  | c :: s, d :: t => by
    rw [textLe]
    by_cases h : c = d
    · subst h
      rw [if_pos rfl, textLe_iff s t]
      constructor
      · rintro (rfl | h)
        · exact Or.inl rfl
        · exact Or.inr (.later h)
      · rintro (h | h)
        · cases h; exact Or.inl rfl
        · cases h with
          | char h => exact absurd h (Nat.lt_irrefl _)
          | later h => exact Or.inr h
    · rw [if_neg h, decide_eq_true_eq]
      constructor
      · intro h; exact Or.inr (.char h)
      · rintro (h' | h')
        · cases h'; exact absurd rfl h
        · cases h' with
          | char h => exact h
          | later _ => exact absurd rfl h

theorem textLe_trans : ∀ (a b c : Str), textLe a b = true → textLe b c = true → textLe a c = true
  | [], _, _, _, _ => rfl
  | _ :: _, [], _, h, _ => by cases h
  | _ :: _, _ :: _, [], _, h => by cases h
  | x :: a, y :: b, z :: c, h1, h2 => by
    rw [textLe] at h1 h2 ⊢
    split at h1
    · rename_i e; subst e
      split at h2
      · rename_i e2; rw [if_pos e2]; exact textLe_trans a b c h1 h2
      · rename_i e2; rw [if_neg e2]; exact h2
    · rename_i e
      split at h2
      · rename_i e2; subst e2; rw [if_neg e]; exact h1
      · simp only [decide_eq_true_eq] at h1 h2
        have : x ≠ z := by rintro rfl; omega
        rw [if_neg this, decide_eq_true_eq]; omega

theorem textLe_total : ∀ (a b : Str), (textLe a b || textLe b a) = true
  | [], _ => rfl
  | _ :: _, [] => by simp [textLe]
  | x :: a, y :: b => by
    rw [textLe, textLe]
    by_cases h : x = y
    · subst h; simpa using textLe_total a b
    · rw [if_neg h, if_neg (Ne.symm h)]
      have : x.toNat ≠ y.toNat := fun e => h (Char.toNat_inj.1 e)
      simp only [Bool.or_eq_true, decide_eq_true_eq]
      omega

theorem place_perm (e : Str × Option Slot) : ∀ t : Table, (place e t).Perm (e :: t)
  | [] => .refl _
  | f :: t => by
    rw [place]
    split
    · exact .refl _
    · exact ((place_perm e t).cons f).trans (.swap _ _ _)

theorem sortKeys_perm : ∀ t : Table, (sortKeys t).Perm t
  | [] => .refl _
  | e :: t => (place_perm e _).trans ((sortKeys_perm t).cons e)

theorem place_sorted (e : Str × Option Slot) : ∀ t : Table, t.Pairwise (fun a b => textLe a.1 b.1 = true) →
    (place e t).Pairwise (fun a b => textLe a.1 b.1 = true)
  | [], _ => List.pairwise_singleton _ _
  | f :: t, h => by
    obtain ⟨h1, h2⟩ := List.pairwise_cons.1 h
    rw [place]
    split
    · rename_i hle
      refine List.pairwise_cons.2 ⟨?_, h⟩
      intro x hx
      rcases List.mem_cons.1 hx with rfl | hx
      · exact hle
      · exact textLe_trans _ _ _ hle (h1 x hx)
    · rename_i hle
      refine List.pairwise_cons.2 ⟨?_, place_sorted e t h2⟩
      intro x hx
      rcases List.mem_cons.1 ((place_perm e t).mem_iff.1 hx) with rfl | hx
      · have := textLe_total x.1 f.1
        rw [Bool.or_eq_true] at this
        exact this.resolve_left hle
      · exact h1 x hx

theorem sortKeys_sorted : ∀ t : Table, (sortKeys t).Pairwise (fun a b => textLe a.1 b.1 = true)
  | [] => .nil
  | e :: t => place_sorted e _ (sortKeys_sorted t)

/-! ### The text -/

theorem types_className : ∀ n : Nat, item types (n : Nat) = className n := by
  intro n
  by_cases h : n < 34
  · have : ∀ n ∈ List.range 34, item types (n : Nat) = className n := by decide +kernel
    exact this n (List.mem_range.2 h)
  · rw [item_nat, className, if_neg h, List.getElem?_eq_none (by simpa [types] using Nat.le_of_not_lt h)]
    rfl

theorem commas_eq : ∀ ws : List Str, commas ws = joinWith c!"," ws
  | [] => rfl
  | [w] => by simp [commas, joinWith]
  | w :: v :: ws => by
    rw [commas, commas_eq (v :: ws)]
    · simp [joinWith]
    · intro h; cases h

/-- The entry printed for what is held. -/
def toEntry (rs : List Record) (s : Slot) : Entry := ⟨s.word, s.std, codesOf rs s.word s.std⟩

theorem printSlots_eq (rs : List Record) : ∀ t : Table, (∀ e ∈ t, ∃ r ∈ rs, e.2 = some (slotOf rs r)) →
    printSlots (t.map (·.2)) = unlines ((t.filterMap (·.2)).map (fun s => (toEntry rs s).line))
  | [], _ => rfl
  | (k, o) :: t, h => by
    obtain ⟨r, _, e⟩ := h _ List.mem_cons_self
    simp only at e
    subst e
    have ih := printSlots_eq rs t (fun e he => h e (List.mem_cons_of_mem _ he))
    rw [List.map_cons, printSlots, ih, List.filterMap_cons]
    simp only [List.map_cons, unlines, List.flatMap_cons]
    congr 1
    have : commas (slotOf rs r).classes = joinWith c!"," ((toEntry rs (slotOf rs r)).codes.map className) := by
      rw [commas_eq]
      simp only [slotOf, toEntry]
      congr 1
      exact List.map_congr_left (fun n _ => types_className n)
    rw [Entry.line, this]
    simp [toEntry, slotOf]

theorem holds_collected {rs : List Record} {t : Table} (ht : Holds rs t) :
    Collected rs (((sortKeys t).filterMap (·.2)).map (toEntry rs)) := by
  obtain ⟨hnd, hmem⟩ := ht
  have hperm := sortKeys_perm t
  have hmem' : ∀ e, e ∈ ((sortKeys t).filterMap (·.2)).map (toEntry rs) ↔
      ∃ r ∈ rs, e = ⟨r.word, r.std, codesOf rs r.word r.std⟩ := by
    intro e
    rw [List.mem_map]
    constructor
    · rintro ⟨s, hs, rfl⟩
      obtain ⟨⟨k, o⟩, hk, e⟩ := List.mem_filterMap.1 hs
      obtain ⟨r, hr, _, e2⟩ := (hmem k o).1 (hperm.mem_iff.1 hk)
      simp only at e
      rw [e2] at e
      cases e
      exact ⟨r, hr, rfl⟩
    · rintro ⟨r, hr, rfl⟩
      exact ⟨slotOf rs r, List.mem_filterMap.2 ⟨(keyOf r.word r.std, some (slotOf rs r)),
        hperm.mem_iff.2 ((hmem _ _).2 ⟨r, hr, rfl, rfl⟩), rfl⟩, rfl⟩
  refine ⟨?_, ?_, ?_⟩
  · have hs := sortKeys_sorted t
    have hn : (sortKeys t).Pairwise (fun a b => a.1 ≠ b.1) := by
      have := (hperm.map (·.1)).nodup_iff.2 hnd
      exact List.pairwise_map.1 this
    rw [List.pairwise_map, List.pairwise_filterMap]
    refine List.Pairwise.imp_of_mem ?_ (hs.and hn)
    intro a b ha hb hab s hs s' hs'
    obtain ⟨r, hr, e1, e2⟩ := (hmem a.1 a.2).1 (hperm.mem_iff.1 ha)
    obtain ⟨r', hr', e1', e2'⟩ := (hmem b.1 b.2).1 (hperm.mem_iff.1 hb)
    rw [e2] at hs; cases hs
    rw [e2'] at hs'; cases hs'
    rcases (textLe_iff _ _).1 hab.1 with h | h
    · exact absurd h hab.2
    · rw [e1, e1'] at h; exact h
  · intro w s
    constructor
    · rintro ⟨e, he, rfl, rfl⟩
      obtain ⟨r, hr, rfl⟩ := (hmem' e).1 he
      exact ⟨r, hr, rfl, rfl⟩
    · rintro ⟨r, hr, rfl, rfl⟩
      exact ⟨_, (hmem' _).2 ⟨r, hr, rfl⟩, rfl, rfl⟩
  · intro e he
    obtain ⟨r, hr, rfl⟩ := (hmem' e).1 he
    rfl

theorem convertLex_eq {nu : Numbers} (hnu : Exact nu) {matched : Str → Str → Option Bool} (hm : MatchesSelf matched)
    {ls : List Str} {rs : List Record} (h : HasRecords ls rs) (hp : ∀ r ∈ rs, ∀ c ∈ r.std, c ∉ special) :
    ∃ es, Collected rs es ∧ convertLex nu matched ls = some (unlines (lexHeader :: es.map Entry.line)) := by
  have h0 : Holds [] [] := ⟨List.nodup_nil, fun k o => by simp⟩
  obtain ⟨t, e, ht⟩ := readLines_holds hnu hm h (pre := []) (t := []) (out := []) (by intro r hr; cases hr) hp h0
  rw [List.nil_append] at ht
  refine ⟨_, holds_collected ht, ?_⟩
  unfold convertLex
  rw [e, Option.map_some]
  congr 1
  have hperm := sortKeys_perm t
  rw [printSlots_eq rs]
  · simp [unlines, List.map_map, Function.comp_def]
  · intro e he
    obtain ⟨k, o⟩ := e
    obtain ⟨r, hr, _, e2⟩ := (ht.2 k o).1 (hperm.mem_iff.1 he)
    exact ⟨r, hr, e2⟩

end Pagc
end AS
