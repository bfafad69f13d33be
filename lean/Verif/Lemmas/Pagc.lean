import Verif.Spec.Pagc
import Verif.Lemmas.GrammarPrint
/-
The lines of a PAGC file and the lines made of them.
-/
namespace AS
namespace Pagc
open Rule
variable {F : Type}

/-! ### Words -/

theorem words_space {c : Char} {s : Str} (h : isCSpace c = true) : words (c :: s) = words s := by
  rw [words.eq_def]; simp [whiteSpace_eq, h]

theorem blanks_eq : ∀ (s w : Str), (∀ c ∈ w, isCSpace c = false) → blanks w s = words (w.reverse ++ s)
  | [], w, hw => by
    cases w with
    | nil => rfl
    | cons c w =>
      have := words_run (c :: w).reverse [] (by simp) (fun d hd => hw d (List.mem_reverse.1 hd)) (by intro c cs h; cases h)
      rw [this]
      rfl
  | c :: s, w, hw => by
    rw [blanks]
    split
    · rename_i hc
      have h1 := words_space (s := s) hc
      cases w with
      | nil =>
        rw [if_pos (by rfl), blanks_eq s [] (by intro c h; cases h)]
        exact h1.symm
      | cons d w =>
        rw [if_neg (by simp), blanks_eq s [] (by intro c h; cases h),
          words_run (d :: w).reverse (c :: s) (by simp) (fun e he => hw e (List.mem_reverse.1 he)) (by
            intro e es h
            rw [← (List.cons.inj h).1]; exact hc), h1]
        rfl
    · rename_i hc
      rw [blanks_eq s (c :: w)]
      · simp
      · intro d hd
        rcases List.mem_cons.1 hd with rfl | hd
        · simpa using hc
        · exact hw d hd

/-- The first word of a text that does not begin with a blank. -/
theorem words_first : ∀ (s : Str) (c : Char), isCSpace c = false →
    ∃ w r, c :: s = w ++ r ∧ words (c :: s) = w :: words r ∧ w ≠ [] ∧ (∀ d ∈ w, isCSpace d = false) ∧
      ∀ d, r.head? = some d → isCSpace d = true
  | [], c, hc => ⟨[c], [], rfl, by simp [words, whiteSpace_eq, hc], by simp, by simpa using hc, by intro d h; cases h⟩
  | d :: s, c, hc => by
    cases hd : isCSpace d with
    | true =>
      refine ⟨[c], d :: s, rfl, ?_, by simp, by simpa using hc, ?_⟩
      · exact words_run [c] (d :: s) (by simp) (by simpa using hc) (by
          intro e es h; rw [← (List.cons.inj h).1]; exact hd)
      · intro e he; cases he; exact hd
    | false =>
      obtain ⟨w, r, e, hw, h1, h2, h3⟩ := words_first s d hd
      refine ⟨c :: w, r, by rw [e]; rfl, ?_, by simp, ?_, h3⟩
      · rw [e]
        refine words_run (c :: w) r (by simp) ?_ ?_
        · intro x hx
          rcases List.mem_cons.1 hx with rfl | hx
          · exact hc
          · exact h2 x hx
        · intro x xs hr; exact h3 x (by rw [hr]; rfl)
      · intro x hx
        rcases List.mem_cons.1 hx with rfl | hx
        · exact hc
        · exact h2 x hx

theorem words_dropWhile : ∀ (s : Str), words (s.dropWhile isCSpace) = words s
  | [] => rfl
  | c :: s => by
    rw [List.dropWhile_cons]
    split
    · rename_i h; rw [words_dropWhile s, words_space h]
    · rfl

theorem dropWhile_head {p : Char → Bool} : ∀ (s : Str) (c : Char), (s.dropWhile p).head? = some c → p c = false
  | [], c, h => by cases h
  | d :: s, c, h => by
    rw [List.dropWhile_cons] at h
    split at h
    · exact dropWhile_head s c h
    · rename_i hd; cases h; simpa using hd

theorem dropWhile_all_append {p : Char → Bool} (w r : Str) (hw : ∀ c ∈ w, p c = true) (hr : ∀ c, r.head? = some c → p c = false) :
    (w ++ r).dropWhile p = r := by
  rw [List.dropWhile_append_of_pos hw]
  cases r with
  | nil => rfl
  | cons c r => rw [List.dropWhile_cons, if_neg (by simp [hr c rfl])]

theorem digit_not_space {c : Char} (h : c.isDigit = true) : isCSpace c = false := by
  cases hc : isCSpace c with
  | false => rfl
  | true =>
    simp only [isCSpace, Bool.or_eq_true, decide_eq_true_eq] at hc
    rcases hc with ((((rfl | rfl) | rfl) | rfl) | rfl) | rfl <;> exact absurd h (by decide)

theorem number_ne {w : Str} (h : Number w) : w ≠ c!"-1" := by
  rintro rfl
  exact absurd (h.2.1 '-' List.mem_cons_self) (by decide)

/-! ### The lines read -/

theorem accepted_ruleLine {l w v : Str} {ws : List Str} {c : Char} (hl : l.head? = some c) (hc : isCSpace c = false)
    (hws : words l = w :: v :: ws) (hne : ws ≠ []) (hw : ∀ d ∈ w, d.isDigit = true) (hv : ∀ d ∈ v, d.isDigit = true ∨ d = '-') :
    accepted l = true := by
  cases l with
  | nil => cases hl
  | cons c' l =>
    cases hl
    obtain ⟨w', r, e, h1, h2, h3, h4⟩ := words_first l c hc
    rw [h1, List.cons.injEq] at hws
    obtain ⟨rfl, hr⟩ := hws
    have ha : (c :: l).dropWhile Char.isDigit = r := by
      rw [e]
      refine dropWhile_all_append _ _ hw ?_
      intro d hd
      cases hdd : d.isDigit with
      | false => rfl
      | true => exact absurd (h4 d hd) (by rw [digit_not_space hdd]; simp)
    have hb := dropWhile_head (p := isCSpace) r
    rw [← words_dropWhile] at hr
    cases hr' : r.dropWhile isCSpace with
    | nil => rw [hr'] at hr; simp [words] at hr
    | cons d r2 =>
      rw [hr'] at hr hb
      obtain ⟨v', r3, e', k1, k2, k3, k4⟩ := words_first r2 d (hb d rfl)
      rw [k1, List.cons.injEq] at hr
      obtain ⟨rfl, hr3⟩ := hr
      have hcc : (d :: r2).dropWhile (fun c => c.isDigit || c = '-') = r3 := by
        rw [e']
        refine dropWhile_all_append _ _ ?_ ?_
        · intro x hx
          have := hv x hx
          simpa using this
        · intro x hx
          have hs := k4 x hx
          have h1 : x.isDigit = false := by
            cases hxd : x.isDigit with
            | false => rfl
            | true => rw [digit_not_space hxd] at hs; cases hs
          have h2 : x ≠ '-' := by rintro rfl; exact absurd hs (by decide)
          simp [h1, h2]
      unfold accepted
      simp only [ha, hr', hcc]
      have e1 : r ≠ c :: l := by
        rw [e]; intro hh
        have h5 := congrArg List.length hh
        have h6 : 0 < w'.length := List.length_pos_iff.2 h2
        rw [List.length_append] at h5
        omega
      have e2 : d :: r2 ≠ r := by
        intro hh
        have hrc : isCSpace d = true := h4 d (by rw [← hh]; rfl)
        rw [hb d rfl] at hrc; cases hrc
      have e3 : r3 ≠ d :: r2 := by
        rw [e']; intro hh
        have h5 := congrArg List.length hh
        have h6 : 0 < v'.length := List.length_pos_iff.2 k2
        rw [List.length_append] at h5
        omega
      have e4 : r3.head?.any isCSpace = true := by
        cases r3 with
        | nil => simp [words] at hr3; exact absurd hr3 hne
        | cons x r3 => simpa using k4 x rfl
      simp [e1, e2, e3, e4]

theorem runs_sep (o : Bool) : ∀ (a : List Str) (fresh : Bool) (rest : List Str), a ≠ [] → (∀ w ∈ a, w ≠ c!"-1") → rest ≠ [] →
    runs o fresh (a ++ c!"-1" :: rest) = a :: runs o true rest
  | [], _, _, h, _, _ => absurd rfl h
  | [w], fresh, v :: rest, _, hw, _ => by
    rw [List.singleton_append, runs, if_neg (fun h => hw w List.mem_cons_self h.1), runs, if_pos ⟨rfl, rfl⟩]
  | [_], _, [], _, _, h => absurd rfl h
  | w :: u :: a, fresh, rest, _, hw, hr => by
    have ih := runs_sep o (u :: a) false rest (by simp) (fun x hx => hw x (List.mem_cons_of_mem _ hx)) hr
    rw [List.cons_append] at ih
    rw [List.cons_append, List.cons_append, runs, if_neg (fun h => hw w List.mem_cons_self h.1), ih]

/-- What is kept of a rule. -/
def kept (r : PagcRule) : Kept :=
  ⟨r.ins.map (fun n => item intypes (n : Nat)), r.outs.map (fun n => item outtypes (n : Nat)), twentieth r.score⟩

theorem fields_ruleLine {l : Str} {a b : List Str} {t s : Str} (hws : words l = a ++ c!"-1" :: (b ++ [c!"-1", t, s])) (ha : a ≠ [])
    (hb : b ≠ []) (hn : ∀ w ∈ a ++ b ++ [t, s], w ≠ c!"-1") : fields l = [a, b, [t, s]] := by
  have ht := hn t (by simp)
  have hs := hn s (by simp)
  have key : ∀ o, runs o false (words l) = [a, b, [t, s]] := by
    intro o
    rw [hws, runs_sep o a false _ ha (fun w hw => hn w (by simp [hw])) (by simp),
      runs_sep o b true [t, s] hb (fun w hw => hn w (by simp [hw])) (by simp)]
    rw [runs, if_neg (fun h => ht h.1), runs, if_neg (fun h => hs h.1)]
  unfold fields
  rw [blanks_eq l [] (by intro c h; cases h), List.reverse_nil, List.nil_append, key]
  simp

theorem keep_ruleLine {nu : Numbers} (hnu : Exact nu) {l : Str} {r : PagcRule} (h : RuleLine l r) :
    (r.Sound → keep nu l = some ((r.type : Int), kept r)) ∧ (¬ r.Sound → keep nu l = none) := by
  obtain ⟨a, b, t, s, hws, ha, hb, hnum, ⟨c, hc, hcs⟩, rfl⟩ := h
  have hf := fields_ruleLine hws ha hb (fun w hw => number_ne (hnum w hw))
  have hacc : accepted l = true := by
    cases a with
    | nil => exact absurd rfl ha
    | cons w a =>
      cases a with
      | nil => exact accepted_ruleLine hc hcs hws (by simp) ((hnum w (by simp)).2.1) (by decide)
      | cons v a =>
        exact accepted_ruleLine hc hcs hws (by simp) ((hnum w (by simp)).2.1) (fun d hd => Or.inl ((hnum v (by simp)).2.1 d hd))
  have hint : ∀ w ∈ a ++ b ++ [t, s], nu.int w = decimal w := fun w hw => (hnu w (hnum w hw)).1
  have e1 : a.map (fun w => item intypes (nu.int w)) = (a.map decimal).map (fun n => item intypes (n : Nat)) := by
    rw [List.map_map]
    exact List.map_congr_left (fun w hw => by rw [hint w (by simp [hw])]; rfl)
  have e2 : b.map (fun w => item outtypes (nu.int w)) = (b.map decimal).map (fun n => item outtypes (n : Nat)) := by
    rw [List.map_map]
    exact List.map_congr_left (fun w hw => by rw [hint w (by simp [hw])]; rfl)
  unfold keep
  simp only [hacc, if_true, hf, List.getElem?_cons_zero, Option.getD_some, List.getElem?_cons_succ]
  rw [hint t (by simp), (hnu s (hnum s (by simp))).2, e1, e2]
  simp only [PagcRule.Sound, List.length_map]
  constructor
  · rintro ⟨h1, h2⟩
    rw [if_neg (by simpa using h1), if_neg (by omega)]
    rfl
  · intro hns
    split
    · rfl
    · rename_i h1
      rw [if_pos]
      have : ¬ decimal t < 5 := fun h => hns ⟨by simpa using h1, h⟩
      omega

theorem keep_other {nu : Numbers} {l : Str} (h : ∀ c, l.head? = some c → c.isDigit = false) : keep nu l = none := by
  unfold keep
  rw [if_neg]
  have : l.dropWhile Char.isDigit = l := by
    cases l with
    | nil => rfl
    | cons c l => rw [List.dropWhile_cons, if_neg (by simp [h c rfl])]
  simp [accepted, this]

theorem reads_kept {nu : Numbers} (hnu : Exact nu) {ls : List Str} {rs : List PagcRule} (h : HasRules ls rs) :
    ls.filterMap (keep nu) = rs.map (fun r => ((r.type : Int), kept r)) := by
  induction h with
  | nil => rfl
  | rule hl hs _ ih => rw [List.filterMap_cons, (keep_ruleLine hnu hl).1 hs, ih]; rfl
  | unsound hl hs _ ih => rw [List.filterMap_cons, (keep_ruleLine hnu hl).2 hs, ih]
  | other hl _ ih => rw [List.filterMap_cons, keep_other hl, ih]

theorem reads_sound {ls : List Str} {rs : List PagcRule} (h : HasRules ls rs) : ∀ r ∈ rs, r.type < 5 ∧ r.score < 2 * 10 ^ 14 := by
  induction h with
  | nil => intro r hr; cases hr
  | rule hl hs _ ih =>
    intro r hr
    rcases List.mem_cons.1 hr with rfl | hr
    · refine ⟨hs.2, ?_⟩
      obtain ⟨a, b, t, s, _, _, _, hnum, _, rfl⟩ := hl
      exact (hnum s (by simp)).2.2
    · exact ih r hr
  | unsound _ _ _ ih => exact ih
  | other _ _ ih => exact ih

/-! ### The order -/

/-- The rules of one type in the order they are printed. -/
def ordered (rs : List PagcRule) (i : Nat) : List PagcRule :=
  (rs.filter (fun r => r.type = i)).mergeSort (fun a b => decide (b.ins.length ≤ a.ins.length))

theorem sect_item_inj : ∀ i < 5, ∀ j < 5, item sect (i : Nat) = item sect (j : Nat) → i = j := by
  have : ∀ i ∈ List.range 5, ∀ j ∈ List.range 5, item sect (i : Nat) = item sect (j : Nat) → i = j := by decide
  intro i hi j hj
  exact this i (List.mem_range.2 hi) j (List.mem_range.2 hj)

theorem section_eq {rs : List PagcRule} (h : ∀ r ∈ rs, r.type < 5) {i : Nat} (hi : i < 5) :
    section_ (rs.map (fun r => ((r.type : Int), kept r))) i = (ordered rs i).map kept := by
  have e : ((rs.map (fun r => ((r.type : Int), kept r))).filter (fun k => item sect k.1 = item sect i)).map (·.2) =
      (rs.filter (fun r => r.type = i)).map kept := by
    rw [List.filter_map, List.map_map]
    have : rs.filter ((fun k : Int × Kept => decide (item sect k.1 = item sect i)) ∘ fun r => ((r.type : Int), kept r)) =
        rs.filter (fun r => r.type = i) := by
      apply List.filter_congr
      intro r hr
      simp only [Function.comp_apply, decide_eq_decide]
      exact ⟨sect_item_inj r.type (h r hr) i hi, fun e => by rw [e]⟩
    rw [this]
    rfl
  rw [section_, e, ordered]
  exact (List.map_mergeSort (fun a _ b _ => by simp [kept])).symm

theorem ordered_inOrder (rs : List PagcRule) (i : Nat) : InOrder rs i (ordered rs i) := by
  have tr : ∀ a b c : PagcRule, decide (b.ins.length ≤ a.ins.length) = true → decide (c.ins.length ≤ b.ins.length) = true →
      decide (c.ins.length ≤ a.ins.length) = true := by
    intro a b c h1 h2
    simp only [decide_eq_true_eq] at *
    omega
  have to : ∀ a b : PagcRule, (decide (b.ins.length ≤ a.ins.length) || decide (a.ins.length ≤ b.ins.length)) = true := by
    intro a b
    simp only [Bool.or_eq_true, decide_eq_true_eq]
    omega
  constructor
  · refine List.Pairwise.imp ?_ (List.pairwise_mergeSort tr to _)
    intro a b h; simpa using h
  · intro k
    have hsub : List.Sublist ((rs.filter (fun r => r.type = i)).filter (fun r => r.ins.length = k)) (ordered rs i) := by
      refine List.sublist_mergeSort tr to ?_ List.filter_sublist
      rw [List.pairwise_iff_forall_sublist]
      intro a b hab
      have h1 := (List.mem_filter.1 (hab.subset (List.mem_cons_self))).2
      have h2 := (List.mem_filter.1 (hab.subset (List.mem_cons_of_mem _ List.mem_cons_self))).2
      simp only [decide_eq_true_eq] at *
      omega
    have hp := List.Sublist.filter (fun r : PagcRule => decide (r.ins.length = k)) hsub
    rw [List.filter_filter] at hp
    simp only [Bool.and_self] at hp
    have hl := ((List.mergeSort_perm (rs.filter (fun r => r.type = i))
      (fun a b => decide (b.ins.length ≤ a.ins.length))).filter (fun r => decide (r.ins.length = k))).length_eq
    rw [← hp.eq_of_length hl.symm, List.filter_filter]
    apply List.filter_congr
    intro r _
    rw [Bool.decide_and, Bool.and_comm]

end Pagc
end AS
