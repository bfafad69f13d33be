import Verif.Spec.Grammar
import Verif.Lemmas.Rule
/-
The line recognisers of the grammar loader decide the specified line forms.
-/
namespace AS
variable (ct : CharTables)

theorem dropWhile_blank {a : Str} (ha : Blank ct a) (c : Char) (r : Str) (hc : ct.isSpace c = false) :
    (a ++ c :: r).dropWhile ct.isSpace = c :: r := by
  induction a with
  | nil => simp [hc]
  | cons x xs ih =>
    have hx : ct.isSpace x = true := ha x (List.mem_cons_self ..)
    rw [List.cons_append, List.dropWhile_cons, if_pos hx]
    exact ih (fun y hy => ha y (List.mem_cons_of_mem _ hy))

theorem dropWhile_split (l : Str) : ∃ a, Blank ct a ∧ l = a ++ l.dropWhile ct.isSpace :=
  ⟨l.takeWhile ct.isSpace, fun _ hc => mem_takeWhile _ _ _ hc, (List.takeWhile_append_dropWhile).symm⟩

theorem dropWhile_head {l : Str} {c : Char} {r : Str} (h : l.dropWhile ct.isSpace = c :: r) : ct.isSpace c = false := by
  induction l with
  | nil => cases h
  | cons x xs ih =>
    rw [List.dropWhile_cons] at h
    split at h
    · exact ih h
    · have := (List.cons.inj h).1
      subst this
      simpa using ‹¬ ct.isSpace x = true›

theorem isCommentLine_iff (l : Str) : isCommentLine ct l = true ↔ IsComment ct l := by
  unfold isCommentLine IsComment
  obtain ⟨a, ha, hl⟩ := dropWhile_split ct l
  cases hd : l.dropWhile ct.isSpace with
  | nil =>
    rw [hd, List.append_nil] at hl
    simp [hl, ha]
  | cons c r =>
    rw [hd] at hl
    have hc := dropWhile_head ct hd
    simp only [beq_iff_eq]
    constructor
    · rintro rfl
      exact Or.inr ⟨a, r, hl, ha⟩
    · rintro (h | ⟨a', b, h, ha'⟩)
      · have := h c (by rw [hl]; simp)
        rw [hc] at this; cases this
      · rw [h, dropWhile_blank ct ha' '#' b ct.space_hash] at hd
        exact (List.cons.inj hd).1.symm

theorem sectionName?_iff (l n : Str) : sectionName? ct l = some n ↔ IsHeader ct l n := by
  unfold IsHeader
  constructor
  · intro h
    unfold sectionName? at h
    obtain ⟨a, ha, hl⟩ := dropWhile_split ct l
    cases hd : l.dropWhile ct.isSpace with
    | nil => simp [hd] at h
    | cons c cs =>
      simp only [hd] at h
      split at h
      · subst c
        obtain ⟨b, hb, hcs⟩ := dropWhile_split ct cs.reverse
        cases hr : cs.reverse.dropWhile ct.isSpace with
        | nil => simp [hr] at h
        | cons d ds =>
          simp only [hr] at h
          split at h
          · rename_i hcond
            obtain ⟨rfl, hne⟩ := hcond
            simp only [Option.some.injEq] at h
            subst h
            refine ⟨by simpa using hne, a, b.reverse, ?_, ha, ?_⟩
            · rw [hd] at hl
              rw [hr] at hcs
              have : cs = ds.reverse ++ ']' :: b.reverse := by
                have := congrArg List.reverse hcs
                simpa using this
              rw [hl, this]
              simp
            · intro c hc
              exact hb c (List.mem_reverse.1 hc)
          · cases h
      · cases h
  · rintro ⟨hne, a, b, hl, ha, hb⟩
    unfold sectionName?
    have h1 : l.dropWhile ct.isSpace = '[' :: (n ++ ']' :: b) := by
      rw [hl, List.append_assoc]
      exact dropWhile_blank ct ha '[' _ ct.space_open
    have h2 : (n ++ ']' :: b).reverse.dropWhile ct.isSpace = ']' :: n.reverse := by
      have : (n ++ ']' :: b).reverse = b.reverse ++ ']' :: n.reverse := by simp
      rw [this]
      refine dropWhile_blank ct ?_ ']' _ ct.space_close
      intro c hc
      exact hb c (List.mem_reverse.1 hc)
    simp only [h1, h2, ↓reduceIte]
    rw [if_pos ⟨trivial, by simpa using hne⟩, List.reverse_reverse]

/-- Recursive form of the reference lists. -/
inductive RefTail : Str → List Str → Prop
  | stop {b : Str} : Blank ct b → RefTail b []
  | ref {g w s : Str} {ns : List Str} : Blank ct g → w ≠ [] → (∀ c ∈ w, isRefChar ct c = true) →
      RefTail s ns → RefTail (g ++ '@' :: (w ++ s)) (w :: ns)

theorem isRefs_iff (l : Str) (ns : List Str) : IsRefs ct l ns ↔ ns ≠ [] ∧ RefTail ct l ns := by
  have key : ∀ (ns : List Str) (l : Str),
      ((∀ n ∈ ns, n ≠ [] ∧ ∀ c ∈ n, isRefChar ct c = true) ∧
        ∃ (gaps : List Str) (b : Str), gaps.length = ns.length ∧ (∀ g ∈ gaps, Blank ct g) ∧ Blank ct b ∧
          l = (List.zipWith (fun g n => g ++ '@' :: n) gaps ns).flatten ++ b) ↔ RefTail ct l ns := by
    intro ns
    induction ns with
    | nil =>
      intro l
      constructor
      · rintro ⟨_, gaps, b, _, _, hb, rfl⟩
        simpa using RefTail.stop hb
      · intro h
        cases h with
        | stop hb => exact ⟨by simp, [], l, rfl, by simp, hb, by simp⟩
    | cons n ns ih =>
      intro l
      constructor
      · rintro ⟨hn, gaps, b, hlen, hg, hb, rfl⟩
        cases gaps with
        | nil => simp at hlen
        | cons g gaps =>
          have := (ih ((List.zipWith (fun g n => g ++ '@' :: n) gaps ns).flatten ++ b)).1
            ⟨fun x hx => hn x (List.mem_cons_of_mem _ hx), gaps, b, by simpa using hlen,
              fun x hx => hg x (List.mem_cons_of_mem _ hx), hb, rfl⟩
          have h2 := RefTail.ref (hg g (List.mem_cons_self ..)) (hn n (List.mem_cons_self ..)).1
            (hn n (List.mem_cons_self ..)).2 this
          simpa using h2
      · intro h
        cases h with
        | @ref g _ s _ hg hw1 hw2 ht =>
          obtain ⟨h1, gaps, b, h2, h3, h4, h5⟩ := (ih _).2 ht
          refine ⟨?_, g :: gaps, b, by simp [h2], ?_, h4, ?_⟩
          · intro x hx
            rcases List.mem_cons.1 hx with rfl | hx
            · exact ⟨hw1, hw2⟩
            · exact h1 x hx
          · intro x hx
            rcases List.mem_cons.1 hx with rfl | hx
            · exact hg
            · exact h3 x hx
          · rw [h5]; simp
  exact and_congr_right fun _ => key ns l

variable {ct}

theorem refTail_blank {c : Char} {s : Str} {ns : List Str} (hc : ct.isSpace c = true) (h : RefTail ct s ns) :
    RefTail ct (c :: s) ns := by
  have hb : ∀ g, Blank ct g → Blank ct (c :: g) := by
    intro g hg x hx
    rcases List.mem_cons.1 hx with rfl | hx
    · exact hc
    · exact hg x hx
  cases h with
  | stop h => exact .stop (hb _ h)
  | ref h1 h2 h3 h4 =>
    rw [← List.cons_append]
    exact .ref (hb _ h1) h2 h3 h4

theorem refTail_ref {w s : Str} {ns : List Str} (h1 : w ≠ []) (h2 : ∀ c ∈ w, isRefChar ct c = true)
    (h : RefTail ct s ns) : RefTail ct ('@' :: (w ++ s)) (w :: ns) := by
  have := RefTail.ref (ct := ct) (g := []) (by intro c hc; cases hc) h1 h2 h
  simpa using this

theorem space_not_ref {c : Char} (h : ct.isSpace c = true) : isRefChar ct c = false ∧ c ≠ '@' := by
  refine ⟨?_, ?_⟩
  · unfold isRefChar
    rw [ct.space_not_word c h]
    have : c ≠ '_' := by
      rintro rfl
      rw [ct.space_underscore] at h; cases h
    simpa using this
  · rintro rfl
    rw [ct.space_at] at h; cases h

theorem at_not_ref : isRefChar ct '@' = false := by
  unfold isRefChar
  rw [ct.word_at]; decide

theorem isMetaFrom_sound : ∀ (s : Str),
    (isMetaFrom ct 0 s = true → ∃ ns, ns ≠ [] ∧ RefTail ct s ns ∧ metaRefsFrom ct none s = ns) ∧
    (isMetaFrom ct 1 s = true → ∃ w s' ns, s = w ++ s' ∧ w ≠ [] ∧ (∀ c ∈ w, isRefChar ct c = true) ∧ RefTail ct s' ns ∧
      metaRefsFrom ct (some []) s = w :: ns) ∧
    (isMetaFrom ct 2 s = true → ∃ w s' ns, s = w ++ s' ∧ (∀ c ∈ w, isRefChar ct c = true) ∧ RefTail ct s' ns ∧
      ∀ w0, w0 ≠ [] → metaRefsFrom ct (some w0) s = (w0 ++ w) :: ns) ∧
    (isMetaFrom ct 3 s = true → ∃ ns, RefTail ct s ns ∧ metaRefsFrom ct none s = ns)
  | [] => by
    refine ⟨by simp [isMetaFrom], by simp [isMetaFrom], ?_, ?_⟩
    · intro _
      refine ⟨[], [], [], rfl, (by intro c hc; cases hc), .stop (by intro c hc; cases hc), ?_⟩
      intro w0 h0
      simp [metaRefsFrom, h0]
    · intro _
      exact ⟨[], .stop (by intro c hc; cases hc), rfl⟩
  | c :: cs => by
    obtain ⟨h0, h1, h2, h3⟩ := isMetaFrom_sound cs
    have at_case : c = '@' → isMetaFrom ct 1 cs = true →
        ∃ ns, ns ≠ [] ∧ RefTail ct (c :: cs) ns ∧ metaRefsFrom ct none (c :: cs) = ns := by
      rintro rfl h
      obtain ⟨w, s', ns, rfl, e1, e2, e3, e4⟩ := h1 h
      refine ⟨w :: ns, by simp, refTail_ref e1 e2 e3, ?_⟩
      simp [metaRefsFrom, e4]
    refine ⟨?_, ?_, ?_, ?_⟩
    · intro h
      rw [isMetaFrom] at h
      split at h
      · rename_i hs
        obtain ⟨ns, e1, e2, e3⟩ := h0 h
        refine ⟨ns, e1, refTail_blank hs e2, ?_⟩
        simp [metaRefsFrom, (space_not_ref hs).2, e3]
      · split at h
        · exact at_case ‹_› h
        · cases h
    · intro h
      rw [isMetaFrom] at h
      split at h
      · rename_i hr
        obtain ⟨w, s', ns, rfl, e1, e2, e3⟩ := h2 h
        refine ⟨c :: w, s', ns, rfl, by simp, ?_, e2, ?_⟩
        · intro x hx
          rcases List.mem_cons.1 hx with rfl | hx
          · exact hr
          · exact e1 x hx
        · rw [metaRefsFrom, if_pos hr, List.nil_append, e3 [c] (by simp)]
          rfl
      · cases h
    · intro h
      rw [isMetaFrom] at h
      split at h
      · rename_i hr
        obtain ⟨w, s', ns, rfl, e1, e2, e3⟩ := h2 h
        refine ⟨c :: w, s', ns, rfl, ?_, e2, ?_⟩
        · intro x hx
          rcases List.mem_cons.1 hx with rfl | hx
          · exact hr
          · exact e1 x hx
        · intro w0 hw0
          rw [metaRefsFrom, if_pos hr, e3 (w0 ++ [c]) (by simp)]
          simp
      · rename_i hr
        split at h
        · rename_i hc
          obtain ⟨ns, e1, e2, e3⟩ := at_case hc h
          refine ⟨[], c :: cs, ns, rfl, (by intro c hc; cases hc), e2, ?_⟩
          intro w0 hw0
          rw [metaRefsFrom, if_neg hr, if_neg hw0, if_pos hc]
          rw [metaRefsFrom, if_pos hc] at e3
          rw [e3]; simp
        · split at h
          · rename_i hs
            obtain ⟨ns, e1, e2⟩ := h3 h
            refine ⟨[], c :: cs, ns, rfl, (by intro c hc; cases hc), refTail_blank hs e1, ?_⟩
            intro w0 hw0
            rw [metaRefsFrom, if_neg hr, if_neg hw0, if_neg (space_not_ref hs).2, e2]
            simp
          · cases h
    · intro h
      rw [isMetaFrom] at h
      split at h
      · rename_i hs
        obtain ⟨ns, e2, e3⟩ := h3 h
        refine ⟨ns, refTail_blank hs e2, ?_⟩
        simp [metaRefsFrom, (space_not_ref hs).2, e3]
      · split at h
        · obtain ⟨ns, _, e⟩ := at_case ‹_› h
          exact ⟨ns, e⟩
        · cases h

theorem isMetaFrom_blank : ∀ (g s : Str), Blank ct g →
    isMetaFrom ct 0 (g ++ s) = isMetaFrom ct 0 s ∧ isMetaFrom ct 3 (g ++ s) = isMetaFrom ct 3 s ∧
    metaRefsFrom ct none (g ++ s) = metaRefsFrom ct none s
  | [], s, _ => by simp
  | c :: g, s, h => by
    have hc := h c (List.mem_cons_self ..)
    have ih := isMetaFrom_blank g s (fun x hx => h x (List.mem_cons_of_mem _ hx))
    rw [List.cons_append, isMetaFrom, isMetaFrom, metaRefsFrom, if_pos hc, if_pos hc, if_neg (space_not_ref hc).2]
    exact ih

theorem isMetaFrom_name : ∀ (w s : Str), (∀ c ∈ w, isRefChar ct c = true) →
    isMetaFrom ct 2 (w ++ s) = isMetaFrom ct 2 s ∧
    ∀ w0, metaRefsFrom ct (some w0) (w ++ s) = metaRefsFrom ct (some (w0 ++ w)) s
  | [], s, _ => by simp
  | c :: w, s, h => by
    have hc := h c (List.mem_cons_self ..)
    have ih := isMetaFrom_name w s (fun x hx => h x (List.mem_cons_of_mem _ hx))
    refine ⟨by rw [List.cons_append, isMetaFrom, if_pos hc]; exact ih.1, ?_⟩
    intro w0
    rw [List.cons_append, metaRefsFrom, if_pos hc, ih.2]
    simp

theorem refTail_head {s : Str} {ns : List Str} (h : RefTail ct s ns) (c : Char) (cs : Str) (e : s = c :: cs) :
    ct.isSpace c = true ∨ c = '@' := by
  cases h with
  | stop h => exact Or.inl (h c (by rw [e]; exact List.mem_cons_self ..))
  | @ref g w s' _ hg =>
    cases g with
    | nil => simp at e; exact Or.inr e.1.symm
    | cons x xs =>
      simp only [List.cons_append, List.cons.injEq] at e
      rw [← e.1]
      exact Or.inl (hg x (List.mem_cons_self ..))

/-- A tail behaves inside a name as after it. -/
theorem refTail_after {s : Str} {ns : List Str} (h : RefTail ct s ns) :
    isMetaFrom ct 2 s = isMetaFrom ct 3 s ∧
    ∀ w0, w0 ≠ [] → metaRefsFrom ct (some w0) s = w0 :: metaRefsFrom ct none s := by
  cases s with
  | nil => exact ⟨rfl, fun w0 h0 => by simp [metaRefsFrom, h0]⟩
  | cons c cs =>
    have hc : ct.isSpace c = true ∨ c = '@' := refTail_head h c cs rfl
    have hr : isRefChar ct c = false ∧ (ct.isSpace c = true ↔ c ≠ '@') := by
      rcases hc with hs | rfl
      · exact ⟨(space_not_ref hs).1, fun _ => (space_not_ref hs).2, fun _ => hs⟩
      · refine ⟨at_not_ref, fun h => ?_, fun h => absurd rfl h⟩
        rw [ct.space_at] at h; cases h
    refine ⟨?_, ?_⟩
    · rw [isMetaFrom, isMetaFrom, if_neg (by simp [hr.1])]
      rcases hc with hs | rfl
      · rw [if_neg (hr.2.1 hs), if_pos hs, if_pos hs]
      · rw [if_pos rfl, if_neg (by simp [ct.space_at]), if_pos rfl]
    · intro w0 h0
      simp [metaRefsFrom, hr.1, h0]

theorem isMetaFrom_complete {s : Str} {ns : List Str} (h : RefTail ct s ns) :
    (ns ≠ [] → isMetaFrom ct 0 s = true) ∧ isMetaFrom ct 3 s = true ∧ metaRefsFrom ct none s = ns := by
  induction h with
  | @stop b hb =>
    have := isMetaFrom_blank (ct := ct) b [] hb
    rw [List.append_nil] at this
    refine ⟨fun h => absurd rfl h, by rw [this.2.1]; rfl, by rw [this.2.2]; rfl⟩
  | @ref g w s ns hg hw1 hw2 ht ih =>
    have hb := isMetaFrom_blank (ct := ct) g ('@' :: (w ++ s)) hg
    obtain ⟨c, w', rfl⟩ := List.exists_cons_of_ne_nil hw1
    have hc := hw2 c (List.mem_cons_self ..)
    have hn := isMetaFrom_name (ct := ct) w' s (fun x hx => hw2 x (List.mem_cons_of_mem _ hx))
    have ha := refTail_after ht
    have h1 : isMetaFrom ct 1 (c :: w' ++ s) = true := by
      rw [List.cons_append, isMetaFrom, if_pos hc, hn.1, ha.1, ih.2.1]
    refine ⟨fun _ => ?_, ?_, ?_⟩
    · rw [hb.1, isMetaFrom, if_neg (by simp [ct.space_at]), if_pos rfl, h1]
    · rw [hb.2.1, isMetaFrom, if_neg (by simp [ct.space_at]), if_pos rfl, h1]
    · rw [hb.2.2, metaRefsFrom, if_pos rfl, List.cons_append, metaRefsFrom, if_pos hc, hn.2, ha.2 _ (by simp), ih.2.2]
      simp

theorem isMetaLine_iff (l : Str) (ns : List Str) :
    (isMetaLine ct l = true ∧ metaRefsFrom ct none l = ns) ↔ IsRefs ct l ns := by
  rw [isRefs_iff]
  constructor
  · rintro ⟨h1, h2⟩
    obtain ⟨ns', e1, e2, e3⟩ := (isMetaFrom_sound l).1 h1
    rw [h2] at e3
    subst e3
    exact ⟨e1, e2⟩
  · rintro ⟨h1, h2⟩
    exact ⟨(isMetaFrom_complete h2).1 h1, (isMetaFrom_complete h2).2.2⟩

end AS
