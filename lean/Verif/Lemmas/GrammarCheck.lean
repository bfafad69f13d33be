import Verif.Lemmas.GrammarSections
/-
The check of the references (`updatePointers`).
-/
namespace AS
variable {F : Type} (ct : CharTables) (fo : FloatOps F)

/-- The state of the check after the references `R`. -/
structure UpOk (g : Grammar F) (st : UpState) (R : List Str) : Prop where
  counted : ∀ n, (mapFind n st.references).isSome = true ↔ n ∈ R
  fatal   : st.status = .CHECK_FATAL ↔ ∃ n ∈ R, n ∉ g.names
  ok      : st.status = .CHECK_OK ↔ ∀ n ∈ R, n ∈ g.names
  silent  : st.issues = [] ↔ st.status = .CHECK_OK

theorem mapFind_countRef (w n : Str) (m : List (Str × Nat)) :
    (mapFind n (countRef w m)).isSome = true ↔ n = w ∨ (mapFind n m).isSome = true := by
  unfold countRef
  split <;> rw [mapFind_mapSet] <;> by_cases h : n = w <;> simp [h]

/-- A reference before the check. -/
def Fresh (r : SectionPtr) : Prop := r.mptr = none ∧ r.rptr = none

theorem upRef_ok {g : Grammar F} (hi : IndexOk g) {idx : Nat} {sec : MetaSection} (hsec : g.metas[idx]? = some sec)
    {st : UpState} {R : List Str} (h : UpOk g st R) (r : SectionPtr) (hr : Fresh r) :
    ∃ st' r', upRef g idx sec.name st r = .ok (st', r') ∧ UpOk g st' (R ++ [r.name]) ∧ r'.name = r.name ∧
      (r.name ∈ g.names → PtrOk g r') := by
  have hcount : ∀ n, (mapFind n (countRef r.name st.references)).isSome = true ↔ n ∈ R ++ [r.name] := by
    intro n
    rw [mapFind_countRef, h.counted]
    simp [or_comm]
  have good : r.name ∈ g.names → ∀ (S : UpState), S.issues = st.issues → S.status = st.status →
      S.references = countRef r.name st.references → UpOk g S (R ++ [r.name]) := by
    intro hn S e1 e2 e3
    refine ⟨by rw [e3]; exact hcount, ?_, ?_, by rw [e1, e2]; exact h.silent⟩
    · rw [e2, h.fatal]
      constructor
      · rintro ⟨n, hn1, hn2⟩; exact ⟨n, List.mem_append_left _ hn1, hn2⟩
      · rintro ⟨n, hn1, hn2⟩
        rcases List.mem_append.1 hn1 with h1 | h1
        · exact ⟨n, h1, hn2⟩
        · rw [List.mem_singleton] at h1
          exact absurd (h1 ▸ hn) hn2
    · rw [e2, h.ok]
      constructor
      · intro h1 n hn1
        rcases List.mem_append.1 hn1 with h2 | h2
        · exact h1 n h2
        · rw [List.mem_singleton] at h2; rw [h2]; exact hn
      · intro h1 n hn1; exact h1 n (List.mem_append_left _ hn1)
  unfold upRef
  simp only
  split
  · rename_i hself
    have hn : r.name ∈ g.names := by
      unfold Grammar.names
      rw [List.mem_append]; left
      exact List.mem_map.2 ⟨sec, List.mem_of_getElem? hsec, hself.symm⟩
    exact ⟨_, _, rfl, good hn _ rfl rfl rfl, rfl, fun _ => Or.inl ⟨idx, sec, rfl, hsec, hself.symm⟩⟩
  · have hf := hi.find r.name
    have hx := hi.indexed r.name
    cases hm : mapFind r.name g.sectionIndex with
    | some k =>
      rw [hm] at hf hx
      have hn := hf.1 rfl
      simp only at hx ⊢
      by_cases h1 : (g.metas[k]?).map (·.name) = some r.name
      · rw [if_pos h1]
        refine ⟨_, _, rfl, good hn _ rfl rfl rfl, rfl, fun _ => ?_⟩
        obtain ⟨s, e1, e2⟩ := Option.map_eq_some_iff.1 h1
        exact Or.inl ⟨k, s, rfl, e1, e2⟩
      · rw [if_neg h1]
        rcases hx with ⟨s, e1, e2⟩ | ⟨s, e1, e2⟩
        · exact absurd (by simp [e1, e2]) h1
        · rw [if_pos (by simp [e1, e2])]
          exact ⟨_, _, rfl, good hn _ rfl rfl rfl, rfl, fun _ => Or.inr ⟨hr.1, k, s, rfl, e1, e2⟩⟩
    | none =>
      rw [hm] at hf
      have hn : r.name ∉ g.names := by
        intro h; exact absurd (hf.2 h) (by simp)
      refine ⟨_, _, rfl, ⟨hcount, ?_, ?_, ?_⟩, rfl, fun h => absurd h hn⟩
      · exact ⟨fun _ => ⟨r.name, by simp, hn⟩, fun _ => rfl⟩
      · constructor
        · intro h; cases h
        · intro h1; exact absurd (h1 r.name (by simp)) hn
      · constructor
        · intro h; simp at h
        · intro h; cases h

theorem upRefs_ok {g : Grammar F} (hi : IndexOk g) {idx : Nat} {sec : MetaSection} (hsec : g.metas[idx]? = some sec) :
    ∀ (m : MetaRule) (st : UpState) (R : List Str), UpOk g st R → (∀ r ∈ m, Fresh r) →
    ∃ st' m', upRefs g idx sec.name st m = .ok (st', m') ∧ UpOk g st' (R ++ m.map (·.name)) ∧
      m'.map (·.name) = m.map (·.name) ∧ ∀ r ∈ m', r.name ∈ g.names → PtrOk g r
  | [], st, R, h, _ => ⟨st, [], rfl, by simpa using h, rfl, by simp⟩
  | r :: m, st, R, h, hf => by
    obtain ⟨st1, r', e1, h1, n1, p1⟩ := upRef_ok hi hsec h r (hf r (List.mem_cons_self ..))
    obtain ⟨st2, m', e2, h2, n2, p2⟩ := upRefs_ok hi hsec m st1 _ h1 (fun x hx => hf x (List.mem_cons_of_mem _ hx))
    refine ⟨st2, r' :: m', by simp [upRefs, e1, e2], by simpa using h2, by simp [n1, n2], ?_⟩
    intro x hx hn
    rcases List.mem_cons.1 hx with rfl | hx
    · exact p1 (n1 ▸ hn)
    · exact p2 x hx hn

theorem upMetaRules_ok {g : Grammar F} (hi : IndexOk g) {idx : Nat} {sec : MetaSection} (hsec : g.metas[idx]? = some sec) :
    ∀ (ms : List MetaRule) (st : UpState) (R : List Str), UpOk g st R → (∀ m ∈ ms, ∀ r ∈ m, Fresh r) →
    ∃ st' ms', upMetaRules g idx sec.name st ms = .ok (st', ms') ∧ UpOk g st' (R ++ ms.flatMap (·.map (·.name))) ∧
      ms'.map (·.map (·.name)) = ms.map (·.map (·.name)) ∧ ∀ m ∈ ms', ∀ r ∈ m, r.name ∈ g.names → PtrOk g r
  | [], st, R, h, _ => ⟨st, [], rfl, by simpa using h, rfl, by simp⟩
  | m :: ms, st, R, h, hf => by
    obtain ⟨st1, r', e1, h1, n1, p1⟩ := upRefs_ok hi hsec m st R h (hf m (List.mem_cons_self ..))
    obtain ⟨st2, m', e2, h2, n2, p2⟩ := upMetaRules_ok hi hsec ms st1 _ h1 (fun x hx => hf x (List.mem_cons_of_mem _ hx))
    refine ⟨st2, r' :: m', by simp [upMetaRules, e1, e2], by simpa using h2, by simp [n1, n2], ?_⟩
    intro x hx
    rcases List.mem_cons.1 hx with rfl | hx
    · exact p1
    · exact p2 x hx

/-- A meta section without pointers. -/
def MetaSection.bare (m : MetaSection) : Str × List (List Str) := (m.name, m.rules.map (·.map (·.name)))

theorem upMetas_ok {g : Grammar F} (hi : IndexOk g) :
    ∀ (ms : List MetaSection) (done : List MetaSection) (st : UpState) (R : List Str), g.metas = done ++ ms → UpOk g st R →
    (∀ s ∈ ms, ∀ m ∈ s.rules, ∀ r ∈ m, Fresh r) →
    ∃ st' ms', upMetas g done.length st ms = .ok (st', ms') ∧
      UpOk g st' (R ++ ms.flatMap (fun s => s.rules.flatMap (·.map (·.name)))) ∧
      ms'.map MetaSection.bare = ms.map MetaSection.bare ∧ ∀ s ∈ ms', ∀ m ∈ s.rules, ∀ r ∈ m, r.name ∈ g.names → PtrOk g r
  | [], done, st, R, _, h, _ => ⟨st, [], rfl, by simpa using h, rfl, by simp⟩
  | s :: ms, done, st, R, hd, h, hf => by
    have hsec : g.metas[done.length]? = some s := by rw [hd]; simp
    obtain ⟨st1, r', e1, h1, n1, p1⟩ := upMetaRules_ok hi hsec s.rules st R h (hf s (List.mem_cons_self ..))
    obtain ⟨st2, m', e2, h2, n2, p2⟩ := upMetas_ok hi ms (done ++ [s]) st1 _ (by simp [hd]) h1
      (fun x hx => hf x (List.mem_cons_of_mem _ hx))
    rw [List.length_append, List.length_singleton] at e2
    refine ⟨st2, { s with rules := r' } :: m', by simp [upMetas, e1, e2], by simpa using h2,
      by simp [MetaSection.bare, n1, n2], ?_⟩
    intro x hx
    rcases List.mem_cons.1 hx with rfl | hx
    · exact p1
    · exact p2 x hx

/-- The effect of the tests for unreferenced sections named in `N`. -/
structure UnrefStep (N : List Str) (st st' : UpState) : Prop where
  refs : st'.references = st.references
  fatal : st'.status = .CHECK_FATAL ↔ st.status = .CHECK_FATAL
  ok : st'.status = .CHECK_OK ↔ st.status = .CHECK_OK ∧
    ∀ n ∈ N, n = c!"ADDRESS" ∨ (mapFind n st.references).isSome = true
  silent : (st.issues = [] ↔ st.status = .CHECK_OK) → (st'.issues = [] ↔ st'.status = .CHECK_OK)

theorem unrefStep_nil (st : UpState) : UnrefStep [] st st := ⟨rfl, Iff.rfl, by simp, id⟩

theorem UnrefStep.trans {N M : List Str} {a b c : UpState} (h : UnrefStep N a b) (h' : UnrefStep M b c) :
    UnrefStep (N ++ M) a c := by
  refine ⟨h'.refs.trans h.refs, h'.fatal.trans h.fatal, ?_, fun x => h'.silent (h.silent x)⟩
  rw [h'.ok, h.ok, h.refs]
  constructor
  · rintro ⟨⟨h1, h2⟩, h3⟩
    refine ⟨h1, fun n hn => ?_⟩
    rcases List.mem_append.1 hn with h | h
    · exact h2 n h
    · exact h3 n h
  · rintro ⟨h1, h2⟩
    exact ⟨⟨h1, fun n hn => h2 n (List.mem_append_left _ hn)⟩, fun n hn => h2 n (List.mem_append_right _ hn)⟩

theorem upUnref_step (st : UpState) (n : Str) : UnrefStep [n] st (upUnref st n) := by
  unfold upUnref
  split
  · rename_i h
    have hnone : (mapFind n st.references).isSome = false := by
      cases hm : mapFind n st.references with
      | none => rfl
      | some k => simp [hm] at h
    refine ⟨rfl, ?_, ?_, ?_⟩
    · cases st.status <;> simp
    · simp only [List.mem_singleton, forall_eq, hnone, Bool.false_eq_true, or_false]
      constructor
      · intro h'; cases hs : st.status <;> simp [hs] at h'
      · rintro ⟨_, h'⟩; exact absurd h' h.2
    · intro _
      constructor
      · intro h'; simp at h'
      · intro h'; cases hs : st.status <;> simp [hs] at h'
  · rename_i h
    refine ⟨rfl, Iff.rfl, ?_, id⟩
    simp only [List.mem_singleton, forall_eq]
    constructor
    · intro h'
      refine ⟨h', ?_⟩
      cases hm : mapFind n st.references with
      | none =>
        left
        by_cases hn : n = c!"ADDRESS"
        · exact hn
        · exact absurd ⟨by simp [hm], hn⟩ h
      | some k => simp
    · exact fun h' => h'.1

theorem foldl_upUnref : ∀ (N : List Str) (st : UpState), UnrefStep N st (N.foldl upUnref st)
  | [], st => unrefStep_nil st
  | n :: N, st => (upUnref_step st n).trans (foldl_upUnref N (upUnref st n))

theorem upValid_valid (name : Str) : ∀ (rs : List (Rule F)) (pos : Nat) (st : UpState),
    (∀ r ∈ rs, Rule.isValid fo r = true) → upValid fo name pos st rs = st
  | [], _, _, _ => rfl
  | r :: rs, pos, st, h => by
    rw [upValid]
    simp only [h r (List.mem_cons_self ..), ↓reduceIte]
    exact upValid_valid name rs (pos + 1) st (fun x hx => h x (List.mem_cons_of_mem _ hx))

theorem upRules_step : ∀ (ss : List (RuleSection F)) (st : UpState) (checked : List Str),
    (∀ s ∈ ss, ∀ r ∈ s.rules, Rule.isValid fo r = true) → UnrefStep (ss.map (·.name)) st (upRules fo st checked ss)
  | [], st, _, _ => unrefStep_nil st
  | s :: ss, st, checked, h => by
    rw [upRules, upValid_valid fo s.name s.rules 1 (upUnref st s.name) (h s (List.mem_cons_self ..))]
    split <;> exact (upUnref_step st s.name).trans (upRules_step ss _ _ (fun x hx => h x (List.mem_cons_of_mem _ hx)))

theorem metaNames_bare (g : Grammar F) : g.metaNames = g.metas.map MetaSection.bare := rfl

theorem names_eq (g : Grammar F) : g.names = g.metaNames.map (·.1) ++ g.ruleSections.map (·.1) := by
  simp [Grammar.names, Grammar.metaNames, Grammar.ruleSections, Function.comp_def]

theorem PtrOk.transfer {g g' : Grammar F} (hm : g'.metas.map (·.name) = g.metas.map (·.name)) (hr : g'.rules = g.rules)
    {r : SectionPtr} (h : PtrOk g r) : PtrOk g' r := by
  rcases h with ⟨i, sec, h1, h2, h3⟩ | ⟨h0, i, sec, h1, h2, h3⟩
  · have : (g'.metas.map (·.name))[i]? = some sec.name := by rw [hm, List.getElem?_map, h2]; rfl
    rw [List.getElem?_map] at this
    obtain ⟨s, e1, e2⟩ := Option.map_eq_some_iff.1 this
    exact Or.inl ⟨i, s, h1, e1, e2.trans h3⟩
  · exact Or.inr ⟨h0, i, sec, h1, by rw [hr]; exact h2, h3⟩

theorem IndexOk.transfer {g g' : Grammar F} (hm : g'.metas.map (·.name) = g.metas.map (·.name)) (hr : g'.rules = g.rules)
    (hx : g'.sectionIndex = g.sectionIndex) (h : IndexOk g) : IndexOk g' := by
  refine ⟨?_, ?_⟩
  · have := h.distinct
    unfold Grammar.names at this ⊢
    rw [hm, hr]; exact this
  · intro name
    have h2 := h.indexed name
    rw [hx, hr]
    cases hk : mapFind name g.sectionIndex with
    | some k =>
      rw [hk] at h2
      simp only at h2 ⊢
      rcases h2 with ⟨s, e1, e2⟩ | h2
      · left
        have : (g'.metas.map (·.name))[k]? = some s.name := by rw [hm, List.getElem?_map, e1]; rfl
        rw [List.getElem?_map] at this
        obtain ⟨s', e1', e2'⟩ := Option.map_eq_some_iff.1 this
        exact ⟨s', e1', e2'.trans e2⟩
      · exact Or.inr h2
    | none =>
      rw [hk] at h2
      refine ⟨?_, h2.2⟩
      intro s hs e
      have : s.name ∈ g'.metas.map (·.name) := List.mem_map.2 ⟨s, hs, rfl⟩
      rw [hm] at this
      obtain ⟨s', hs', e'⟩ := List.mem_map.1 this
      exact h2.1 s' hs' (e'.trans e)

theorem updatePointers_ok {g : Grammar F} (hi : IndexOk g) (hfresh : ∀ s ∈ g.metas, ∀ m ∈ s.rules, ∀ r ∈ m, Fresh r)
    (hvalid : ∀ s ∈ g.rules, ∀ r ∈ s.rules, Rule.isValid fo r = true) :
    ∃ g', updatePointers fo g = .ok g' ∧ g'.metaNames = g.metaNames ∧ g'.rules = g.rules ∧
      g'.sectionIndex = g.sectionIndex ∧ g'.md5in = g.md5in ∧
      (g'.status = .CHECK_FATAL ↔ Dangling g.metaNames g.ruleSections ∨ ¬ Rooted g.metaNames g.ruleSections) ∧
      (g'.status = .CHECK_OK ↔ ¬ (Dangling g.metaNames g.ruleSections ∨ ¬ Rooted g.metaNames g.ruleSections) ∧
        ¬ Unreferenced g.metaNames g.ruleSections) ∧
      (g'.issues = [] ↔ g'.status = .CHECK_OK) ∧
      (¬ Dangling g.metaNames g.ruleSections → ∀ s ∈ g'.metas, ∀ m ∈ s.rules, ∀ r ∈ m, PtrOk g' r) := by
  have hinit : UpOk g {} [] := by
    refine ⟨by simp [mapFind], by simp, by simp, by simp⟩
  obtain ⟨st1, ms', e1, h1, n1, p1⟩ := upMetas_ok hi g.metas [] {} [] (by simp) hinit hfresh
  simp only [List.length_nil, List.nil_append] at e1 h1
  generalize hR : g.metas.flatMap (fun s => s.rules.flatMap (·.map (·.name))) = R at h1
  have hmem : ∀ n, n ∈ R ↔ ∃ m ∈ g.metaNames, ∃ refs ∈ m.2, n ∈ refs := by
    intro n
    subst hR
    simp only [List.mem_flatMap, Grammar.metaNames, List.mem_map]
    constructor
    · rintro ⟨s, hs, m, hm, r, hr, rfl⟩
      exact ⟨_, ⟨s, hs, rfl⟩, _, List.mem_map.2 ⟨m, hm, rfl⟩, List.mem_map.2 ⟨r, hr, rfl⟩⟩
    · rintro ⟨_, ⟨s, hs, rfl⟩, refs, hrefs, hn⟩
      obtain ⟨m, hm, rfl⟩ := List.mem_map.1 hrefs
      obtain ⟨r, hr, rfl⟩ := List.mem_map.1 hn
      exact ⟨s, hs, m, hm, r, hr, rfl⟩
  have hdang : Dangling g.metaNames g.ruleSections ↔ ∃ n ∈ R, n ∉ g.names := by
    unfold Dangling
    rw [names_eq]
    constructor
    · rintro ⟨m, hm, refs, hr, n, hn, h2, h3⟩
      refine ⟨n, (hmem n).2 ⟨m, hm, refs, hr, hn⟩, ?_⟩
      rw [List.mem_append, not_or]; exact ⟨h2, h3⟩
    · rintro ⟨n, hn, h2⟩
      obtain ⟨m, hm, refs, hr, hn⟩ := (hmem n).1 hn
      rw [List.mem_append, not_or] at h2
      exact ⟨m, hm, refs, hr, n, hn, h2⟩
  have hroot : Rooted g.metaNames g.ruleSections ↔ (mapFind c!"ADDRESS" g.sectionIndex).isSome = true := by
    rw [hi.find, names_eq, List.mem_append]
    exact Iff.rfl
  have hnames' : ms'.map (·.name) = g.metas.map (·.name) := by
    have := congrArg (List.map (·.1)) n1
    simpa [MetaSection.bare, Function.comp_def] using this
  unfold updatePointers
  rw [e1]
  simp only
  generalize hst2 : (if (mapFind c!"ADDRESS" g.sectionIndex).isNone = true then _ else st1 : UpState) = st2
  have h2 : st2.references = st1.references ∧
      (st2.status = .CHECK_FATAL ↔ Dangling g.metaNames g.ruleSections ∨ ¬ Rooted g.metaNames g.ruleSections) ∧
      (st2.status = .CHECK_OK ↔ ¬ (Dangling g.metaNames g.ruleSections ∨ ¬ Rooted g.metaNames g.ruleSections)) ∧
      (st2.issues = [] ↔ st2.status = .CHECK_OK) := by
    have hok : st1.status = .CHECK_OK ↔ ¬ Dangling g.metaNames g.ruleSections := by
      rw [h1.ok, hdang]
      constructor
      · rintro h ⟨n, hn, hn'⟩; exact hn' (h n hn)
      · intro h n hn
        by_cases hx : n ∈ g.names
        · exact hx
        · exact absurd ⟨n, hn, hx⟩ h
    rw [← hst2]
    split
    · rename_i hnone
      have hnr : ¬ Rooted g.metaNames g.ruleSections := by
        rw [hroot]
        cases hm : mapFind c!"ADDRESS" g.sectionIndex with
        | none => simp
        | some k => rw [hm] at hnone; simp at hnone
      refine ⟨rfl, ?_, ?_, ?_⟩
      · simp [hnr]
      · simp [hnr]
      · simp
    · rename_i hnone
      have hyr : Rooted g.metaNames g.ruleSections := by
        rw [hroot]
        cases hm : mapFind c!"ADDRESS" g.sectionIndex with
        | none => rw [hm] at hnone; simp at hnone
        | some k => rfl
      refine ⟨rfl, ?_, ?_, h1.silent⟩
      · rw [h1.fatal, hdang]; simp [hyr]
      · rw [hok]; simp [hyr]
  have step := (foldl_upUnref (ms'.map (·.name)) st2).trans (upRules_step fo g.rules _ [] hvalid)
  generalize upRules fo ((ms'.map (·.name)).foldl upUnref st2) [] g.rules = st3 at step
  have hbare : ({ g with metas := ms', issues := st3.issues, status := st3.status } : Grammar F).metaNames = g.metaNames := by
    rw [metaNames_bare, metaNames_bare]; exact n1
  refine ⟨_, rfl, hbare, rfl, rfl, rfl, step.fatal.trans h2.2.1, ?_, step.silent h2.2.2.2, ?_⟩
  · rw [step.ok, h2.2.2.1, hnames', h2.1]
    refine and_congr_right (fun _ => ?_)
    have hN : g.metas.map (·.name) ++ g.rules.map (·.name) = g.metaNames.map (·.1) ++ g.ruleSections.map (·.1) :=
      names_eq g
    rw [hN]
    unfold Unreferenced
    constructor
    · rintro h ⟨n, hn, hne, hall⟩
      rcases h n (List.mem_append.2 hn) with h | h
      · exact hne h
      · rw [h1.counted, hmem] at h
        obtain ⟨m, hm, refs, hr, hnr⟩ := h
        exact hall m hm refs hr hnr
    · intro h n hn
      by_cases hne : n = c!"ADDRESS"
      · exact Or.inl hne
      · right
        rw [h1.counted, hmem]
        by_cases hx : ∃ m ∈ g.metaNames, ∃ refs ∈ m.2, n ∈ refs
        · exact hx
        · exact absurd ⟨n, List.mem_append.1 hn, hne, fun m hm refs hr hnr => hx ⟨m, hm, refs, hr, hnr⟩⟩ h
  · intro hd s hs m hm r hr
    refine PtrOk.transfer (g := g)
      (g' := { g with metas := ms', issues := st3.issues, status := st3.status }) hnames' rfl ?_
    refine p1 s hs m hm r hr ?_
    have hmem' : r.name ∈ R := by
      rw [hmem, ← hbare]
      exact ⟨_, List.mem_map.2 ⟨s, hs, rfl⟩, _, List.mem_map.2 ⟨m, hm, rfl⟩, List.mem_map.2 ⟨r, hr, rfl⟩⟩
    by_cases hx : r.name ∈ g.names
    · exact hx
    · exact absurd (hdang.2 ⟨_, hmem', hx⟩) hd

end AS
