import Verif.Lemmas.GrammarCheck
/-
From the lines of a grammar text to the grammar.
-/
namespace AS
variable {F : Type} (ct : CharTables) (fo : FloatOps F)

theorem mkMeta_bare (m : Str × List (List Str)) : (mkMeta m).bare = m := by
  obtain ⟨n, rs⟩ := m
  simp [mkMeta, MetaSection.bare, Function.comp_def]

theorem map_mkMeta_bare (ms : List (Str × List (List Str))) : (ms.map mkMeta).map MetaSection.bare = ms := by
  rw [List.map_map]
  have : MetaSection.bare ∘ mkMeta = id := funext mkMeta_bare
  rw [this, List.map_id]

theorem map_mkRules (rs : List (Str × List (Rule F))) : (rs.map mkRules).map (fun s => (s.name, s.rules)) = rs := by
  rw [List.map_map]
  have : (fun s : RuleSection F => (s.name, s.rules)) ∘ mkRules = id := funext (fun _ => rfl)
  rw [this, List.map_id]

/-- The sections loaded from lines are those the lines mean. -/
theorem load_means (h0 : fo.le0 fo.zero = true) (ls : List Str) (ms : List (Str × List (List Str)))
    (rs : List (Str × List (Rule F))) :
    (∃ st', loadLines ct fo {} ls = .ok st' ∧ (loadFinish st').g.metas = ms.map mkMeta ∧
      (loadFinish st').g.rules = rs.map mkRules) ↔ GrammarMeans ct fo ls ms rs := by
  rw [load_sections ct fo h0 ls {} [] loadInv_init (Or.inl ⟨rfl, rfl, rfl, rfl⟩)]
  simp only [List.nil_append, forall_const]
  unfold GrammarMeans
  constructor
  · rintro ⟨h1, h2, -, ms', rs', h3, h4, h5⟩
    have e1 : ms = ms' := by
      rw [← map_mkMeta_bare ms, h4, map_mkMeta_bare]
    have e2 : rs = rs' := by
      rw [← map_mkRules rs, h5, map_mkRules]
    subst e1 e2
    refine ⟨(groupLines ct ls).2, (groups_iff ct ls _ _).2 (Prod.ext h1 rfl), ((noRepeat_cons _ _).1 h2).2, ?_⟩
    rw [h1] at h3
    rcases (sections_cons ct fo h0 _ _ _ _ _).1 h3 with ⟨_, h⟩ | ⟨h, _⟩ | ⟨h, _⟩
    · exact h
    · exact absurd rfl h
    · exact absurd rfl h
  · rintro ⟨gs, h1, h2, h3⟩
    have hg := (groups_iff ct ls _ _).1 h1
    rw [hg]
    refine ⟨rfl, ?_, ?_, ms, rs, .empty h3, rfl, rfl⟩
    · rw [noRepeat_cons]
      exact ⟨fun _ _ h => absurd rfl h, h2⟩
    · intro g _ h
      cases h

theorem load_some (h0 : fo.le0 fo.zero = true) (ls : List Str) (st' : LoadState F) (h : loadLines ct fo {} ls = .ok st') :
    ∃ ms rs, (loadFinish st').g.metas = ms.map mkMeta ∧ (loadFinish st').g.rules = rs.map mkRules ∧
      GrammarMeans ct fo ls ms rs := by
  obtain ⟨_, _, _, ms, rs, _, h4, h5⟩ :=
    (load_sections ct fo h0 ls {} [] loadInv_init (Or.inl ⟨rfl, rfl, rfl, rfl⟩) _ _).1 ⟨st', h, rfl, rfl⟩
  exact ⟨ms, rs, h4, h5, (load_means ct fo h0 ls ms rs).1 ⟨st', h, h4, h5⟩⟩

/-- Every rule is the meaning of a line and every list of references is that of a line. -/
theorem sections_sound {gs : List (Str × List Str)} {ms : List (Str × List (List Str))} {rs : List (Str × List (Rule F))}
    (h : Sections ct fo gs ms rs) :
    (∀ m ∈ ms, ∀ refs ∈ m.2, ∃ l, IsRefs ct l refs) ∧ (∀ s ∈ rs, ∀ r ∈ s.2, ∃ l, RuleMeans fo l r) := by
  induction h with
  | nil => simp
  | empty _ ih => exact ih
  | @metas n ls gs ms rs mm hx hy hm _ ih =>
    refine ⟨?_, ih.2⟩
    intro m hmem
    rcases List.mem_cons.1 hmem with rfl | hmem
    · clear ih hmem hx hy
      induction hm with
      | nil => simp
      | cons h _ ih2 =>
        intro refs hr
        rcases List.mem_cons.1 hr with rfl | hr
        · exact ⟨_, h⟩
        · exact ih2 refs hr
      | skip _ _ ih2 => exact ih2
    · exact ih.1 m hmem
  | @rules n ls gs ms rs rr hx hy hm _ ih =>
    refine ⟨ih.1, ?_⟩
    intro m hmem
    rcases List.mem_cons.1 hmem with rfl | hmem
    · clear ih hmem hx hy
      induction hm with
      | nil => simp
      | cons h _ ih2 =>
        intro refs hr
        rcases List.mem_cons.1 hr with rfl | hr
        · exact ⟨_, h⟩
        · exact ih2 refs hr
    · exact ih.2 m hmem

/-- What construction makes of lines. -/
theorem finishLoad_means (h0 : fo.le0 fo.zero = true) (ls : List Str) (ms : List (Str × List (List Str)))
    (rs : List (Str × List (Rule F))) (h : GrammarMeans ct fo ls ms rs) :
    ((Dangling ms rs ∨ ¬ Rooted ms rs) → ∃ iss, iss ≠ [] ∧ finishLoad fo (loadLines ct fo {} ls) = .error (.fatal iss)) ∧
    (¬ (Dangling ms rs ∨ ¬ Rooted ms rs) → ∃ g, finishLoad fo (loadLines ct fo {} ls) = .ok g ∧
      g.metaNames = ms ∧ g.ruleSections = rs ∧ g.md5in = ls.flatten ∧
      (g.status = .CHECK_OK ↔ ¬ Unreferenced ms rs) ∧ (g.status = .CHECK_WARN ↔ Unreferenced ms rs) ∧
      (g.issues = [] ↔ g.status = .CHECK_OK) ∧ WfGrammar g ∧ Balanced g ∧ HasRoot g ∧
      ∀ s ∈ g.rules, ∀ r ∈ s.rules, ∃ l, RuleMeans fo l r) := by
  obtain ⟨st', e1, e2, e3⟩ := (load_means ct fo h0 ls ms rs).2 h
  obtain ⟨gs, _, _, hsec⟩ := h
  obtain ⟨sound1, sound2⟩ := sections_sound ct fo hsec
  have hidx : IndexOk (loadFinish st').g := loadFinish_index (loadLines_inv ct fo ls loadInv_init e1)
  have hb1 : (loadFinish st').g.metaNames = ms := by rw [metaNames_bare, e2, map_mkMeta_bare]
  have hb2 : (loadFinish st').g.ruleSections = rs := by unfold Grammar.ruleSections; rw [e3, map_mkRules]
  have hfresh : ∀ s ∈ (loadFinish st').g.metas, ∀ m ∈ s.rules, ∀ r ∈ m, Fresh r := by
    rw [e2]
    intro s hs m hm r hr
    obtain ⟨x, _, rfl⟩ := List.mem_map.1 hs
    obtain ⟨y, _, rfl⟩ := List.mem_map.1 hm
    obtain ⟨z, _, rfl⟩ := List.mem_map.1 hr
    exact ⟨rfl, rfl⟩
  have hmean : ∀ s ∈ (loadFinish st').g.rules, ∀ r ∈ s.rules, ∃ l, RuleMeans fo l r := by
    rw [e3]
    intro s hs r hr
    obtain ⟨x, hx, rfl⟩ := List.mem_map.1 hs
    exact sound2 x hx r hr
  have hbal : ∀ s ∈ (loadFinish st').g.rules, ∀ r ∈ s.rules,
      r.inClass.length = r.outClass.length ∧ fo.le0 r.score = false := by
    intro s hs r hr
    obtain ⟨l, hl⟩ := hmean s hs r hr
    exact Props.C26_accepted_valid fo h0 l r ((Props.C26_rule_line_meaning fo h0 l r).2 hl)
  have hvalid : ∀ s ∈ (loadFinish st').g.rules, ∀ r ∈ s.rules, Rule.isValid fo r = true := by
    intro s hs r hr
    have := hbal s hs r hr
    unfold Rule.isValid
    simp [this]
  obtain ⟨g', u1, u2, u3, u4, _, u6, u7, u8, u9⟩ := updatePointers_ok fo hidx hfresh hvalid
  rw [hb1, hb2] at u6 u7
  rw [hb1, hb2] at u9
  rw [hb1] at u2
  have hfin : finishLoad fo (loadLines ct fo {} ls) = if g'.status = .CHECK_FATAL then .error (.fatal g'.issues)
      else .ok { g' with md5in := st'.grammarIn } := by
    rw [e1]
    simp only [finishLoad, u1]
  rw [hfin]
  constructor
  · intro hf
    rw [if_pos (u6.2 hf)]
    refine ⟨g'.issues, ?_, rfl⟩
    rw [ne_eq, u8, u6.2 hf]
    simp
  · intro hf
    have hnf : g'.status ≠ .CHECK_FATAL := fun h => hf (u6.1 h)
    rw [if_neg hnf]
    have hd : ¬ Dangling ms rs := fun h => hf (Or.inl h)
    have hroot : Rooted ms rs := by
      by_cases h : Rooted ms rs
      · exact h
      · exact absurd (Or.inr h) hf
    have hst : g'.status = .CHECK_OK ↔ ¬ Unreferenced ms rs := by
      rw [u7]; exact ⟨fun h => h.2, fun h => ⟨hf, h⟩⟩
    have hnm : g'.metas.map (·.name) = (loadFinish st').g.metas.map (·.name) := by
      have := congrArg (List.map (·.1)) (u2.trans hb1.symm)
      simpa [Grammar.metaNames, Function.comp_def] using this
    have hidx' := hidx.transfer hnm u3 u4
    have hrs : g'.ruleSections = rs := by unfold Grammar.ruleSections; rw [u3]; exact hb2
    refine ⟨_, rfl, u2, hrs, ?_, hst, ?_, u8, ?_, ?_, ?_, ?_⟩
    · have := loadLines_grammarIn ct fo ls _ _ e1
      simpa using this
    · constructor
      · intro hw
        by_cases hu : Unreferenced ms rs
        · exact hu
        · rw [hst.2 hu] at hw; cases hw
      · intro hu
        cases hs : g'.status with
        | CHECK_FATAL => exact absurd hs hnf
        | CHECK_OK => exact absurd hu (hst.1 hs)
        | CHECK_WARN => rfl
    · refine ⟨hidx'.distinct, ?_, ?_, hidx'.indexed⟩
      · intro sec hsec' refs hrefs
        have hm : (sec.name, sec.rules.map (fun r => r.map (·.name))) ∈ ms := by
          rw [← u2]; exact List.mem_map.2 ⟨sec, hsec', rfl⟩
        obtain ⟨l, hl⟩ := sound1 _ hm (refs.map (·.name)) (List.mem_map.2 ⟨refs, hrefs, rfl⟩)
        intro e
        exact hl.1 (by rw [e]; rfl)
      · exact u9 hd
    · intro s hs r hr
      simp only [u3] at hs
      exact (hbal s hs r hr).1
    · rw [← u2, ← hrs] at hroot
      unfold Rooted at hroot
      rcases hroot with h | h
      · left
        obtain ⟨m, hm, e⟩ := List.mem_map.1 h
        obtain ⟨s, hs, rfl⟩ := List.mem_map.1 hm
        exact ⟨s, hs, e⟩
      · right
        obtain ⟨m, hm, e⟩ := List.mem_map.1 h
        obtain ⟨s, hs, rfl⟩ := List.mem_map.1 hm
        exact ⟨s, hs, e⟩
    · simp only [u3]
      exact hmean

theorem finishLoad_ok (h0 : fo.le0 fo.zero = true) (ls : List Str) (g : Grammar F)
    (h : finishLoad fo (loadLines ct fo {} ls) = .ok g) :
    ∃ ms rs, GrammarMeans ct fo ls ms rs ∧ ¬ Dangling ms rs ∧ Rooted ms rs ∧ g.metaNames = ms ∧ g.ruleSections = rs ∧
      g.md5in = ls.flatten ∧
      (g.status = .CHECK_OK ↔ ¬ Unreferenced ms rs) ∧ (g.status = .CHECK_WARN ↔ Unreferenced ms rs) ∧
      (g.issues = [] ↔ g.status = .CHECK_OK) ∧ WfGrammar g ∧ Balanced g ∧ HasRoot g ∧
      ∀ s ∈ g.rules, ∀ r ∈ s.rules, ∃ l, RuleMeans fo l r := by
  cases hl : loadLines ct fo {} ls with
  | error e => rw [hl] at h; cases h
  | ok st' =>
    obtain ⟨ms, rs, _, _, hm⟩ := load_some ct fo h0 ls st' hl
    obtain ⟨k1, k2⟩ := finishLoad_means ct fo h0 ls ms rs hm
    by_cases hbad : Dangling ms rs ∨ ¬ Rooted ms rs
    · obtain ⟨iss, _, e⟩ := k1 hbad
      rw [e] at h; cases h
    · obtain ⟨g', e, rest⟩ := k2 hbad
      rw [e] at h
      cases h
      have hd : ¬ Dangling ms rs := fun h => hbad (Or.inl h)
      have hr : Rooted ms rs := by
        by_cases h : Rooted ms rs
        · exact h
        · exact absurd (Or.inr h) hbad
      exact ⟨ms, rs, hm, hd, hr, rest⟩

/-- The first line contributes differently to the digest only. -/
theorem finishLoad_first (p p' : Str) (ls : List Str) :
    finishLoad fo (loadFirst ct fo p {} (p' :: ls)) =
      (finishLoad fo (loadLines ct fo {} (p' :: ls))).map (fun g => { g with md5in := p ++ ls.flatten }) := by
  have e1 : loadFirst ct fo p {} (p' :: ls) =
      (loadLines ct fo {} (p' :: ls)).map (fun s => { s with grammarIn := p ++ ls.flatten }) := by
    have hgi : ∀ st', loadLines ct fo {} (p' :: ls) = .ok st' → st'.grammarIn = p' ++ ls.flatten := by
      intro st' h
      have := loadLines_grammarIn ct fo (p' :: ls) {} st' h
      simpa using this
    rw [loadFirst]
    rw [loadLines] at hgi ⊢
    rw [loadLine_in ct fo {} ([] ++ p), loadLine_in ct fo {} ([] ++ p')] at *
    cases loadLine ct fo {} p' with
    | error e => rfl
    | ok s =>
      simp only [Except.map, List.nil_append] at hgi ⊢
      rw [loadLines_in ct fo ls s p, loadLines_in ct fo ls s p'] at *
      cases hL : loadLines ct fo { s with grammarIn := [] } ls with
      | error e => rfl
      | ok s2 =>
        have := loadLines_grammarIn ct fo ls _ _ hL
        simp only [List.nil_append] at this
        simp [Except.map, this]
  rw [e1]
  cases loadLines ct fo {} (p' :: ls) with
  | error e => rfl
  | ok st =>
    have hfin : (loadFinish { st with grammarIn := p ++ ls.flatten }).g = (loadFinish st).g := by
      unfold loadFinish storeSection
      simp only
      split
      · cases h : st.ruleType <;> simp [storeMeta, storeRules]
      · rfl
    simp only [Except.map, finishLoad, hfin]
    cases updatePointers fo (loadFinish st).g with
    | error e => rfl
    | ok g =>
      simp only
      split <;> rfl

theorem groupLines_append_blank : ∀ ls : List Str, groupLines ct (ls ++ [[]]) = groupLines ct ls
  | [] => by simp [groupLines, isCommentLine]
  | l :: ls => by
    rw [List.cons_append, groupLines, groupLines, groupLines_append_blank ls]

theorem grammarMeans_append_blank (ls : List Str) (ms : List (Str × List (List Str))) (rs : List (Str × List (Rule F))) :
    GrammarMeans ct fo (ls ++ [[]]) ms rs ↔ GrammarMeans ct fo ls ms rs := by
  unfold GrammarMeans
  simp only [groups_iff, groupLines_append_blank]

end AS
