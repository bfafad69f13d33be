import Verif.Lemmas.SampleCheck
import Verif.Spec.Prune
/-
Checking that a grammar text is another one without rules that cannot match.
-/
namespace AS
variable {F : Type}

/-- Numbers that are the texts they are read from; those above zero are `0.1` to `0.9`. -/
def textOps : FloatOps Str where
  zero := []
  ofInt _ := []
  add a _ := a
  divNat a _ := a
  lt _ _ := false
  le0 s := match s with
    | ['0', '.', d] => !c!"123456789".contains d
    | _ => true
  parse s := s
  print s := s

/-- The rule with the number its score text stands for. -/
def scored (fo : FloatOps F) (r : Rule Str) : Rule F := ⟨r.inClass, r.outClass, fo.parse r.score⟩

/-- The sections with numbers. -/
def scoredAll (fo : FloatOps F) (rs : List (Str × List (Rule Str))) : List (Str × List (Rule F)) :=
  rs.map (fun s => (s.1, s.2.map (scored fo)))

theorem rules_scored {fo : FloatOps F} {ls : List Str} {rr : List (Rule Str)} (hm : RulesMean textOps ls rr) :
    PositiveScores fo ls → RulesMean fo ls (rr.map (scored fo)) := by
  induction hm with
  | nil => intro _; exact .nil
  | cons h1 _ ih =>
    intro h
    obtain ⟨ins, outs, before, score, rest, e, hl, _, rfl⟩ := h1
    exact .cons ⟨ins, outs, before, score, rest, e, hl, h _ List.mem_cons_self _ _ _ _ _ e, rfl⟩
      (ih (fun l hl => h l (List.mem_cons_of_mem _ hl)))

theorem sections_scored {ct ct' : CharTables} {fo : FloatOps F} {gs : List (Str × List Str)}
    {ms : List (Str × List (List Str))} {rs : List (Str × List (Rule Str))} (hs : Sections ct textOps gs ms rs) :
    (∀ g ∈ gs, ∀ l ∈ g.2, AgreeOn ct ct' l) → (∀ g ∈ gs, PositiveScores fo g.2) → Sections ct' fo gs ms (scoredAll fo rs) := by
  induction hs with
  | nil => intro _ _; exact .nil
  | empty _ ih =>
    intro h1 h2
    exact .empty (ih (fun g hg => h1 g (List.mem_cons_of_mem _ hg)) (fun g hg => h2 g (List.mem_cons_of_mem _ hg)))
  | metas a1 a2 a3 _ ih =>
    intro h1 h2
    exact .metas a1 a2 (metas_agree a3 (h1 _ List.mem_cons_self))
      (ih (fun g hg => h1 g (List.mem_cons_of_mem _ hg)) (fun g hg => h2 g (List.mem_cons_of_mem _ hg)))
  | rules a1 a2 a3 _ ih =>
    intro h1 h2
    exact .rules a1 a2 (rules_scored a3 (h2 _ List.mem_cons_self))
      (ih (fun g hg => h1 g (List.mem_cons_of_mem _ hg)) (fun g hg => h2 g (List.mem_cons_of_mem _ hg)))

theorem scoredAll_names (fo : FloatOps F) (rs : List (Str × List (Rule Str))) : (scoredAll fo rs).map (·.1) = rs.map (·.1) := by
  simp [scoredAll, List.map_map, Function.comp_def]

/-- A text that is accepted with texts for numbers is accepted with the usual tables and numbers. -/
theorem accepted_scored {lines : List Str} (ht : textOk lines = true) {g0 : Grammar Str}
    (hg0 : Grammar.initialize asciiTables textOps (unlines lines) = .ok g0) {ct : CharTables} {fo : FloatOps F}
    (hu : Usual ct fo) : ∃ g, Grammar.initialize ct fo (unlines lines) = .ok g ∧ g.metaNames = g0.metaNames ∧
      g.ruleSections = scoredAll fo g0.ruleSections := by
  obtain ⟨hn, hag, hp, hasc⟩ := textOk_positive hu ht
  have hb := unlines_noBom hasc
  obtain ⟨⟨gs, k1, k2, k3⟩, k4, k5⟩ :=
    (Props.C32_text_meaning asciiTables textOps (by decide) lines hn hb g0.metaNames g0.ruleSections).1 ⟨g0, hg0, rfl, rfl⟩
  obtain ⟨j1, j2, _⟩ := groups_agree k1 hag
  have hs := sections_scored (fo := fo) k3 (fun g hg l hl => hag l (j2 g hg l hl)) (fun g hg l hl => hp l (j2 g hg l hl))
  refine (Props.C32_text_meaning ct fo hu.zero lines hn hb _ _).2 ⟨⟨gs, j1, k2, hs⟩, ?_, ?_⟩
  · unfold Dangling at k4 ⊢; rw [scoredAll_names]; exact k4
  · unfold Rooted at k5 ⊢; rw [scoredAll_names]; exact k5

/-- The rule has none of the classes. -/
def lacks (dead : List InType) (r : Rule F) : Bool := r.inClass.all (fun c => !dead.contains c)

/-- What is left of the meta rules. -/
def leftMetas (barren : List Str) (ms : List (Str × List (List Str))) : List (Str × List (List Str)) :=
  (ms.filter (fun s => !barren.contains s.1)).map (fun s => (s.1, s.2.filter (fun refs => refs.all (fun n => decide (n ∉ barren)))))

/-- What is left of the rules. -/
def leftRules (dead : List InType) (barren : List Str) (rs : List (Str × List (Rule F))) : List (Str × List (Rule F)) :=
  (rs.filter (fun s => !barren.contains s.1)).map (fun s => (s.1, s.2.filter (lacks dead)))

/-- Nothing but the dead classes is lost with the barren sections. -/
def barrenOk (dead : List InType) (barren : List Str) (ms : List (Str × List (List Str))) (rs : List (Str × List (Rule F))) :
    Bool :=
  !barren.contains c!"ADDRESS" &&
  rs.all (fun s => !barren.contains s.1 || s.2.all (fun r => !lacks dead r)) &&
  ms.all (fun s => !barren.contains s.1 || s.2.all (fun refs => refs.any (fun n => barren.contains n)))

/-- The second text is the first without what cannot match. -/
def checkPruned (dead : List InType) (barren : List Str) (lines lines' : List Str) : Bool :=
  textOk lines && textOk lines' &&
  match Grammar.initialize asciiTables textOps (unlines lines), Grammar.initialize asciiTables textOps (unlines lines') with
  | .ok g, .ok g' => barrenOk dead barren g.metaNames g.ruleSections &&
      decide (leftMetas barren g.metaNames = g'.metaNames) && decide (leftRules dead barren g.ruleSections = g'.ruleSections)
  | _, _ => false

theorem lacks_false {dead : List InType} {r : Rule F} (h : lacks dead r = false) : ∃ c ∈ r.inClass, ¬ (c ∉ dead) := by
  unfold lacks at h
  rw [List.all_eq_false] at h
  obtain ⟨c, hc, h⟩ := h
  exact ⟨c, hc, by simpa using h⟩

/-- Texts that pass the check. -/
theorem pruned_of_check {dead : List InType} {barren lines lines' : List Str}
    (h : checkPruned dead barren lines lines' = true) {ct : CharTables} {fo : FloatOps F} (hu : Usual ct fo) :
    ∃ g g', Grammar.initialize ct fo (unlines lines) = .ok g ∧ Grammar.initialize ct fo (unlines lines') = .ok g' ∧
      Pruned (fun c => c ∉ dead) barren (lacks dead) g g' := by
  unfold checkPruned at h
  simp only [Bool.and_eq_true] at h
  obtain ⟨⟨t1, t2⟩, h⟩ := h
  split at h
  · next g0 g0' e0 e0' =>
    simp only [Bool.and_eq_true, decide_eq_true_eq] at h
    obtain ⟨⟨hb, hm⟩, hr⟩ := h
    obtain ⟨g, hg, g1, g2⟩ := accepted_scored t1 e0 hu
    obtain ⟨g', hg', g1', g2'⟩ := accepted_scored t2 e0' hu
    refine ⟨g, g', hg, hg', ?_⟩
    unfold barrenOk at hb
    simp only [Bool.and_eq_true, List.all_eq_true, Bool.or_eq_true, List.any_eq_true, Bool.not_eq_true',
      List.contains_eq_mem, decide_eq_false_iff_not, decide_eq_true_eq] at hb
    obtain ⟨⟨b1, b2⟩, b3⟩ := hb
    have hcls : ∀ sec ∈ g.ruleSections, ∃ s0 ∈ g0.ruleSections, sec = (s0.1, s0.2.map (scored fo)) := by
      intro sec hs
      rw [g2] at hs
      obtain ⟨s0, h0, rfl⟩ := List.mem_map.1 hs
      exact ⟨s0, h0, rfl⟩
    refine ⟨b1, fun sec _ r _ hk => lacks_false hk, ?_, ?_, ?_, ?_⟩
    · intro sec hs hbar r hr'
      obtain ⟨s0, h0, rfl⟩ := hcls sec hs
      obtain ⟨r0, hr0, rfl⟩ := List.mem_map.1 hr'
      rcases b2 s0 h0 with hn | hn
      · exact absurd hbar hn
      · exact lacks_false (r := scored fo r0) (hn r0 hr0)
    · intro sec hs hbar refs hrefs
      rw [g1] at hs
      rcases b3 sec hs with hn | hn
      · exact absurd hbar hn
      · exact hn refs hrefs
    · intro sec hs hbar
      rw [g1] at hs
      rw [g1', ← hm]
      exact List.mem_map.2 ⟨sec, List.mem_filter.2 ⟨hs, by simpa using hbar⟩, rfl⟩
    · intro sec hs hbar
      obtain ⟨s0, h0, rfl⟩ := hcls sec hs
      rw [g2', ← hr]
      refine List.mem_map.2 ⟨(s0.1, s0.2.filter (lacks dead)),
        List.mem_map.2 ⟨s0, List.mem_filter.2 ⟨h0, by simpa using hbar⟩, rfl⟩, ?_⟩
      simp only [List.filter_map]
      rfl
  · cases h

end AS
