import Verif.Lemmas.Simulate
import Verif.Lemmas.Alike
import Verif.Spec.Mirror
import Verif.Props.Order
/-
Properties C75 to C78: sections ADDRESS does not lead to, names of sections, scores, the order of rules.
-/
namespace AS.Props
open AS AS.Wrapper
variable {F D : Type}

/-- Grammar texts whose grammars find the same give the same address and the same matches. -/
theorem same_results (env : Env F D) {t t' : Str} {g g' : Grammar F}
    (hg : Grammar.initialize env.u.toCharTables env.fo t = .ok g)
    (hg' : Grammar.initialize env.u.toCharTables env.fo t' = .ok g')
    (hs : ∀ phrase, search g' c!"ADDRESS" phrase = search g c!"ADDRESS" phrase) (address lexicon locale filter : Str) :
    stdStandardize env address t' lexicon locale filter = stdStandardize env address t lexicon locale filter ∧
    stdMatchAddress env address t' lexicon locale filter = stdMatchAddress env address t lexicon locale filter := by
  have e1 := bestOf_congr hs env.fo
  have e2 := all_congr hs env.dops env.widen
  constructor
  · unfold stdStandardize loadGrammar
    rw [hg, hg']
    simp only
    split
    · rfl
    · rfl
    · unfold standardizeAddr
      rw [funext e1]
  · unfold stdMatchAddress loadGrammar
    rw [hg, hg']
    simp only
    split
    · rfl
    · rfl
    · unfold matchAddr
      rw [funext e2]

/-! ## C75 -/

theorem leads_section {g : Grammar F} (wf : WfGrammar g) (hr : HasRoot g) {a : Str} (h : Leads g.metaNames a) :
    (∃ v, g.look.metas a = some v) ∨ (g.look.metas a = none ∧ ∃ rs, g.look.rules a = some rs) := by
  have key : (∃ sec ∈ g.metas, sec.name = a) ∨ (∃ sec ∈ g.rules, sec.name = a) := by
    cases h with
    | root => exact hr
    | step h1 h2 h3 h4 =>
      obtain ⟨sec, hs, e⟩ := List.mem_map.1 h2
      simp only [Prod.mk.injEq] at e
      rw [← e.2] at h3
      obtain ⟨refs, hrefs, rfl⟩ := List.mem_map.1 h3
      obtain ⟨ref, href, rfl⟩ := List.mem_map.1 h4
      rcases wf.linked sec hs refs hrefs ref href with ⟨i, s, _, h5, h6⟩ | ⟨_, i, s, _, h5, h6⟩
      · exact Or.inl ⟨s, List.mem_of_getElem? h5, h6⟩
      · exact Or.inr ⟨s, List.mem_of_getElem? h5, h6⟩
  rcases key with ⟨sec, hs, rfl⟩ | ⟨sec, hs, rfl⟩
  · exact Or.inl ⟨_, look_meta wf hs⟩
  · exact Or.inr ⟨look_meta_none wf hs, _, look_rule wf hs⟩

/-- Searching depends only on the sections ADDRESS leads to. -/
theorem C75_search {G H : Grammar F} (wfG : WfGrammar G) (wfH : WfGrammar H) (hr : HasRoot G) (hs : SameFromRoot G H)
    (phrase : List Token) : search H c!"ADDRESS" phrase = search G c!"ADDRESS" phrase := by
  have hm : Mirrors (Leads G.metaNames) id id G.look H.look := by
    intro a ha
    have e1 : H.look.metas a = G.look.metas a := by
      apply Option.ext
      intro v
      rw [look_metas_mem wfG, look_metas_mem wfH, (hs a ha).1]
    have e2 : H.look.rules a = G.look.rules a := by
      apply Option.ext
      intro v
      rw [look_rules_mem wfG, look_rules_mem wfH, (hs a ha).2]
    rcases leads_section wfG hr ha with ⟨v, hv⟩ | ⟨hn, rs, hrs⟩
    · refine Or.inl ⟨v, hv, ?_, ?_⟩
      · rw [id, e1, hv]; simp
      · intro refs hrefs n hn
        exact .step ha ((look_metas_mem wfG _ _).1 hv) hrefs hn
    · refine Or.inr ⟨hn, ?_, rs, hrs, ?_⟩
      · rw [id, e1, hn]
      · rw [id, e2, hrs]; simp
  rcases search_mirrors wfG wfH (fun _ => rfl) hm c!"ADDRESS" .root phrase with ⟨h1, h2⟩ | ⟨results, h1, h2, h3⟩
  · rw [h1]; exact h2
  · rw [h1, show c!"ADDRESS" = id c!"ADDRESS" from rfl, h2]
    congr 1
    conv => rhs; rw [← List.map_id results]
    apply List.map_congr_left
    intro p hp
    have := (h3 p hp).1
    cases p
    simp only at this
    subst this
    simp

/-- Two accepted grammar texts that agree on what ADDRESS leads to give the same address and matches. -/
theorem C75_same_address (env : Env F D) (h0 : env.fo.le0 env.fo.zero = true) (t t' : Str) (g g' : Grammar F)
    (hg : Grammar.initialize env.u.toCharTables env.fo t = .ok g)
    (hg' : Grammar.initialize env.u.toCharTables env.fo t' = .ok g') (hs : SameFromRoot g g')
    (address lexicon locale filter : Str) :
    stdStandardize env address t' lexicon locale filter = stdStandardize env address t lexicon locale filter ∧
    stdMatchAddress env address t' lexicon locale filter = stdMatchAddress env address t lexicon locale filter := by
  obtain ⟨wf, _, hr⟩ := C29_constructed_wf _ env.fo h0 _ g hg
  obtain ⟨wf', _, _⟩ := C29_constructed_wf _ env.fo h0 _ g' hg'
  exact same_results env hg hg' (C75_search wf wf' hr hs) address lexicon locale filter

/-- A grammar text and the same with one more section, both accepted, agree on what ADDRESS leads to. -/
theorem added_sameFromRoot (ct : CharTables) (fo : FloatOps F) (h0 : fo.le0 fo.zero = true) (bs1 bs2 : List (List Str))
    (b : List Str) (hs : ∀ x ∈ bs1 ++ b :: bs2, IsSection ct x) (hn : ∀ l ∈ (bs1 ++ b :: bs2).flatten, '\n' ∉ l)
    (hb : NoBom (unlines (bs1 ++ bs2).flatten)) (hb' : NoBom (unlines (bs1 ++ b :: bs2).flatten)) (g g' : Grammar F)
    (hg : Grammar.initialize ct fo (unlines (bs1 ++ bs2).flatten) = .ok g)
    (hg' : Grammar.initialize ct fo (unlines (bs1 ++ b :: bs2).flatten) = .ok g') : SameFromRoot g g' := by
  have hsub : ∀ x ∈ bs1 ++ bs2, x ∈ bs1 ++ b :: bs2 := by
    intro x hx
    rcases List.mem_append.1 hx with h | h
    · exact List.mem_append_left _ h
    · exact List.mem_append_right _ (List.mem_cons_of_mem _ h)
  have hs1 : ∀ x ∈ bs1 ++ bs2, IsSection ct x := fun x hx => hs x (hsub x hx)
  have hn1 : ∀ l ∈ (bs1 ++ bs2).flatten, '\n' ∉ l := by
    intro l hl
    obtain ⟨x, hx, hlx⟩ := List.mem_flatten.1 hl
    exact hn l (List.mem_flatten.2 ⟨x, hsub x hx, hlx⟩)
  obtain ⟨⟨gs, m1, _, m3⟩, _, _⟩ := (C32_text_meaning _ fo h0 _ hn1 hb _ _).1 ⟨g, hg, rfl, rfl⟩
  obtain ⟨⟨gs', m1', m2', m3'⟩, _, _⟩ := (C32_text_meaning _ fo h0 _ hn hb' _ _).1 ⟨g', hg', rfl, rfl⟩
  rw [groups_iff, groupLines_blocks _ _ hs1] at m1
  rw [groups_iff, groupLines_blocks _ _ hs] at m1'
  simp only [Prod.mk.injEq, true_and] at m1 m1'
  obtain ⟨wf, _, hr⟩ := C29_constructed_wf _ fo h0 _ g hg
  obtain ⟨k1, k2⟩ := sections_mem _ _ h0 m3
  obtain ⟨k1', k2'⟩ := sections_mem _ _ h0 m3'
  intro a ha
  -- the name is that of a group of the smaller text
  obtain ⟨L0, hL0, hne0⟩ : ∃ L, (a, L) ∈ gs ∧ L ≠ [] := by
    rcases leads_section wf hr ha with ⟨v, hv⟩ | ⟨_, rs, hrs⟩
    · obtain ⟨L, h1, h2, _⟩ := (k1 _).1 ((look_metas_mem wf _ _).1 hv)
      exact ⟨L, h1, h2⟩
    · obtain ⟨L, h1, h2, _⟩ := (k2 _).1 ((look_rules_mem wf _ _).1 hrs)
      exact ⟨L, h1, h2⟩
  have hgroups : ∀ L, (a, L) ∈ gs' ↔ (a, L) ∈ gs := by
    intro L
    rw [← m1, ← m1']
    constructor
    · intro h
      obtain ⟨x, hx, e⟩ := List.mem_map.1 h
      rcases List.mem_append.1 hx with h1 | h1
      · exact List.mem_map.2 ⟨x, List.mem_append_left _ h1, e⟩
      · rcases List.mem_cons.1 h1 with rfl | h1
        · exfalso
          rw [← m1] at hL0
          obtain ⟨y, hy, ey⟩ := List.mem_map.1 hL0
          have hnr : NoRepeat ((bs1 ++ x :: bs2).map (blockOf ct)) := by rw [m1']; exact m2'
          unfold NoRepeat at hnr
          rw [List.map_append, List.map_cons, List.pairwise_append, List.pairwise_cons] at hnr
          obtain ⟨_, ⟨hr2, _⟩, hr1⟩ := hnr
          have hxne := blockOf_ne _ (hs x hx)
          rcases List.mem_append.1 hy with hy | hy
          · have := hr1 _ (List.mem_map.2 ⟨y, hy, rfl⟩) _ List.mem_cons_self
            rw [ey, e] at this
            exact this hne0 rfl
          · have := hr2 _ (List.mem_map.2 ⟨y, hy, rfl⟩) hxne
            rw [ey, e] at this
            exact this rfl
        · exact List.mem_map.2 ⟨x, List.mem_append_right _ h1, e⟩
    · intro h
      obtain ⟨x, hx, e⟩ := List.mem_map.1 h
      exact List.mem_map.2 ⟨x, hsub x hx, e⟩
  constructor
  · intro rules
    rw [k1, k1']
    simp only [hgroups]
  · intro rules
    rw [k2, k2']
    simp only [hgroups]

/-- Adding a section to an accepted grammar text, which is still accepted, changes nothing: no line refers
to the new section, or the text would not have been accepted without it. -/
theorem C75_added_section (env : Env F D) (h0 : env.fo.le0 env.fo.zero = true) (bs1 bs2 : List (List Str)) (b : List Str)
    (hs : ∀ x ∈ bs1 ++ b :: bs2, IsSection env.u.toCharTables x) (hn : ∀ l ∈ (bs1 ++ b :: bs2).flatten, '\n' ∉ l)
    (hb : NoBom (unlines (bs1 ++ bs2).flatten)) (hb' : NoBom (unlines (bs1 ++ b :: bs2).flatten)) (g g' : Grammar F)
    (hg : Grammar.initialize env.u.toCharTables env.fo (unlines (bs1 ++ bs2).flatten) = .ok g)
    (hg' : Grammar.initialize env.u.toCharTables env.fo (unlines (bs1 ++ b :: bs2).flatten) = .ok g')
    (address lexicon locale filter : Str) :
    stdStandardize env address (unlines (bs1 ++ b :: bs2).flatten) lexicon locale filter =
      stdStandardize env address (unlines (bs1 ++ bs2).flatten) lexicon locale filter ∧
    stdMatchAddress env address (unlines (bs1 ++ b :: bs2).flatten) lexicon locale filter =
      stdMatchAddress env address (unlines (bs1 ++ bs2).flatten) lexicon locale filter :=
  C75_same_address env h0 _ _ g g' hg hg' (added_sameFromRoot _ _ h0 bs1 bs2 b hs hn hb hb' g g' hg hg')
    address lexicon locale filter

/-- A section nothing refers to. -/
def exExtra : List Str := [c!"[OLD]", c!"@NUM @NUM", c!"@OLD"]

theorem exExtra_sections : ∀ b ∈ exBlocks.take 1 ++ exExtra :: exBlocks.drop 1, IsSection asciiTables b := by
  have hx : IsSection asciiTables exExtra := by
    refine ⟨c!"[OLD]", c!"OLD", [c!"@NUM @NUM", c!"@OLD"], rfl, (sectionName?_iff _ _ _).1 (by decide), ?_, c!"@OLD",
      by decide, ?_⟩
    · intro l hl n hn
      have h : ∀ l ∈ [c!"@NUM @NUM", c!"@OLD"], sectionName? asciiTables l = none := by decide
      have := h l hl
      rw [(sectionName?_iff asciiTables l n).2 hn] at this
      cases this
    · intro hcom
      have : isCommentLine asciiTables c!"@OLD" = false := by decide
      rw [(isCommentLine_iff _ _).2 hcom] at this
      cases this
  intro b hb
  rcases List.mem_append.1 hb with h | h
  · exact exBlocks_sections b (List.mem_of_mem_take h)
  · rcases List.mem_cons.1 h with rfl | h
    · exact hx
    · exact exBlocks_sections b (List.mem_of_mem_drop h)

example : ∃ g g' : Grammar Rat,
    Grammar.initialize asciiTables ratOps (unlines (exBlocks.take 1 ++ exBlocks.drop 1).flatten) = .ok g ∧
    Grammar.initialize asciiTables ratOps (unlines (exBlocks.take 1 ++ exExtra :: exBlocks.drop 1).flatten) = .ok g' ∧
    SameFromRoot g g' ∧ WfGrammar g ∧ WfGrammar g' ∧ HasRoot g ∧ g'.metas.length = 2 ∧ g.metas.length = 1 := by
  obtain ⟨g, hg, h1⟩ : ∃ g, Grammar.initialize asciiTables ratOps (unlines (exBlocks.take 1 ++ exBlocks.drop 1).flatten) = .ok g ∧
      g.metas.length = 1 := exists_ok (by decide +kernel)
  obtain ⟨g', hg', h2⟩ : ∃ g, Grammar.initialize asciiTables ratOps
      (unlines (exBlocks.take 1 ++ exExtra :: exBlocks.drop 1).flatten) = .ok g ∧ g.metas.length = 2 :=
    exists_ok (by decide +kernel)
  obtain ⟨wf, _, hr⟩ := C29_constructed_wf _ ratOps (by decide) _ g hg
  obtain ⟨wf', _, _⟩ := C29_constructed_wf _ ratOps (by decide) _ g' hg'
  exact ⟨g, g', hg, hg', added_sameFromRoot _ _ (by decide) _ _ exExtra exExtra_sections (by decide)
    (by unfold NoBom; decide) (by unfold NoBom; decide) g g' hg hg', wf, wf', hr, h2, h1⟩

/-! ## C76 -/

/-- Renaming the sections of a grammar, ADDRESS apart, does not change what a search finds. -/
theorem C76_search {ρ : Str → Str} {G H : Grammar F} (wfG : WfGrammar G) (wfH : WfGrammar H) (hr : HasRoot G)
    (hρ : ρ c!"ADDRESS" = c!"ADDRESS") (h : Renamed ρ G H) (phrase : List Token) :
    search H c!"ADDRESS" phrase = search G c!"ADDRESS" phrase := by
  have hm : Mirrors (Leads G.metaNames) ρ id G.look H.look := by
    intro a ha
    rcases leads_section wfG hr ha with ⟨v, hv⟩ | ⟨hn, rs, hrs⟩
    · have hmem := (look_metas_mem wfG _ _).1 hv
      refine Or.inl ⟨v, hv, ?_, ?_⟩
      · rw [look_metas_mem wfH, h.1]
        exact List.mem_map.2 ⟨_, hmem, rfl⟩
      · intro refs hrefs n hn
        exact .step ha hmem hrefs hn
    · have hmem : (ρ a, rs) ∈ H.ruleSections := by
        rw [h.2]
        exact List.mem_map.2 ⟨_, (look_rules_mem wfG _ _).1 hrs, rfl⟩
      refine Or.inr ⟨hn, ?_, rs, hrs, ?_⟩
      · obtain ⟨sec, hs, e⟩ := List.mem_map.1 hmem
        simp only [Prod.mk.injEq] at e
        rw [← e.1]
        exact look_meta_none wfH hs
      · rw [look_rules_mem wfH, List.map_id]
        exact hmem
  rcases search_mirrors wfG wfH (fun _ => rfl) hm c!"ADDRESS" .root phrase with ⟨h1, h2⟩ | ⟨results, h1, h2, h3⟩
  · rw [h1, ← h2, hρ]
  · rw [hρ] at h2
    rw [h1, h2]
    congr 1
    conv => rhs; rw [← List.map_id results]
    apply List.map_congr_left
    intro p hp
    have := (h3 p hp).1
    cases p
    simp only at this
    subst this
    simp

/-- So two accepted grammar texts that differ in the names of sections give the same address and matches. -/
theorem C76_same_address (env : Env F D) (h0 : env.fo.le0 env.fo.zero = true) (t t' : Str) (g g' : Grammar F)
    (hg : Grammar.initialize env.u.toCharTables env.fo t = .ok g)
    (hg' : Grammar.initialize env.u.toCharTables env.fo t' = .ok g') (ρ : Str → Str)
    (hρ : ρ c!"ADDRESS" = c!"ADDRESS") (h : Renamed ρ g g') (address lexicon locale filter : Str) :
    stdStandardize env address t' lexicon locale filter = stdStandardize env address t lexicon locale filter ∧
    stdMatchAddress env address t' lexicon locale filter = stdMatchAddress env address t lexicon locale filter := by
  obtain ⟨wf, _, hr⟩ := C29_constructed_wf _ env.fo h0 _ g hg
  obtain ⟨wf', _, _⟩ := C29_constructed_wf _ env.fo h0 _ g' hg'
  exact same_results env hg hg' (C76_search wf wf' hr hρ h) address lexicon locale filter

/-- The grammar of `exBlocks` with other names. -/
def exRenamed : List (List Str) :=
  [[c!"[ADDRESS]", c!"@N @S", c!""], [c!"[N]", c!"# numbers", c!"NUMBER -> HOUSE -> 0.9"],
   [c!"[S]", c!"WORD -> STREET -> 0.5", c!"WORD TYPE -> STREET SUFTYP -> 0.8"]]

/-- The renaming. -/
def exNames (s : Str) : Str := if s = c!"NUM" then c!"N" else if s = c!"STREET" then c!"S" else s

example : exNames c!"ADDRESS" = c!"ADDRESS" ∧ ∃ g g' : Grammar Rat,
    Grammar.initialize asciiTables ratOps (unlines exBlocks.flatten) = .ok g ∧
    Grammar.initialize asciiTables ratOps (unlines exRenamed.flatten) = .ok g' ∧ Renamed exNames g g' := by
  refine ⟨by decide, ?_⟩
  obtain ⟨g, hg, h1⟩ : ∃ g, Grammar.initialize asciiTables ratOps (unlines exBlocks.flatten) = .ok g ∧
      (g.metaNames = [(c!"ADDRESS", [[c!"NUM", c!"STREET"]])] ∧
       g.ruleSections = [(c!"NUM", [⟨[.NUMBER], [.HOUSE], 9/10⟩]),
         (c!"STREET", [⟨[.WORD], [.STREET], 1/2⟩, ⟨[.WORD, .TYPE], [.STREET, .SUFTYP], 8/10⟩])]) :=
    exists_ok (by decide +kernel)
  obtain ⟨g', hg', h2⟩ : ∃ g, Grammar.initialize asciiTables ratOps (unlines exRenamed.flatten) = .ok g ∧
      (g.metaNames = [(c!"ADDRESS", [[c!"N", c!"S"]])] ∧
       g.ruleSections = [(c!"N", [⟨[.NUMBER], [.HOUSE], 9/10⟩]),
         (c!"S", [⟨[.WORD], [.STREET], 1/2⟩, ⟨[.WORD, .TYPE], [.STREET, .SUFTYP], 8/10⟩])]) :=
    exists_ok (by decide +kernel)
  exact ⟨g, g', hg, hg', by rw [h1.1, h2.1]; decide, by rw [h1.2, h2.2]; decide +kernel⟩

/-! ## C77 -/

section scores
variable {fo : FloatOps F} {σ : F → F}

/-- A rule with another score. -/
def rescore (σ : F → F) (r : Rule F) : Rule F := { r with score := σ r.score }

theorem average_rescore (sc : Scaling fo σ) (p : SearchPath F) :
    avgScore fo ⟨p.rules.map (rescore σ), [], p.remaining⟩ = σ (avgScore fo p) := by
  have h : ∀ (rs : List (Rule F)) (x : F), (rs.map (rescore σ)).foldl (fun s r => fo.add s r.score) (σ x) =
      σ (rs.foldl (fun s r => fo.add s r.score) x) := by
    intro rs
    induction rs with
    | nil => intro x; rfl
    | cons r rs ih =>
      intro x
      rw [List.map_cons, List.foldl_cons, List.foldl_cons, ← ih, sc.add]
      rfl
  unfold avgScore
  simp only [List.length_map]
  rw [sc.divNat, ← h, sc.zero]

theorem bestLoop_rescore (sc : Scaling fo σ) : ∀ (ps : List (SearchPath F)) (i : Nat) (st : BestState F),
    bestLoop fo i ⟨st.best, σ st.bestScore, st.bestNrules⟩ (ps.map (fun p => ⟨p.rules.map (rescore σ), [], p.remaining⟩)) =
      ⟨(bestLoop fo i st ps).best, σ (bestLoop fo i st ps).bestScore, (bestLoop fo i st ps).bestNrules⟩
  | [], _, _ => rfl
  | p :: ps, i, st => by
    rw [List.map_cons, bestLoop, bestLoop, average_rescore sc]
    simp only [sc.lt, List.length_map]
    rw [← bestLoop_rescore sc ps]
    cases fo.lt st.bestScore (avgScore fo p) <;> rfl

theorem reclass_rescore (phrase : List Token) (p : SearchPath F) :
    reclassTokens phrase ⟨p.rules.map (rescore σ), [], p.remaining⟩ = reclassTokens phrase p := by
  have h : ∀ (rs : List (Rule F)) (ts : List Token), reclassRules (rs.map (rescore σ)) ts = reclassRules rs ts := by
    intro rs
    induction rs with
    | nil => intro ts; rfl
    | cons r rs ih =>
      intro ts
      rw [List.map_cons, reclassRules, reclassRules]
      simp only [rescore]
      split <;> simp only [ih]
  unfold reclassTokens
  simp only [List.foldl_map, rescore, h]

theorem search_rescored {G H : Grammar F} (wfG : WfGrammar G) (wfH : WfGrammar H) (hr : HasRoot G)
    (h : Rescored σ G H) (phrase : List Token) (results : List (SearchPath F))
    (hs : search G c!"ADDRESS" phrase = .ok results) :
    search H c!"ADDRESS" phrase = .ok (results.map (fun p => ⟨p.rules.map (rescore σ), [], p.remaining⟩)) := by
  have hm : Mirrors (Leads G.metaNames) id (rescore σ) G.look H.look := by
    intro a ha
    rcases leads_section wfG hr ha with ⟨v, hv⟩ | ⟨hn, rs, hrs⟩
    · have hmem := (look_metas_mem wfG _ _).1 hv
      refine Or.inl ⟨v, hv, ?_, ?_⟩
      · rw [look_metas_mem wfH, h.1]
        simpa using hmem
      · intro refs hrefs n hn
        exact .step ha hmem hrefs hn
    · have hmem : (a, rs.map (rescore σ)) ∈ H.ruleSections := by
        rw [h.2]
        exact List.mem_map.2 ⟨_, (look_rules_mem wfG _ _).1 hrs, rfl⟩
      refine Or.inr ⟨hn, ?_, rs, hrs, (look_rules_mem wfH _ _).2 hmem⟩
      obtain ⟨sec, hs, e⟩ := List.mem_map.1 hmem
      simp only [Prod.mk.injEq] at e
      rw [id, ← e.1]
      exact look_meta_none wfH hs
  rcases search_mirrors (φ := rescore σ) wfG wfH (fun _ => rfl) hm c!"ADDRESS" .root phrase with ⟨h1, _⟩ | ⟨rs, h1, h2, _⟩
  · rw [hs] at h1; cases h1
  · rw [hs] at h1
    cases h1
    exact h2

theorem ScaledScore_lt (laws : LtLaws fo) (hm1 : fo.lt (fo.ofInt (-1)) fo.zero = true) (sc : Scaling fo σ)
    {x y x' y' : F} (h1 : ScaledScore fo σ x x') (h2 : ScaledScore fo σ y y') : fo.lt x' y' = fo.lt x y := by
  have pos : ∀ {z : F}, (z = fo.zero ∨ fo.lt fo.zero z = true) → fo.lt (fo.ofInt (-1)) z = true ∧ fo.lt z (fo.ofInt (-1)) = false := by
    intro z hz
    have h : fo.lt (fo.ofInt (-1)) z = true := by
      rcases hz with rfl | hz
      · exact hm1
      · exact laws.trans _ _ _ hm1 hz
    refine ⟨h, ?_⟩
    cases hc : fo.lt z (fo.ofInt (-1)) with
    | false => rfl
    | true => rw [← laws.irrefl z]; exact (laws.trans _ _ _ hc h).symm
  have posσ : ∀ {z : F}, (z = fo.zero ∨ fo.lt fo.zero z = true) → (σ z = fo.zero ∨ fo.lt fo.zero (σ z) = true) := by
    intro z hz
    rcases hz with rfl | hz
    · exact Or.inl sc.zero
    · right; rw [← sc.zero, sc.lt]; exact hz
  rcases h1 with ⟨rfl, rfl⟩ | ⟨hx, rfl⟩
  · rcases h2 with ⟨rfl, rfl⟩ | ⟨hy, rfl⟩
    · rfl
    · rw [(pos hy).1, (pos (posσ hy)).1]
  · rcases h2 with ⟨rfl, rfl⟩ | ⟨hy, rfl⟩
    · rw [(pos hx).2, (pos (posσ hx)).2]
    · exact sc.lt _ _

/-- Scaling the scores of a grammar does not change which match is best, nor its tokens; its score is scaled. -/
theorem C77_scaled_best (laws : LtLaws fo) (hm1 : fo.lt (fo.ofInt (-1)) fo.zero = true) (sc : Scaling fo σ)
    {G H : Grammar F} (wfG : WfGrammar G) (wfH : WfGrammar H) (hb : Balanced G) (hr : HasRoot G) (h : Rescored σ G H)
    (phrases : List (List Token)) :
    ∃ r r', searchAndReclassBestOf G fo phrases = .ok r ∧ searchAndReclassBestOf H fo phrases = .ok r' ∧
      r'.tokens = r.tokens ∧ r'.matched = r.matched ∧ r'.nrules = r.nrules ∧ ScaledScore fo σ r.score r'.score := by
  have one : ∀ phrase, ∃ r r', searchAndReclassBest G fo phrase = .ok r ∧ searchAndReclassBest H fo phrase = .ok r' ∧
      r'.tokens = r.tokens ∧ r'.matched = r.matched ∧ r'.nrules = r.nrules ∧ ScaledScore fo σ r.score r'.score := by
    intro phrase
    obtain ⟨results, r, hs, hbest, hnone, hsome⟩ := C41_no_match_iff laws wfG hb hr phrase
    have hs' := search_rescored wfG wfH hr h phrase results hs
    by_cases hne : results = []
    · have := hnone hne
      subst this
      subst hne
      refine ⟨_, _, hbest, ?_, rfl, rfl, rfl, Or.inl ⟨rfl, rfl⟩⟩
      rw [searchAndReclassBest, hs']
      rfl
    · obtain ⟨hpos, _, _, hmatched⟩ := hsome hne
      have hlen : results.length ≠ 0 := fun e => hne (List.length_eq_zero_iff.1 e)
      refine ⟨r, { r with score := σ r.score }, hbest, ?_, rfl, rfl, rfl, Or.inr ⟨hpos, rfl⟩⟩
      rw [searchAndReclassBest, hs] at hbest
      simp only [hlen, if_false] at hbest
      rw [searchAndReclassBest, hs']
      simp only [List.length_map, hlen, if_false]
      have key := bestLoop_rescore sc results 0 ⟨0, fo.zero, fo.ofInt (-1)⟩
      simp only [sc.zero] at key
      rw [key]
      simp only [List.getElem?_map]
      split at hbest
      · cases hbest
      · rename_i p hp
        rw [hp]
        simp only [Option.map_some]
        rw [reclass_rescore]
        split at hbest
        · cases hbest
        · cases hbest; cases hmatched
        · rename_i ts hts
          cases hbest
          rfl
  have loop : ∀ (phrases : List (List Token)) (b b' : BestResult F), b'.tokens = b.tokens → b'.matched = b.matched →
      b'.nrules = b.nrules → ScaledScore fo σ b.score b'.score →
      ∃ r r', bestPhrases G fo b phrases = .ok r ∧ bestPhrases H fo b' phrases = .ok r' ∧
        r'.tokens = r.tokens ∧ r'.matched = r.matched ∧ r'.nrules = r.nrules ∧ ScaledScore fo σ r.score r'.score := by
    intro phrases
    induction phrases with
    | nil => intro b b' h1 h2 h3 h4; exact ⟨b, b', rfl, rfl, h1, h2, h3, h4⟩
    | cons p ps ih =>
      intro b b' h1 h2 h3 h4
      obtain ⟨r, r', k1, k2, e1, e2, e3, e4⟩ := one p
      rw [bestPhrases, bestPhrases, k1, k2]
      simp only
      rw [ScaledScore_lt laws hm1 sc h4 e4]
      cases fo.lt b.score r.score with
      | false => exact ih b b' h1 h2 h3 h4
      | true =>
        refine ih _ _ e1 ?_ e3 e4
        simp only [e2, if_true]
  exact loop phrases _ _ rfl rfl rfl (Or.inl ⟨rfl, rfl⟩)

end scores

/-- So the standardized address is the same. -/
theorem C77_same_address (env : Env F D) (laws : LtLaws env.fo) (signs : SignLaws env.fo)
    (h0 : env.fo.le0 env.fo.zero = true) (t t' : Str) (g g' : Grammar F)
    (hg : Grammar.initialize env.u.toCharTables env.fo t = .ok g)
    (hg' : Grammar.initialize env.u.toCharTables env.fo t' = .ok g') (σ : F → F) (sc : Scaling env.fo σ)
    (h : Rescored σ g g') (address lexicon locale filter : Str) :
    stdStandardize env address t' lexicon locale filter = stdStandardize env address t lexicon locale filter := by
  obtain ⟨wf, hb, hr⟩ := C29_constructed_wf _ env.fo h0 _ g hg
  obtain ⟨wf', _, _⟩ := C29_constructed_wf _ env.fo h0 _ g' hg'
  unfold stdStandardize loadGrammar
  rw [hg, hg']
  simp only
  split
  · rfl
  · rfl
  · unfold standardizeAddr standardizeAddrWith
    split
    · rfl
    · rfl
    · rename_i phrases _
      obtain ⟨r, r', k1, k2, e1, e2, _, e4⟩ := C77_scaled_best laws signs.neg_lt sc wf wf' hb hr h phrases
      rw [k1, k2]
      simp only
      have hge : env.fo.ge0 r'.score = env.fo.ge0 r.score := by
        have pos : ∀ {z : F}, (z = env.fo.zero ∨ env.fo.lt env.fo.zero z = true) → env.fo.ge0 z = true := by
          intro z hz
          rcases hz with rfl | hz
          · exact signs.zero_ge
          · exact signs.pos_ge _ hz
        rcases e4 with ⟨a, b⟩ | ⟨a, b⟩
        · rw [a, b]
        · rw [b, pos a, pos]
          rcases a with a | a
          · left; rw [a, sc.zero]
          · right; rw [← sc.zero, sc.lt]; exact a
      rw [hge, e1, e2]

/-- Multiplication by a positive number is such a change (in binary floating point: by a power of two, as long as
nothing overflows or underflows). -/
theorem scaling_mul (c : Rat) (hc : 0 < c) : Scaling ratOps (c * ·) where
  zero := Rat.mul_zero c
  add x y := Rat.mul_add c x y
  divNat x n := by
    show c * (x / n) = c * x / n
    rw [Rat.div_def, Rat.div_def, Rat.mul_assoc]
  lt x y := by
    show decide (c * x < c * y) = decide (x < y)
    simp only [Rat.mul_lt_mul_left hc]

theorem derives_rules {G : Grammar F} (wf : WfGrammar G) {ss : List Str} {rs : List (Rule F)} {m : Nat}
    (h : Derives G ss rs m) : (ss ≠ [] → rs ≠ []) ∧ ∀ r ∈ rs, ∃ sec ∈ G.rules, r ∈ sec.rules := by
  induction h with
  | done => exact ⟨fun h => absurd rfl h, by simp⟩
  | rule h1 _ h3 _ ih =>
    refine ⟨fun _ => by simp, ?_⟩
    intro q hq
    rcases List.mem_cons.1 hq with rfl | hq
    · exact ⟨_, h1, h3⟩
    · exact ih.2 q hq
  | @expand s ss sec refs rs m h1 _ h3 _ ih =>
    refine ⟨fun _ => ih.1 ?_, ih.2⟩
    have := wf.nonempty sec h1 refs h3
    cases refs with
    | nil => exact absurd rfl this
    | cons a as => simp

theorem average_range (lo hi : Rat) (rs : List (Rule Rat)) (hne : rs ≠ []) (h : ∀ r ∈ rs, lo ≤ r.score ∧ r.score ≤ hi) :
    lo ≤ average ratOps rs ∧ average ratOps rs ≤ hi := by
  have sum : ∀ (rs : List (Rule Rat)) (x : Rat), (∀ r ∈ rs, lo ≤ r.score ∧ r.score ≤ hi) →
      x + lo * (rs.length : Nat) ≤ (rs.map (·.score)).foldl (· + ·) x ∧
      (rs.map (·.score)).foldl (· + ·) x ≤ x + hi * (rs.length : Nat) := by
    intro rs
    induction rs with
    | nil => intro x _; simp [Rat.mul_zero, Rat.add_zero]
    | cons r rs ih =>
      intro x hr
      have h1 := hr r List.mem_cons_self
      have h2 := ih (x + r.score) (fun q hq => hr q (List.mem_cons_of_mem _ hq))
      simp only [List.map_cons, List.foldl_cons, List.length_cons]
      have e : ((rs.length + 1 : Nat) : Rat) = (rs.length : Rat) + 1 := by simp
      rw [e]
      generalize List.foldl (· + ·) (x + r.score) (List.map (·.score) rs) = z at *
      grind
  have hpos : (0 : Rat) < (rs.length : Nat) := by
    have : 0 < rs.length := List.length_pos_iff.2 hne
    exact_mod_cast this
  have := sum rs 0 h
  unfold average
  show lo ≤ List.foldl (· + ·) 0 _ / ((rs.length : Nat) : Rat) ∧ List.foldl (· + ·) 0 _ / ((rs.length : Nat) : Rat) ≤ hi
  generalize List.foldl (· + ·) 0 (List.map (·.score) rs) = z at *
  rw [Rat.zero_add, Rat.zero_add] at this
  constructor
  · rw [← Rat.not_lt, Rat.div_lt_iff hpos, Rat.not_lt]
    exact this.1
  · rw [← Rat.not_lt, Rat.lt_div_iff hpos, Rat.not_lt]
    exact this.2

/-- The score of a match lies between the smallest and the largest score of a rule. -/
theorem C77_score_range {G : Grammar Rat} (wf : WfGrammar G) (hb : Balanced G) (hr : HasRoot G) (lo hi : Rat) (h0 : 0 ≤ lo)
    (h : ∀ sec ∈ G.ruleSections, ∀ r ∈ sec.2, lo ≤ r.score ∧ r.score ≤ hi) (phrases : List (List Token)) :
    ∃ r, searchAndReclassBestOf G ratOps phrases = .ok r ∧ (r.score = -1 ∨ (lo ≤ r.score ∧ r.score ≤ hi)) := by
  obtain ⟨rs, hrs, hc⟩ := C42_first_best_phrase ratOps_laws (by decide +kernel) wf hb hr phrases
  rcases hc with ⟨i, r, hi', _, _, hok⟩ | ⟨_, hok⟩
  · refine ⟨r, hok, ?_⟩
    have hm : Outcome.ok r ∈ phrases.map (searchAndReclassBest G ratOps) := by
      rw [hrs]; exact List.mem_map.2 ⟨r, List.mem_of_getElem? hi', rfl⟩
    obtain ⟨phrase, _, e⟩ := List.mem_map.1 hm
    obtain ⟨results, hs⟩ := search_root wf hr phrase
    by_cases hne : results = []
    · left
      obtain ⟨results', r', hs', e', hnone, _⟩ := C41_no_match_iff ratOps_laws wf hb hr phrase
      rw [hs] at hs'; cases hs'
      rw [e] at e'; cases e'
      rw [hnone hne]
      rfl
    · right
      have avg : ∀ p ∈ results, lo ≤ average ratOps p.rules ∧ average ratOps p.rules ≤ hi := by
        intro p hp
        obtain ⟨ps, hps, _⟩ := Token.enumerate_picks phrase
        rcases search_spec wf c!"ADDRESS" phrase ps hps with ⟨results', h1, _, hmem⟩ | ⟨h1, _⟩
        · rw [hs] at h1; cases h1
          obtain ⟨qs, m, hd, _, _, rfl⟩ := (hmem p).1 hp
          obtain ⟨d1, d2⟩ := derives_rules wf hd
          refine average_range lo hi _ (d1 (by simp)) ?_
          intro q hq
          obtain ⟨sec, hsec, hqs⟩ := d2 q hq
          exact h (sec.name, sec.rules) (List.mem_map.2 ⟨sec, hsec, rfl⟩) q hqs
        · rw [hs] at h1; cases h1
      obtain ⟨j, p, score, nrules, hp, hbest, hc⟩ := C39_best_is_first_max ratOps_laws wf hb phrase results hs hne
      rw [e] at hbest
      cases hbest
      simp only
      rcases hc with ⟨hf, _, _⟩ | ⟨hz, _, rfl, _⟩
      · have h1 := hf.1
        rw [List.getElem?_map, hp] at h1
        simp only [Option.map_some, Option.some.injEq] at h1
        rw [← h1]
        exact avg p (List.mem_of_getElem? hp)
      · have hpm := List.mem_of_getElem? hp
        have h1 := avg p hpm
        have h2 : ¬ ((0 : Rat) < average ratOps p.rules) := by simpa [ratOps] using hz p hpm
        show lo ≤ (0 : Rat) ∧ (0 : Rat) ≤ hi
        grind
  · exact ⟨_, hok, Or.inl rfl⟩

/-- The grammar of `exBlocks` with half the scores. -/
def exHalved : List (List Str) :=
  [[c!"[ADDRESS]", c!"@NUM @STREET", c!""], [c!"[NUM]", c!"# numbers", c!"NUMBER -> HOUSE -> 0.45"],
   [c!"[STREET]", c!"WORD -> STREET -> 0.25", c!"WORD TYPE -> STREET SUFTYP -> 0.4"]]

example : Scaling ratOps ((1/2 : Rat) * ·) ∧ ∃ g g' : Grammar Rat,
    Grammar.initialize asciiTables ratOps (unlines exBlocks.flatten) = .ok g ∧
    Grammar.initialize asciiTables ratOps (unlines exHalved.flatten) = .ok g' ∧ Rescored ((1/2 : Rat) * ·) g g' ∧
    (∀ sec ∈ g.ruleSections, ∀ r ∈ sec.2, (1/2 : Rat) ≤ r.score ∧ r.score ≤ 9/10) := by
  refine ⟨scaling_mul _ (by decide +kernel), ?_⟩
  obtain ⟨g, hg, h1⟩ : ∃ g, Grammar.initialize asciiTables ratOps (unlines exBlocks.flatten) = .ok g ∧
      (g.metaNames = [(c!"ADDRESS", [[c!"NUM", c!"STREET"]])] ∧
       g.ruleSections = [(c!"NUM", [⟨[.NUMBER], [.HOUSE], 9/10⟩]),
         (c!"STREET", [⟨[.WORD], [.STREET], 1/2⟩, ⟨[.WORD, .TYPE], [.STREET, .SUFTYP], 8/10⟩])]) :=
    exists_ok (by decide +kernel)
  obtain ⟨g', hg', h2⟩ : ∃ g, Grammar.initialize asciiTables ratOps (unlines exHalved.flatten) = .ok g ∧
      (g.metaNames = [(c!"ADDRESS", [[c!"NUM", c!"STREET"]])] ∧
       g.ruleSections = [(c!"NUM", [⟨[.NUMBER], [.HOUSE], 9/20⟩]),
         (c!"STREET", [⟨[.WORD], [.STREET], 1/4⟩, ⟨[.WORD, .TYPE], [.STREET, .SUFTYP], 8/20⟩])]) :=
    exists_ok (by decide +kernel)
  exact ⟨g, g', hg, hg', ⟨by rw [h1.1, h2.1], by rw [h1.2, h2.2]; decide +kernel⟩, by rw [h1.2]; decide +kernel⟩

/-! ## C78 -/

/-- Writing the lines of the sections of an accepted grammar text in another order, or some of them several times,
changes neither that it is accepted, nor its check status, nor which results a search finds. -/
theorem C78_line_order (ct : CharTables) (fo : FloatOps F) (h0 : fo.le0 fo.zero = true) (bs bs' : List (Str × List Str))
    (ha : Alike bs bs') (hs : ∀ b ∈ bs, IsSection ct (b.1 :: b.2)) (hn : ∀ l ∈ linesOf bs, '\n' ∉ l)
    (hb : NoBom (unlines (linesOf bs))) (hb' : NoBom (unlines (linesOf bs'))) (g : Grammar F)
    (hg : Grammar.initialize ct fo (unlines (linesOf bs)) = .ok g) :
    ∃ g', Grammar.initialize ct fo (unlines (linesOf bs')) = .ok g' ∧
      Alike g.metaNames g'.metaNames ∧ Alike g.ruleSections g'.ruleSections ∧ g'.status = g.status ∧
      ∀ node phrase results, search g node phrase = .ok results →
        ∃ results', search g' node phrase = .ok results' ∧ ∀ p, p ∈ results' ↔ p ∈ results := by
  obtain ⟨m1, m2, m3⟩ := (C32_text_meaning ct fo h0 _ hn hb _ _).1 ⟨g, hg, rfl, rfl⟩
  obtain ⟨ms, rs, k1, k2, k3⟩ := grammarMeans_alike ct fo h0 ha hs m1
  have nd : ¬ Dangling ms rs := fun h => m2 (dangling_alike k2.symm k3.symm h)
  have hr := rooted_alike k2 k3 m3
  have hn' : ∀ l ∈ linesOf bs', '\n' ∉ l := by
    intro l hl
    refine hn l ?_
    unfold linesOf at hl ⊢
    obtain ⟨b, hb, hlb⟩ := List.mem_flatMap.1 hl
    obtain ⟨c, hc, e1, e2⟩ := ha.symm.find b hb
    refine List.mem_flatMap.2 ⟨c, hc, ?_⟩
    rcases List.mem_cons.1 hlb with rfl | h
    · rw [e1]; exact List.mem_cons_self
    · exact List.mem_cons_of_mem _ ((e2 l).1 h)
  obtain ⟨g', hg', rfl, rfl⟩ := (C32_text_meaning ct fo h0 _ hn' hb' ms rs).2 ⟨k1, nd, hr⟩
  obtain ⟨wf, _, _⟩ := C29_constructed_wf ct fo h0 _ g hg
  obtain ⟨wf', _, _⟩ := C29_constructed_wf ct fo h0 _ g' hg'
  have w1 : Within g g' := alike_within k2 k3
  have w2 : Within g' g := alike_within k2.symm k3.symm
  refine ⟨g', hg', k2, k3, ?_, ?_⟩
  · obtain ⟨s1, s2, _⟩ := C30_status_of_constructed ct fo h0 _ g hg
    obtain ⟨s1', s2', _⟩ := C30_status_of_constructed ct fo h0 _ g' hg'
    by_cases hu : Unreferenced g.metaNames g.ruleSections
    · rw [s1.2 hu, s1'.2 (unreferenced_alike k2 k3 hu)]
    · rw [s2.2 hu, s2'.2 (fun h => hu (unreferenced_alike k2.symm k3.symm h))]
  · intro node phrase results h
    obtain ⟨results', h', sub⟩ := C60_keeps_results wf wf' w1 node phrase results h
    obtain ⟨results'', h'', sub'⟩ := C60_keeps_results wf' wf w2 node phrase results' h'
    rw [h] at h''; cases h''
    exact ⟨results', h', fun p => ⟨sub' p, sub p⟩⟩

/-- Of the best scores neither is above the other. -/
theorem C78_same_score {fo : FloatOps F} {nan : F → Prop} (laws : NanLaws fo nan)
    (hm1 : fo.lt (fo.ofInt (-1)) fo.zero = true) {G H : Grammar F}
    (wfG : WfGrammar G) (wfH : WfGrammar H) (hbG : Balanced G) (hbH : Balanced H) (hrG : HasRoot G) (hrH : HasRoot H)
    (h1 : Alike G.metaNames H.metaNames) (h2 : Alike G.ruleSections H.ruleSections) (phrases : List (List Token)) :
    ∃ r r', searchAndReclassBestOf G fo phrases = .ok r ∧ searchAndReclassBestOf H fo phrases = .ok r' ∧
      fo.lt r'.score r.score = false ∧ fo.lt r.score r'.score = false := by
  obtain ⟨r, r', k1, k2, k3⟩ := C60_best_not_worse laws hm1 wfG wfH hbG hbH hrG hrH (alike_within h1 h2) phrases
  obtain ⟨q', q, l1, l2, l3⟩ := C60_best_not_worse laws hm1 wfH wfG hbH hbG hrH hrG (alike_within h1.symm h2.symm) phrases
  rw [k1] at l2; cases l2
  rw [k2] at l1; cases l1
  exact ⟨r, r', k1, k2, k3, l3⟩

theorem address_kept (env : Env F D) (laws : LtLaws env.fo) (signs : SignLaws env.fo)
    (h0 : env.fo.le0 env.fo.zero = true) (ha : env.alloc 1 = true) (t t' : Str)
    (g g' : Grammar F) (hg : Grammar.initialize env.u.toCharTables env.fo t = .ok g)
    (hg' : Grammar.initialize env.u.toCharTables env.fo t' = .ok g')
    (hw : ∀ phrase results, search g c!"ADDRESS" phrase = .ok results →
      ∃ results', search g' c!"ADDRESS" phrase = .ok results' ∧ ∀ p ∈ results, p ∈ results') (address lexicon locale filter : Str)
    (x : StdAddr) (h : stdStandardize env address t lexicon locale filter = some ⟨some x, none⟩) :
    ∃ y, stdStandardize env address t' lexicon locale filter = some ⟨some y, none⟩ := by
  have hlg : loadGrammar env t = .ok g := by unfold loadGrammar; rw [hg]
  have hlg' : loadGrammar env t' = .ok g' := by unfold loadGrammar; rw [hg']
  unfold stdStandardize at h
  rw [hlg] at h
  simp only at h
  cases hlex : loadLexicon env lexicon with
  | undefined => rw [hlex] at h; cases h
  | throws m => rw [hlex] at h; cases h
  | ok lex =>
    rw [hlex] at h
    simp only at h
    have hph : ∃ phrases, phrasesOf env lex locale filter address = .ok phrases := by
      cases hp : phrasesOf env lex locale filter address with
      | undefined => simp [standardizeAddr, standardizeAddrWith, hp] at h
      | throws m => simp [standardizeAddr, standardizeAddrWith, hp] at h
      | ok phrases => exact ⟨phrases, rfl⟩
    obtain ⟨phrases, hp⟩ := hph
    rcases C48_address_iff_match env laws signs h0 ha _ g hlg lex locale filter address phrases hp with
      ⟨_, _, phrase, hphr, ⟨results, hres, hne⟩, _⟩ | ⟨h1, _⟩
    · rcases C48_address_iff_match env laws signs h0 ha _ g' hlg' lex locale filter address phrases hp with
        ⟨y, hy, _⟩ | ⟨_, hall⟩
      · refine ⟨y, ?_⟩
        unfold stdStandardize
        rw [hlg', hlex]
        exact hy
      · exfalso
        obtain ⟨results', hr', hsub⟩ := hw phrase results hres
        rw [hall phrase hphr] at hr'
        cases hr'
        obtain ⟨p, hp⟩ := List.exists_mem_of_ne_nil _ hne
        cases hsub p hp
    · rw [h1] at h; cases h

theorem address_kept_within (env : Env F D) (laws : LtLaws env.fo) (signs : SignLaws env.fo)
    (h0 : env.fo.le0 env.fo.zero = true) (ha : env.alloc 1 = true) (t t' : Str)
    (g g' : Grammar F) (hg : Grammar.initialize env.u.toCharTables env.fo t = .ok g)
    (hg' : Grammar.initialize env.u.toCharTables env.fo t' = .ok g') (hw : Within g g') (address lexicon locale filter : Str)
    (x : StdAddr) (h : stdStandardize env address t lexicon locale filter = some ⟨some x, none⟩) :
    ∃ y, stdStandardize env address t' lexicon locale filter = some ⟨some y, none⟩ := by
  obtain ⟨wf, _, _⟩ := C29_constructed_wf _ env.fo h0 _ g hg
  obtain ⟨wf', _, _⟩ := C29_constructed_wf _ env.fo h0 _ g' hg'
  exact address_kept env laws signs h0 ha t t' g g' hg hg'
    (fun phrase results h => C60_keeps_results wf wf' hw c!"ADDRESS" phrase results h) address lexicon locale filter x h

/-- The same addresses can be standardized. -/
theorem C78_same_addresses (env : Env F D) (laws : LtLaws env.fo) (signs : SignLaws env.fo)
    (h0 : env.fo.le0 env.fo.zero = true) (halloc : env.alloc 1 = true)
    (bs bs' : List (Str × List Str)) (ha : Alike bs bs')
    (hs : ∀ b ∈ bs, IsSection env.u.toCharTables (b.1 :: b.2)) (hn : ∀ l ∈ linesOf bs, '\n' ∉ l)
    (hb : NoBom (unlines (linesOf bs))) (hb' : NoBom (unlines (linesOf bs'))) (g : Grammar F)
    (hg : Grammar.initialize env.u.toCharTables env.fo (unlines (linesOf bs)) = .ok g) (address lexicon locale filter : Str) :
    (∃ x, stdStandardize env address (unlines (linesOf bs')) lexicon locale filter = some ⟨some x, none⟩) ↔
      (∃ x, stdStandardize env address (unlines (linesOf bs)) lexicon locale filter = some ⟨some x, none⟩) := by
  obtain ⟨g', hg', k2, k3, _⟩ := C78_line_order _ env.fo h0 bs bs' ha hs hn hb hb' g hg
  constructor
  · rintro ⟨x, h⟩
    exact address_kept_within env laws signs h0 halloc _ _ g' g hg' hg (alike_within k2.symm k3.symm) _ _ _ _ x h
  · rintro ⟨x, h⟩
    exact address_kept_within env laws signs h0 halloc _ _ g g' hg hg' (alike_within k2 k3) _ _ _ _ x h

/-- But the order of rules decides between matches with the same score. -/
theorem C78_order_decides : ∃ (bs bs' : List (Str × List Str)) (g g' : Grammar Rat) (phrase : List Token) (r r' : BestResult Rat),
    Alike bs bs' ∧ Grammar.initialize asciiTables ratOps (unlines (linesOf bs)) = .ok g ∧
    Grammar.initialize asciiTables ratOps (unlines (linesOf bs')) = .ok g' ∧
    searchAndReclassBest g ratOps phrase = .ok r ∧ searchAndReclassBest g' ratOps phrase = .ok r' ∧
    r.tokens.map (·.outclass) = [.STREET] ∧ r'.tokens.map (·.outclass) = [.CITY] := by
  have found : ∀ (t : Str) (ph : List Token) (o : List OutType), o ≠ [] →
      (match Grammar.initialize asciiTables ratOps t with
        | .ok g => decide ((match searchAndReclassBest g ratOps ph with | .ok r => r.tokens.map (·.outclass) | _ => []) = o)
        | .error _ => false) = true →
      ∃ g r, Grammar.initialize asciiTables ratOps t = .ok g ∧ searchAndReclassBest g ratOps ph = .ok r ∧
        r.tokens.map (·.outclass) = o := by
    intro t ph o ho h
    cases hg : Grammar.initialize asciiTables ratOps t with
    | error e => rw [hg] at h; cases h
    | ok g =>
    rw [hg] at h
    have h1 := of_decide_eq_true h
    cases hr : searchAndReclassBest g ratOps ph with
    | ok r => rw [hr] at h1; exact ⟨g, r, rfl, hr, h1⟩
    | throws m => rw [hr] at h1; exact absurd h1.symm ho
    | undefined => rw [hr] at h1; exact absurd h1.symm ho
  obtain ⟨g, r, hg, hr, h⟩ := found
    (unlines (linesOf [(c!"[ADDRESS]", [c!"WORD -> STREET -> 0.5", c!"WORD -> CITY -> 0.5"])]))
    [{ text := c!"MAIN", inclass := [.WORD] }] [.STREET] (by decide) (by decide +kernel)
  obtain ⟨g', r', hg', hr', h'⟩ := found
    (unlines (linesOf [(c!"[ADDRESS]", [c!"WORD -> CITY -> 0.5", c!"WORD -> STREET -> 0.5"])]))
    [{ text := c!"MAIN", inclass := [.WORD] }] [.CITY] (by decide) (by decide +kernel)
  refine ⟨_, _, g, g', _, r, r', ?_, hg, hg', hr, hr', h, h'⟩
  refine .cons (fun x => ?_) .nil
  simp only [List.mem_cons, List.not_mem_nil, or_false]
  exact Or.comm

/-- The sections of `exBlocks` with lines moved and repeated. -/
def exShuffled : List (Str × List Str) :=
  [(c!"[ADDRESS]", [c!"", c!"@NUM @STREET"]), (c!"[NUM]", [c!"NUMBER -> HOUSE -> 0.9", c!"# numbers"]),
   (c!"[STREET]", [c!"WORD TYPE -> STREET SUFTYP -> 0.8", c!"WORD -> STREET -> 0.5", c!"WORD TYPE -> STREET SUFTYP -> 0.8"])]

example : ∃ bs : List (Str × List Str), Alike bs exShuffled ∧ linesOf bs = exBlocks.flatten ∧
    (∀ b ∈ bs, IsSection asciiTables (b.1 :: b.2)) ∧ (∀ l ∈ linesOf bs, '\n' ∉ l) ∧
    NoBom (unlines (linesOf bs)) ∧ NoBom (unlines (linesOf exShuffled)) ∧
    (∃ g, Grammar.initialize asciiTables ratOps (unlines (linesOf bs)) = .ok g ∧ g.status = .CHECK_OK) := by
  refine ⟨[(c!"[ADDRESS]", [c!"@NUM @STREET", c!""]), (c!"[NUM]", [c!"# numbers", c!"NUMBER -> HOUSE -> 0.9"]),
    (c!"[STREET]", [c!"WORD -> STREET -> 0.5", c!"WORD TYPE -> STREET SUFTYP -> 0.8"])], ?_, rfl, ?_, by decide,
    by unfold NoBom; decide, by unfold NoBom; decide, exists_ok (by decide +kernel)⟩
  · refine .cons (fun x => ?_) (.cons (fun x => ?_) (.cons (fun x => ?_) .nil))
    all_goals simp only [List.mem_cons, List.not_mem_nil, or_false]
    all_goals grind
  · intro b hb
    refine exBlocks_sections _ ?_
    simp only [List.mem_cons, List.not_mem_nil, or_false] at hb
    rcases hb with rfl | rfl | rfl <;> simp [exBlocks]

end AS.Props
