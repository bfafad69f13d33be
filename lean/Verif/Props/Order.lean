import Verif.Lemmas.GrammarOrder
import Verif.Props.Grammar
import Verif.Props.Wrapper
/-
Properties C59 and C60: the order of the sections of a grammar; adding to a grammar.
-/
namespace AS.Props
open AS AS.Wrapper
variable {F D : Type} (ct : CharTables) (fo : FloatOps F)

theorem flatten_noNl {bs bs' : List (List Str)} (hp : bs.Perm bs') (hn : ∀ l ∈ bs.flatten, '\n' ∉ l) :
    ∀ l ∈ bs'.flatten, '\n' ∉ l := by
  intro l hl
  obtain ⟨b, hb, hlb⟩ := List.mem_flatten.1 hl
  exact hn l (List.mem_flatten.2 ⟨b, hp.mem_iff.2 hb, hlb⟩)

theorem bestOf_congr {G H : Grammar F} (h : ∀ phrase, search G c!"ADDRESS" phrase = search H c!"ADDRESS" phrase)
    (fo : FloatOps F) : ∀ phrases, searchAndReclassBestOf G fo phrases = searchAndReclassBestOf H fo phrases := by
  have h1 : ∀ phrase, searchAndReclassBest G fo phrase = searchAndReclassBest H fo phrase := by
    intro phrase
    unfold searchAndReclassBest
    rw [h]
  intro phrases
  unfold searchAndReclassBestOf
  generalize (⟨[], fo.ofInt (-1), some [], fo.ofInt (-1)⟩ : BestResult F) = b
  induction phrases generalizing b with
  | nil => rfl
  | cons p ps ih =>
    simp only [bestPhrases, h1]
    split
    · rfl
    · rfl
    · exact ih _

theorem all_congr {G H : Grammar F} (h : ∀ phrase, search G c!"ADDRESS" phrase = search H c!"ADDRESS" phrase)
    (dops : FloatOps D) (widen : F → D) :
    ∀ phrases, searchAndReclassAll G dops widen phrases = searchAndReclassAll H dops widen phrases := by
  have h1 : ∀ phrases, rowsOfAll G dops widen phrases = rowsOfAll H dops widen phrases := by
    intro phrases
    induction phrases with
    | nil => rfl
    | cons p ps ih => simp only [rowsOfAll, h, ih]
  intro phrases
  unfold searchAndReclassAll
  rw [h1]

/-! ## C59 -/

/-- Writing the sections of a grammar text in another order does not change whether it is accepted, the
check status, nor what any search finds, in which order and how often. -/
theorem C59_section_order (h0 : fo.le0 fo.zero = true) (bs bs' : List (List Str)) (hp : bs.Perm bs')
    (hs : ∀ b ∈ bs, IsSection ct b) (hn : ∀ l ∈ bs.flatten, '\n' ∉ l) (hb : NoBom (unlines bs.flatten))
    (hb' : NoBom (unlines bs'.flatten)) (g : Grammar F) (hg : Grammar.initialize ct fo (unlines bs.flatten) = .ok g) :
    ∃ g', Grammar.initialize ct fo (unlines bs'.flatten) = .ok g' ∧ SameSections g g' ∧ g'.status = g.status ∧
      ∀ node phrase, search g' node phrase = search g node phrase := by
  obtain ⟨m1, m2, m3⟩ := (C32_text_meaning ct fo h0 _ hn hb _ _).1 ⟨g, hg, rfl, rfl⟩
  obtain ⟨ms, rs, k1, k2, k3⟩ := grammarMeans_blocks ct fo hp hs m1
  have nd : ¬ Dangling ms rs := fun h => m2 (dangling_perm k2.symm k3.symm h)
  have hr := rooted_perm k2 k3 m3
  obtain ⟨g', hg', rfl, rfl⟩ := (C32_text_meaning ct fo h0 _ (flatten_noNl hp hn) hb' ms rs).2 ⟨k1, nd, hr⟩
  have same : SameSections g g' := ⟨fun s => k2.mem_iff, fun s => k3.mem_iff⟩
  obtain ⟨wf, _, _⟩ := C29_constructed_wf ct fo h0 _ g hg
  obtain ⟨wf', _, _⟩ := C29_constructed_wf ct fo h0 _ g' hg'
  refine ⟨g', hg', same, ?_, fun node phrase => (search_sameSections wf wf' same node phrase).symm⟩
  obtain ⟨s1, s2, _⟩ := C30_status_of_constructed ct fo h0 _ g hg
  obtain ⟨s1', s2', _⟩ := C30_status_of_constructed ct fo h0 _ g' hg'
  by_cases hu : Unreferenced g.metaNames g.ruleSections
  · rw [s1.2 hu, s1'.2 (unreferenced_perm k2 k3 hu)]
  · rw [s2.2 hu, s2'.2 (fun h => hu (unreferenced_perm k2.symm k3.symm h))]

/-- So the standardized address and the listed matches are the same. -/
theorem C59_same_address (env : Env F D) (h0 : env.fo.le0 env.fo.zero = true) (bs bs' : List (List Str)) (hp : bs.Perm bs')
    (hs : ∀ b ∈ bs, IsSection env.u.toCharTables b) (hn : ∀ l ∈ bs.flatten, '\n' ∉ l)
    (hb : NoBom (unlines bs.flatten)) (hb' : NoBom (unlines bs'.flatten))
    (g : Grammar F) (hg : Grammar.initialize env.u.toCharTables env.fo (unlines bs.flatten) = .ok g)
    (address lexicon locale filter : Str) :
    stdStandardize env address (unlines bs'.flatten) lexicon locale filter =
      stdStandardize env address (unlines bs.flatten) lexicon locale filter ∧
    stdMatchAddress env address (unlines bs'.flatten) lexicon locale filter =
      stdMatchAddress env address (unlines bs.flatten) lexicon locale filter := by
  obtain ⟨g', hg', _, _, hsearch⟩ := C59_section_order _ env.fo h0 bs bs' hp hs hn hb hb' g hg
  have e1 := bestOf_congr (fun phrase => hsearch c!"ADDRESS" phrase) env.fo
  have e2 := all_congr (fun phrase => hsearch c!"ADDRESS" phrase) env.dops env.widen
  constructor
  · unfold stdStandardize loadGrammar
    rw [hg, hg']
    simp only
    split
    · rfl
    · rfl
    · unfold standardizeAddr
      rw [funext e1]
  · unfold stdMatchAddress loadGrammar
    rw [hg, hg']
    simp only
    split
    · rfl
    · rfl
    · unfold matchAddr
      rw [funext e2]

/-- The sections of a small grammar. -/
def exBlocks : List (List Str) :=
  [[c!"[ADDRESS]", c!"@NUM @STREET", c!""], [c!"[NUM]", c!"# numbers", c!"NUMBER -> HOUSE -> 0.9"],
   [c!"[STREET]", c!"WORD -> STREET -> 0.5", c!"WORD TYPE -> STREET SUFTYP -> 0.8"]]

theorem exBlocks_sections : ∀ b ∈ exBlocks, IsSection asciiTables b := by
  have key : ∀ (h name : Str) (body : List Str), sectionName? asciiTables h = some name →
      (∀ l ∈ body, sectionName? asciiTables l = none) → (∃ l ∈ body, isCommentLine asciiTables l = false) →
      IsSection asciiTables (h :: body) := by
    intro h name body h1 h2 ⟨l, hl, hc⟩
    refine ⟨h, name, body, rfl, (sectionName?_iff _ _ _).1 h1, ?_, l, hl, ?_⟩
    · intro l hl n hn
      have := h2 l hl
      rw [(sectionName?_iff asciiTables l n).2 hn] at this
      cases this
    · intro hcom
      rw [(isCommentLine_iff _ _).2 hcom] at hc
      cases hc
  intro b hb
  simp only [exBlocks, List.mem_cons, List.not_mem_nil, or_false] at hb
  rcases hb with rfl | rfl | rfl
  · exact key _ c!"ADDRESS" _ (by decide) (by decide) ⟨_, List.mem_cons_self, by decide⟩
  · exact key _ c!"NUM" _ (by decide) (by decide) ⟨_, List.mem_cons_of_mem _ List.mem_cons_self, by decide⟩
  · exact key _ c!"STREET" _ (by decide) (by decide) ⟨_, List.mem_cons_self, by decide⟩

example : exBlocks.Perm exBlocks.reverse ∧ (∀ b ∈ exBlocks, IsSection asciiTables b) ∧
    (∀ l ∈ exBlocks.flatten, '\n' ∉ l) ∧ NoBom (unlines exBlocks.flatten) ∧ NoBom (unlines exBlocks.reverse.flatten) ∧
    (∃ g, Grammar.initialize asciiTables ratOps (unlines exBlocks.flatten) = .ok g ∧ g.status = .CHECK_OK) ∧
    unlines exBlocks.reverse.flatten ≠ unlines exBlocks.flatten :=
  ⟨(List.reverse_perm _).symm, exBlocks_sections, by decide, by unfold NoBom; decide, by unfold NoBom; decide,
    exists_ok (by decide +kernel), by decide⟩

/-! ## C60 -/

/-- Inserting a line that is not a header keeps every rule, if both texts are accepted. -/
theorem C60_insert_line (h0 : fo.le0 fo.zero = true) (a b : List Str) (l : Str) (hl : ∀ n, ¬ IsHeader ct l n)
    (hn : ∀ x ∈ a ++ l :: b, '\n' ∉ x) (hb : NoBom (unlines (a ++ b))) (hb' : NoBom (unlines (a ++ l :: b)))
    (g g' : Grammar F) (hg : Grammar.initialize ct fo (unlines (a ++ b)) = .ok g)
    (hg' : Grammar.initialize ct fo (unlines (a ++ l :: b)) = .ok g') : Within g g' := by
  have hn' : ∀ x ∈ a ++ b, '\n' ∉ x := by
    intro x hx
    refine hn x ?_
    rcases List.mem_append.1 hx with h | h
    · exact List.mem_append_left _ h
    · exact List.mem_append_right _ (List.mem_cons_of_mem _ h)
  obtain ⟨m1, _, _⟩ := (C32_text_meaning ct fo h0 _ hn' hb _ _).1 ⟨g, hg, rfl, rfl⟩
  obtain ⟨m2, _, _⟩ := (C32_text_meaning ct fo h0 _ hn hb' _ _).1 ⟨g', hg', rfl, rfl⟩
  exact grammarMeans_insert ct fo h0 a b l hl m1 m2

/-- A grammar with more rules finds everything the smaller one finds. -/
theorem C60_keeps_results {G H : Grammar F} (wfG : WfGrammar G) (wfH : WfGrammar H) (hw : Within G H) (node : Str)
    (phrase : List Token) (results : List (SearchPath F)) (h : search G node phrase = .ok results) :
    ∃ results', search H node phrase = .ok results' ∧ ∀ p ∈ results, p ∈ results' := by
  obtain ⟨ps, hps, _⟩ := Token.enumerate_picks phrase
  rcases search_spec wfG node phrase ps hps with ⟨r, h1, hex, hmem⟩ | ⟨h1, _⟩
  · rw [h] at h1
    cases h1
    rcases search_spec wfH node phrase ps hps with ⟨r', h2, _, hmem'⟩ | ⟨h2, a, b⟩
    · refine ⟨r', h2, fun p hp => ?_⟩
      obtain ⟨rs, m, hd, hl, hin, rfl⟩ := (hmem p).1 hp
      exact (hmem' _).2 ⟨rs, m, hw.derives hd, hl, hin, rfl⟩
    · exfalso
      rcases hex with ⟨sec, hs, e⟩ | ⟨sec, hs, e⟩
      · obtain ⟨t, ht, e1, _⟩ := hw.1 (sec.name, sec.rules.map (·.map (·.name))) (List.mem_map.2 ⟨sec, hs, rfl⟩)
        obtain ⟨sec', hs', rfl⟩ := List.mem_map.1 ht
        exact a sec' hs' (e1.trans e)
      · obtain ⟨t, ht, e1, _⟩ := hw.2 (sec.name, sec.rules) (List.mem_map.2 ⟨sec, hs, rfl⟩)
        obtain ⟨sec', hs', rfl⟩ := List.mem_map.1 ht
        exact b sec' hs' (e1.trans e)
  · rw [h] at h1; cases h1

/-- The best score of a grammar that finds more is not worse. -/
theorem best_not_worse {fo : FloatOps F} {nan : F → Prop} (laws : NanLaws fo nan)
    (hm1 : fo.lt (fo.ofInt (-1)) fo.zero = true) {G H : Grammar F}
    (wfG : WfGrammar G) (wfH : WfGrammar H) (hbG : Balanced G) (hbH : Balanced H) (hrG : HasRoot G) (hrH : HasRoot H)
    (phrases : List (List Token)) (hw : ∀ phrase results, search G c!"ADDRESS" phrase = .ok results →
      ∃ results', search H c!"ADDRESS" phrase = .ok results' ∧ ∀ p ∈ results, p ∈ results') :
    ∃ r r', searchAndReclassBestOf G fo phrases = .ok r ∧ searchAndReclassBestOf H fo phrases = .ok r' ∧
      fo.lt r'.score r.score = false := by
  have lt := laws.toLtLaws
  -- one phrase
  have one : ∀ phrase r r', searchAndReclassBest G fo phrase = .ok r → searchAndReclassBest H fo phrase = .ok r' →
      fo.lt r'.score r.score = false := by
    intro phrase r r' hr hr'
    obtain ⟨results, r1, hs, h1, e1, _⟩ := C41_no_match_iff lt wfG hbG hrG phrase
    obtain ⟨results', r1', hs', h1', e1', e2'⟩ := C41_no_match_iff lt wfH hbH hrH phrase
    rw [hr] at h1; cases h1
    rw [hr'] at h1'; cases h1'
    obtain ⟨rr, hrr, hsub⟩ := hw phrase results hs
    rw [hs'] at hrr; cases hrr
    by_cases hne : results = []
    · have es : r.score = fo.ofInt (-1) := by rw [e1 hne]
      rw [es]
      by_cases hne' : results' = []
      · have es' : r'.score = fo.ofInt (-1) := by rw [e1' hne']
        rw [es']
        exact lt.irrefl _
      · cases hc : fo.lt r'.score (fo.ofInt (-1)) with
        | false => rfl
        | true =>
          rcases (e2' hne').1 with h | h
          · rw [h] at hc
            have := lt.trans _ _ _ hm1 hc
            rw [lt.irrefl] at this; cases this
          · have := lt.trans _ _ _ (lt.trans _ _ _ hm1 h) hc
            rw [lt.irrefl] at this; cases this
    · obtain ⟨i, p, s, n, hp, hb1, hc1⟩ := C39_best_is_first_max lt wfG hbG phrase results hs hne
      have hne' : results' ≠ [] := by
        intro e
        have := hsub p (List.mem_of_getElem? hp)
        rw [e] at this; cases this
      obtain ⟨i', p', s', n', hp', hb1', hc1'⟩ := C39_best_is_first_max lt wfH hbH phrase results' hs' hne'
      rw [hr] at hb1; cases hb1
      rw [hr'] at hb1'; cases hb1'
      simp only
      rcases hc1 with ⟨fb, hpos, _⟩ | ⟨hall, _, rfl, _⟩
      · have hmem : s ∈ results'.map (fun q => average fo q.rules) := by
          obtain ⟨q, hq, rfl⟩ := List.mem_map.1 (List.mem_of_getElem? fb.1)
          exact List.mem_map.2 ⟨q, hsub q hq, rfl⟩
        rcases hc1' with ⟨fb', _⟩ | ⟨hall', _, rfl, _⟩
        · exact fb'.2.1 s hmem
        · obtain ⟨q, hq, e⟩ := List.mem_map.1 hmem
          rw [← e]
          exact hall' q hq
      · rcases hc1' with ⟨_, hpos', _⟩ | ⟨_, _, rfl, _⟩
        · cases hc : fo.lt s' fo.zero with
          | false => rfl
          | true =>
            have := lt.trans _ _ _ hpos' hc
            rw [lt.irrefl] at this; cases this
        · exact lt.irrefl _
  obtain ⟨rs, hrs, hc⟩ := C42_first_best_phrase lt hm1 wfG hbG hrG phrases
  obtain ⟨rs', hrs', hc'⟩ := C42_first_best_phrase lt hm1 wfH hbH hrH phrases
  -- scores are -1, zero or positive
  have range : ∀ phrase r', searchAndReclassBest H fo phrase = .ok r' →
      ¬ nan r'.score ∧ (r'.score = fo.ofInt (-1) ∨ fo.lt (fo.ofInt (-1)) r'.score = true) := by
    intro phrase r' hr'
    obtain ⟨results', r1', hs', h1', e1', e2'⟩ := C41_no_match_iff lt wfH hbH hrH phrase
    rw [hr'] at h1'; cases h1'
    by_cases hne' : results' = []
    · have es' : r'.score = fo.ofInt (-1) := by rw [e1' hne']
      refine ⟨?_, Or.inl es'⟩
      intro hn
      rw [es'] at hn
      rw [laws.left _ _ hn] at hm1; cases hm1
    · rcases (e2' hne').1 with h | h
      · refine ⟨?_, Or.inr (by rw [h]; exact hm1)⟩
        intro hn
        rw [h] at hn
        rw [laws.right _ _ hn] at hm1; cases hm1
      · refine ⟨?_, Or.inr (lt.trans _ _ _ hm1 h)⟩
        intro hn
        rw [laws.right _ _ hn] at h; cases h
  have lookup : ∀ {A : Grammar F} {qs : List (BestResult F)}, phrases.map (searchAndReclassBest A fo) = qs.map .ok →
      ∀ (i : Nat) q, qs[i]? = some q → ∃ phrase, phrases[i]? = some phrase ∧ searchAndReclassBest A fo phrase = .ok q := by
    intro A qs h i q hq
    have : (phrases.map (searchAndReclassBest A fo))[i]? = some (.ok q) := by
      rw [h, List.getElem?_map, hq]; rfl
    rw [List.getElem?_map] at this
    exact Option.map_eq_some_iff.1 this
  have lookup' : ∀ {A : Grammar F} {qs : List (BestResult F)}, phrases.map (searchAndReclassBest A fo) = qs.map .ok →
      ∀ (i : Nat) phrase, phrases[i]? = some phrase → ∃ q, qs[i]? = some q ∧ searchAndReclassBest A fo phrase = .ok q := by
    intro A qs h i phrase hq
    have : (qs.map Outcome.ok)[i]? = some (searchAndReclassBest A fo phrase) := by
      rw [← h, List.getElem?_map, hq]; rfl
    rw [List.getElem?_map] at this
    obtain ⟨q, h1, h2⟩ := Option.map_eq_some_iff.1 this
    exact ⟨q, h1, h2.symm⟩
  rcases hc with ⟨i, r, hi, fb, _, hr⟩ | ⟨hall, hr⟩
  · obtain ⟨phrase, hph, hrp⟩ := lookup hrs i r hi
    obtain ⟨q, hq, hqp⟩ := lookup' hrs' i phrase hph
    have h1 := one phrase r q hrp hqp
    obtain ⟨hnan, hrange⟩ := range phrase q hqp
    rcases hc' with ⟨i', r', hi', fb', _, hr'⟩ | ⟨hall', hr'⟩
    · refine ⟨r, r', hr, hr', ?_⟩
      have h2 := fb'.2.1 q.score (List.mem_map.2 ⟨q, List.mem_of_getElem? hq, rfl⟩)
      cases hc : fo.lt r'.score r.score with
      | false => rfl
      | true =>
        rcases laws.total _ q.score _ hnan hc with h | h
        · rw [h2] at h; cases h
        · rw [h1] at h; cases h
    · refine ⟨r, _, hr, hr', ?_⟩
      obtain ⟨results', r1', hs', h1', e1', e2'⟩ := C41_no_match_iff lt wfH hbH hrH phrase
      rw [hqp] at h1'; cases h1'
      have := hall' phrase (List.mem_of_getElem? hph)
      rw [hs'] at this
      cases this
      have e : q.score = fo.ofInt (-1) := by rw [e1' rfl]
      rw [e] at h1
      exact h1
  · rcases hc' with ⟨i', r', hi', fb', _, hr'⟩ | ⟨hall', hr'⟩
    · refine ⟨_, r', hr, hr', ?_⟩
      simp only
      obtain ⟨phrase, hph, hrp⟩ := lookup hrs' i' r' hi'
      cases hc : fo.lt r'.score (fo.ofInt (-1)) with
      | false => rfl
      | true =>
        rcases (range phrase r' hrp).2 with h | h
        · rw [h, lt.irrefl] at hc; cases hc
        · have := lt.trans _ _ _ h hc
          rw [lt.irrefl] at this; cases this
    · exact ⟨_, _, hr, hr', lt.irrefl _⟩

/-- The best score never gets worse. Scores are compared as IEEE does. -/
theorem C60_best_not_worse {fo : FloatOps F} {nan : F → Prop} (laws : NanLaws fo nan)
    (hm1 : fo.lt (fo.ofInt (-1)) fo.zero = true) {G H : Grammar F}
    (wfG : WfGrammar G) (wfH : WfGrammar H) (hbG : Balanced G) (hbH : Balanced H) (hrG : HasRoot G) (hrH : HasRoot H)
    (hw : Within G H) (phrases : List (List Token)) :
    ∃ r r', searchAndReclassBestOf G fo phrases = .ok r ∧ searchAndReclassBestOf H fo phrases = .ok r' ∧
      fo.lt r'.score r.score = false :=
  best_not_worse laws hm1 wfG wfH hbG hbH hrG hrH phrases fun phrase results h =>
    C60_keeps_results wfG wfH hw c!"ADDRESS" phrase results h

/-- What can be standardized remains so when a line is added to the grammar. -/
theorem C60_address_kept (env : Env F D) (laws : LtLaws env.fo) (signs : SignLaws env.fo)
    (h0 : env.fo.le0 env.fo.zero = true) (ha : env.alloc 1 = true) (a b : List Str) (l : Str)
    (hl : ∀ n, ¬ IsHeader env.u.toCharTables l n) (hn : ∀ x ∈ a ++ l :: b, '\n' ∉ x)
    (hb : NoBom (unlines (a ++ b))) (hb' : NoBom (unlines (a ++ l :: b))) (g' : Grammar F)
    (hg' : Grammar.initialize env.u.toCharTables env.fo (unlines (a ++ l :: b)) = .ok g')
    (address lexicon locale filter : Str) (x : StdAddr)
    (h : stdStandardize env address (unlines (a ++ b)) lexicon locale filter = some ⟨some x, none⟩) :
    ∃ y, stdStandardize env address (unlines (a ++ l :: b)) lexicon locale filter = some ⟨some y, none⟩ := by
  unfold stdStandardize at h
  cases hg : loadGrammar env (unlines (a ++ b)) with
  | undefined => rw [hg] at h; cases h
  | throws m => rw [hg] at h; cases h
  | ok g =>
    rw [hg] at h
    have hlg' : loadGrammar env (unlines (a ++ l :: b)) = .ok g' := by unfold loadGrammar; rw [hg']
    have hinit : Grammar.initialize env.u.toCharTables env.fo (unlines (a ++ b)) = .ok g := by
      unfold loadGrammar at hg
      split at hg
      · next g' e => cases hg; exact e
      · cases hg
    simp only at h
    cases hlex : loadLexicon env lexicon with
    | undefined => rw [hlex] at h; cases h
    | throws m => rw [hlex] at h; cases h
    | ok lex =>
      rw [hlex] at h
      simp only at h
      have hph : ∃ phrases, phrasesOf env lex locale filter address = .ok phrases := by
        cases hp : phrasesOf env lex locale filter address with
        | undefined => simp [standardizeAddr, standardizeAddrWith, hp] at h
        | throws m => simp [standardizeAddr, standardizeAddrWith, hp] at h
        | ok phrases => exact ⟨phrases, rfl⟩
      obtain ⟨phrases, hp⟩ := hph
      have hw := C60_insert_line _ env.fo h0 a b l hl hn hb hb' g g' hinit hg'
      obtain ⟨wf, _, _⟩ := C29_constructed_wf _ env.fo h0 _ g hinit
      obtain ⟨wf', _, _⟩ := C29_constructed_wf _ env.fo h0 _ g' hg'
      rcases C48_address_iff_match env laws signs h0 ha _ g hg lex locale filter address phrases hp with
        ⟨_, _, phrase, hphr, ⟨results, hres, hne⟩, _⟩ | ⟨h1, _⟩
      · rcases C48_address_iff_match env laws signs h0 ha _ g' hlg' lex locale filter address phrases hp with
          ⟨y, hy, _⟩ | ⟨_, hall⟩
        · refine ⟨y, ?_⟩
          unfold stdStandardize
          rw [hlg', hlex]
          exact hy
        · exfalso
          obtain ⟨results', hr', hsub⟩ := C60_keeps_results wf wf' hw c!"ADDRESS" phrase results hres
          rw [hall phrase hphr] at hr'
          cases hr'
          obtain ⟨p, hp⟩ := List.exists_mem_of_ne_nil _ hne
          cases hsub p hp
      · rw [h1] at h; cases h

def isOk {α β : Type} : Except α β → Bool
  | .ok _ => true
  | .error _ => false

/-- A lexicon text with the words of `townLexicon`. -/
def exTown : Str := unlines [c!"LEXICON:\tT\tENG\ten\t2", c!"LEXENTRY:\tNEW YORK\tNY\tCITY\t", c!"LEXENTRY:\tSTR\tSTRASSE\tTYPE\t"]

/-- A grammar text in two parts and a line to go between them. -/
def exBefore : List Str := [c!"[ADDRESS]", c!"@A", c!"[A]", c!"NUMBER CITY TYPE -> HOUSE CITY SUFTYP -> 0.5"]
def exLine : Str := c!"NUMBER WORD WORD TYPE -> HOUSE STREET STREET SUFTYP -> 0.8"
def exAfter : List Str := [c!"NUMBER CITY -> HOUSE CITY -> 0.2"]

theorem noHeader {ct : CharTables} {l : Str} (h : sectionName? ct l = none) : ∀ n, ¬ IsHeader ct l n := by
  intro n hn
  rw [(sectionName?_iff _ _ _).2 hn] at h
  cases h

/-- The line can be added to the text; the address changes, but there still is one. -/
example : (∀ n, ¬ IsHeader exEnv.u.toCharTables exLine n) ∧ (∀ x ∈ exBefore ++ exLine :: exAfter, '\n' ∉ x) ∧
    NoBom (unlines (exBefore ++ exAfter)) ∧ NoBom (unlines (exBefore ++ exLine :: exAfter)) ∧
    (∃ g, Grammar.initialize exEnv.u.toCharTables exEnv.fo (unlines (exBefore ++ exAfter)) = .ok g) ∧
    (∃ g, Grammar.initialize exEnv.u.toCharTables exEnv.fo (unlines (exBefore ++ exLine :: exAfter)) = .ok g) ∧
    stdStandardize exEnv c!"12 new york str" (unlines (exBefore ++ exAfter)) exTown c!"en" c!"SPACE" = some ⟨some
      { house_num := some c!"12", city := some c!"NY", suftype := some c!"STRASSE",
        pattern := some c!"NUMBER CITY TYPE -> HOUSE CITY SUFTYP" }, none⟩ ∧
    stdStandardize exEnv c!"12 new york str" (unlines (exBefore ++ exLine :: exAfter)) exTown c!"en" c!"SPACE" = some ⟨some
      { house_num := some c!"12", name := some c!"NEW YORK", suftype := some c!"STRASSE",
        pattern := some c!"NUMBER WORD WORD TYPE -> HOUSE STREET STREET SUFTYP" }, none⟩ := by
  have get : ∀ {text : Str}, isOk (Grammar.initialize exEnv.u.toCharTables exEnv.fo text) = true →
      ∃ g, Grammar.initialize exEnv.u.toCharTables exEnv.fo text = .ok g := by
    intro text h
    cases e : Grammar.initialize exEnv.u.toCharTables exEnv.fo text with
    | ok g => exact ⟨g, rfl⟩
    | error e' => rw [e] at h; cases h
  exact ⟨noHeader (by decide), by decide, by unfold NoBom; decide, by unfold NoBom; decide,
    get (by decide +kernel), get (by decide +kernel), by decide +kernel, by decide +kernel⟩

/-- A grammar and one with more rules, with scores that may be NaN. -/
example : ∃ g g' : Grammar (Option Rat), WfGrammar g ∧ WfGrammar g' ∧ Balanced g ∧ Balanced g' ∧ HasRoot g ∧ HasRoot g' ∧
    Within g g' ∧ NanLaws nanOps (· = none) ∧ nanOps.lt (nanOps.ofInt (-1)) nanOps.zero = true ∧ ¬ Within g' g := by
  have get : ∀ {text : Str}, isOk (Grammar.initialize asciiTables nanOps text) = true →
      ∃ g, Grammar.initialize asciiTables nanOps text = .ok g := by
    intro text h
    cases e : Grammar.initialize asciiTables nanOps text with
    | ok g => exact ⟨g, rfl⟩
    | error e' => rw [e] at h; cases h
  obtain ⟨g, hg⟩ := get (text := unlines (exBefore ++ exAfter)) (by decide +kernel)
  obtain ⟨g', hg'⟩ := get (text := unlines (exBefore ++ exLine :: exAfter)) (by decide +kernel)
  obtain ⟨a, b, c⟩ := C29_constructed_wf asciiTables nanOps (by decide) _ g hg
  obtain ⟨a', b', c'⟩ := C29_constructed_wf asciiTables nanOps (by decide) _ g' hg'
  refine ⟨g, g', a, a', b, b', c, c', C60_insert_line asciiTables nanOps (by decide) exBefore exAfter exLine (noHeader (by decide))
    (by decide) (by unfold NoBom; decide) (by unfold NoBom; decide) g g' hg hg', nanOps_laws, by decide, ?_⟩
  intro hw
  have e1 : (g.ruleSections.map (fun s => s.2.length)) = [2] := by
    have : (match Grammar.initialize asciiTables nanOps (unlines (exBefore ++ exAfter)) with
      | .ok g => g.ruleSections.map (fun s => s.2.length) | .error _ => []) = [2] := by decide +kernel
    rwa [hg] at this
  have e2 : (g'.ruleSections.map (fun s => s.2.map (fun r => r.inClass.length))) = [[3, 4, 2]] := by
    have : (match Grammar.initialize asciiTables nanOps (unlines (exBefore ++ exLine :: exAfter)) with
      | .ok g => g.ruleSections.map (fun s => s.2.map (fun r => r.inClass.length)) | .error _ => []) = [[3, 4, 2]] := by
      decide +kernel
    rwa [hg'] at this
  have e3 : (g.ruleSections.map (fun s => s.2.map (fun r => r.inClass.length))) = [[3, 2]] := by
    have : (match Grammar.initialize asciiTables nanOps (unlines (exBefore ++ exAfter)) with
      | .ok g => g.ruleSections.map (fun s => s.2.map (fun r => r.inClass.length)) | .error _ => []) = [[3, 2]] := by
      decide +kernel
    rwa [hg] at this
  obtain ⟨s, hs⟩ : ∃ s, g'.ruleSections = [s] := by
    cases h : g'.ruleSections with
    | nil => rw [h] at e2; cases e2
    | cons s t =>
      cases t with
      | nil => exact ⟨s, rfl⟩
      | cons _ _ => rw [h] at e2; simp at e2
  rw [hs] at e2
  simp only [List.map_cons, List.map_nil, List.cons.injEq, and_true] at e2
  obtain ⟨t, ht, _, hsub⟩ := hw.2 s (by rw [hs]; exact List.mem_cons_self)
  obtain ⟨r, hr, hlen⟩ : ∃ r ∈ s.2, r.inClass.length = 4 := List.mem_map.1 (by rw [e2]; decide)
  have := hsub r hr
  have h4 : 4 ∈ t.2.map (fun r => r.inClass.length) := List.mem_map.2 ⟨r, this, hlen⟩
  have h5 : t.2.map (fun r => r.inClass.length) ∈ [[3, 2]] := by rw [← e3]; exact List.mem_map.2 ⟨t, ht, rfl⟩
  rw [List.mem_singleton.1 h5] at h4
  revert h4; decide

end AS.Props
