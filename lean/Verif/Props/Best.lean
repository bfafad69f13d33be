import Verif.Lemmas.Best
import Verif.Props.Search
/-
Properties C39–C44: choice and presentation of matches.
-/
namespace AS.Props
variable {F : Type}

theorem search_root {G : Grammar F} (wf : WfGrammar G) (hroot : HasRoot G) (phrase : List Token) :
    ∃ results, search G c!"ADDRESS" phrase = .ok results := by
  rcases C35_search_terminates wf c!"ADDRESS" phrase with h | ⟨_, h1, h2⟩
  · exact h
  · rcases hroot with ⟨s, hs, e⟩ | ⟨s, hs, e⟩
    · exact absurd e (h1 s hs)
    · exact absurd e (h2 s hs)

theorem exGrammar_balanced : Balanced exGrammar := by unfold Balanced; decide

theorem exGrammar_root : HasRoot exGrammar := Or.inl ⟨_, List.mem_cons_self .., rfl⟩

/-! ## C39 -/

/-- The reported match: if some result has a positive average, the score is the average of the
first result whose average no other exceeds, the tokens are classified by that result and the
number of its rules is reported; if none has (averages of loaded grammars can only be NaN then), it
is the first result with score 0 and number of rules -1. -/
theorem C39_best_is_first_max {fo : FloatOps F} (laws : LtLaws fo) {G : Grammar F} (wf : WfGrammar G) (hb : Balanced G)
    (phrase : List Token) (results : List (SearchPath F)) (h : search G c!"ADDRESS" phrase = .ok results)
    (hne : results ≠ []) :
    ∃ i p score nrules, results[i]? = some p ∧
      searchAndReclassBest G fo phrase =
        .ok ⟨reclassed phrase p, score, some (patternText (reclassed phrase p)), nrules⟩ ∧
      ((FirstBest fo (results.map (fun q => average fo q.rules)) i score ∧ fo.lt fo.zero score = true ∧
          nrules = fo.ofInt p.rules.length) ∨
       ((∀ q ∈ results, fo.lt fo.zero (average fo q.rules) = false) ∧ i = 0 ∧ score = fo.zero ∧
          nrules = fo.ofInt (-1))) := by
  have hlen : results.length ≠ 0 := by
    intro e; exact hne (List.length_eq_zero_iff.1 e)
  have hst := bestLoop_eq fo results 0 (fo.zero, none)
  have hinit : bestOf fo (fo.zero, none) = ⟨0, fo.zero, fo.ofInt (-1)⟩ := rfl
  rw [hinit] at hst
  have key : ∀ (i : Nat) p, results[i]? = some p → reclassTokens phrase p = some (true, reclassed phrase p) := by
    intro i p hp
    obtain ⟨h1, h2, _⟩ := search_balanced wf hb _ phrase results h p (List.mem_of_getElem? hp)
    exact reclassTokens_ok phrase p h1 h2
  rcases pickLoop_spec laws (avgScore fo) results 0 fo.zero none with ⟨h1, h2⟩ | ⟨j, p, h1, h2, h3, h4, h5⟩
  · rw [h1, hinit] at hst
    obtain ⟨p, ps, rfl⟩ := List.exists_cons_of_ne_nil hne
    refine ⟨0, p, fo.zero, fo.ofInt (-1), rfl, ?_, Or.inr ⟨?_, rfl, rfl, rfl⟩⟩
    · unfold searchAndReclassBest
      simp only [h, hlen, ↓reduceIte, hst, List.getElem?_cons_zero, key 0 p rfl, searchToString_eq]
    · intro q hq
      rw [← avgScore_eq]
      exact h2 q hq
  · rw [h1] at hst
    simp only [bestOf, Nat.zero_add] at hst
    refine ⟨j, p, avgScore fo p, fo.ofInt p.rules.length, h2, ?_, Or.inl ⟨⟨?_, ?_, ?_⟩, h3, rfl⟩⟩
    · unfold searchAndReclassBest
      simp only [h, hlen, ↓reduceIte, hst, h2, key j p h2, searchToString_eq]
    · rw [List.getElem?_map, h2, avgScore_eq]; rfl
    · intro x hx
      obtain ⟨q, hq, rfl⟩ := List.mem_map.1 hx
      rw [← avgScore_eq fo q]
      exact h4 q hq
    · intro k hk e
      rw [List.getElem?_map] at e
      cases hq : results[k]? with
      | none => rw [hq] at e; cases e
      | some q =>
        rw [hq] at e
        simp only [Option.map_some, Option.some.injEq] at e
        rw [← avgScore_eq] at e
        exact h5 k hk q hq e

/-- Two words: four results, the last with the best average 2 is chosen. -/
example : ∃ results, search exGrammar c!"ADDRESS" [{ text := c!"A", inclass := [.WORD] }, { text := c!"B", inclass := [.WORD] }] = .ok results ∧
    results ≠ [] ∧ searchAndReclassBest exGrammar ratOps
      [{ text := c!"A", inclass := [.WORD] }, { text := c!"B", inclass := [.WORD] }] =
    .ok ⟨[{ text := c!"A", inclass := [.WORD], outclass := .CITY }, { text := c!"B", inclass := [.WORD], outclass := .CITY }],
      2, some c!"WORD WORD -> CITY CITY", 2⟩ := ⟨_, rfl, by decide, by decide +kernel⟩

/-! ## C40 -/

theorem retag_get : ∀ (ts : List Token) (is : List InType) (os : List OutType), is.length = ts.length →
    os.length = ts.length → (retag ts is os).length = ts.length ∧ ∀ (k : Nat) (t : Token), ts[k]? = some t →
      ∃ i o, is[k]? = some i ∧ os[k]? = some o ∧ (retag ts is os)[k]? = some { t with inclass := [i], outclass := o }
  | [], is, os, _, _ => ⟨by cases is <;> rfl, by intro k t h; simp at h⟩
  | t :: ts, [], _, h, _ => by simp at h
  | t :: ts, _ :: _, [], _, h => by simp at h
  | t :: ts, i :: is, o :: os, h1, h2 => by
    have ih := retag_get ts is os (by simpa using h1) (by simpa using h2)
    refine ⟨by simp [retag, ih.1], ?_⟩
    intro k u hu
    cases k with
    | zero =>
      simp only [List.getElem?_cons_zero, Option.some.injEq] at hu
      subst hu
      exact ⟨i, o, rfl, rfl, rfl⟩
    | succ k => exact ih.2 k u hu

theorem picks_get {α : Type} : ∀ {p : List α} {ss : List (List α)}, Picks p ss → ∀ (k : Nat) (s : List α) (x : α),
    ss[k]? = some s → p[k]? = some x → x ∈ s
  | _, _, .nil, k, s, x, h, _ => by simp at h
  | _, _, .cons hx hp, 0, s, x, h1, h2 => by
    simp only [List.getElem?_cons_zero, Option.some.injEq] at h1 h2
    subst h1; subst h2; exact hx
  | _, _, .cons hx hp, k + 1, s, x, h1, h2 => picks_get hp k s x h1 h2

theorem outputs_length (rs : List (Rule F)) (h : ∀ r ∈ rs, r.inClass.length = r.outClass.length) :
    (outputs rs).length = (inputs rs).length := by
  induction rs with
  | nil => rfl
  | cons r rs ih =>
    have h1 := h r (List.mem_cons_self ..)
    have h2 := ih (fun x hx => h x (List.mem_cons_of_mem _ hx))
    simp only [outputs, inputs, List.flatMap_cons, List.length_append] at h2 ⊢
    omega

/-- Reclassification by any search result succeeds and gives every token, in place, one of the
classes it had, namely the one the result matches it with, and the output class the result has at
that position; nothing else of the token changes. -/
theorem C40_reclassified {G : Grammar F} (wf : WfGrammar G) (hb : Balanced G) (node : Str) (phrase : List Token)
    (results : List (SearchPath F)) (h : search G node phrase = .ok results) (p : SearchPath F) (hp : p ∈ results) :
    ∃ ts, reclassTokens phrase p = some (true, ts) ∧ ts.length = phrase.length ∧
      ∀ (k : Nat) (t : Token), phrase[k]? = some t → ∃ i o, (inputs p.rules)[k]? = some i ∧ (outputs p.rules)[k]? = some o ∧
        i ∈ t.inclass ∧ ts[k]? = some { t with inclass := [i], outclass := o } := by
  obtain ⟨h1, h2, _⟩ := search_balanced wf hb _ phrase results h p hp
  have hl := picks_length h2
  rw [List.length_map] at hl
  obtain ⟨h3, h4⟩ := retag_get phrase (inputs p.rules) (outputs p.rules) hl (by rw [outputs_length _ h1, hl])
  refine ⟨_, reclassTokens_ok phrase p h1 h2, h3, ?_⟩
  intro k t ht
  obtain ⟨i, o, h5, h6, h7⟩ := h4 k t ht
  refine ⟨i, o, h5, h6, ?_, h7⟩
  exact picks_get h2 k t.inclass i (by simp [List.getElem?_map, ht]) h5

example : ∃ results, search exGrammar c!"ADDRESS"
    [{ text := c!"A", inclass := [.NUMBER, .WORD] }, { text := c!"B", inclass := [.WORD] }] = .ok results ∧
    results.length = 8 := ⟨_, rfl, by decide⟩

/-- Reclassification by a path that does not fit the tokens fails: with another number of classes than tokens nothing
changes; otherwise the tokens before the first one that does not have the class are changed, the others are not. -/
theorem C40_mismatch (phrase : List Token) (p : SearchPath F) (hb : ∀ r ∈ p.rules, r.inClass.length = r.outClass.length) :
    ((inputs p.rules).length ≠ phrase.length → reclassTokens phrase p = some (false, phrase)) ∧
    ∀ (n : Nat) (i : InType) (t : Token), (inputs p.rules).length = phrase.length →
      Picks ((inputs p.rules).take n) ((phrase.take n).map (·.inclass)) → (inputs p.rules)[n]? = some i → phrase[n]? = some t →
      i ∉ t.inclass → reclassTokens phrase p =
        some (false, retag (phrase.take n) ((inputs p.rules).take n) ((outputs p.rules).take n) ++ phrase.drop n) := by
  constructor
  · intro h
    unfold reclassTokens
    rw [foldl_count, Nat.zero_add]
    simp only [if_pos h]
  · intro n i t hl hp h1 h2 h3
    unfold reclassTokens
    rw [foldl_count, Nat.zero_add, hl, if_neg (by simp), reclassRules_eq _ _ hb,
      reclassRule_mismatch n _ _ _ i t (outputs_length _ hb).symm hp h1 h2 h3]
    rfl

example : reclassTokens [{ text := c!"1", inclass := [.NUMBER, .WORD] }, { text := c!"B", inclass := [.WORD] }]
      (⟨[⟨[.NUMBER, .TYPE], [.HOUSE, .SUFTYP], (1 : Rat)⟩], [], []⟩ : SearchPath Rat) =
    some (false, [{ text := c!"1", inclass := [.NUMBER], outclass := .HOUSE }, { text := c!"B", inclass := [.WORD] }]) := by
  decide +kernel
/-- The score -2, which stands for a failed reclassification, is not reported. -/
theorem C40_never_minus_two {fo : FloatOps F} (laws : LtLaws fo) (h21 : fo.ofInt (-2) ≠ fo.ofInt (-1))
    (h20 : fo.ofInt (-2) ≠ fo.zero) (h2 : fo.lt fo.zero (fo.ofInt (-2)) = false)
    {G : Grammar F} (wf : WfGrammar G) (hb : Balanced G) (phrase : List Token) (r : BestResult F)
    (h : searchAndReclassBest G fo phrase = .ok r) : r.score ≠ fo.ofInt (-2) := by
  cases hs : search G c!"ADDRESS" phrase with
  | throws m => simp [searchAndReclassBest, hs] at h
  | undefined => simp [searchAndReclassBest, hs] at h
  | ok results =>
    by_cases hne : results = []
    · subst hne
      simp only [searchAndReclassBest, hs, List.length_nil, ↓reduceIte, Outcome.ok.injEq] at h
      subst h
      exact fun e => h21 e.symm
    · obtain ⟨i, p, score, nrules, _, h', hc⟩ := C39_best_is_first_max laws wf hb phrase results hs hne
      rw [h] at h'
      cases h'
      rcases hc with ⟨_, h3, _⟩ | ⟨_, _, h3, _⟩
      · intro e
        simp only at e
        rw [e, h2] at h3
        cases h3
      · intro e
        simp only at e
        exact h20 (e.symm.trans h3)

example : LtLaws ratOps ∧ ratOps.ofInt (-2) ≠ ratOps.ofInt (-1) ∧ ratOps.ofInt (-2) ≠ ratOps.zero ∧
    ratOps.lt ratOps.zero (ratOps.ofInt (-2)) = false := ⟨ratOps_laws, by decide +kernel, by decide +kernel, by decide +kernel⟩

/-! ## C41 -/

/-- No match is reported by score -1, no tokens and no pattern; a match is reported by a score that
is zero or greater, one token per token of the phrase and the pattern of these tokens. -/
theorem C41_no_match_iff {fo : FloatOps F} (laws : LtLaws fo) {G : Grammar F} (wf : WfGrammar G) (hb : Balanced G)
    (hroot : HasRoot G) (phrase : List Token) :
    ∃ results r, search G c!"ADDRESS" phrase = .ok results ∧ searchAndReclassBest G fo phrase = .ok r ∧
      (results = [] → r = ⟨[], fo.ofInt (-1), none, fo.ofInt (-1)⟩) ∧
      (results ≠ [] → (r.score = fo.zero ∨ fo.lt fo.zero r.score = true) ∧ r.tokens.length = phrase.length ∧
        r.tokens.map (·.text) = phrase.map (·.text) ∧ r.matched = some (patternText r.tokens)) := by
  obtain ⟨results, hs⟩ := search_root wf hroot phrase
  by_cases hne : results = []
  · subst hne
    refine ⟨[], ⟨[], fo.ofInt (-1), none, fo.ofInt (-1)⟩, hs, ?_, fun _ => rfl, fun h => absurd rfl h⟩
    simp [searchAndReclassBest, hs]
  · obtain ⟨i, p, score, nrules, hp, h', hc⟩ := C39_best_is_first_max laws wf hb phrase results hs hne
    obtain ⟨ts, h1, h2, h3⟩ := C40_reclassified wf hb _ phrase results hs p (List.mem_of_getElem? hp)
    obtain ⟨h4, h5, _⟩ := search_balanced wf hb _ phrase results hs p (List.mem_of_getElem? hp)
    rw [reclassTokens_ok phrase p h4 h5] at h1
    simp only [Option.some.injEq, Prod.mk.injEq, true_and] at h1
    refine ⟨results, _, hs, h', fun h => absurd h hne, fun _ => ⟨?_, ?_, ?_, rfl⟩⟩
    · rcases hc with ⟨_, h, _⟩ | ⟨_, _, h, _⟩
      · exact Or.inr h
      · exact Or.inl h
    · simp only [reclassed, h1, h2]
    · simp only [reclassed, h1]
      apply List.ext_getElem?
      intro k
      rw [List.getElem?_map, List.getElem?_map]
      cases ht : phrase[k]? with
      | none =>
        have : ts[k]? = none := by
          rw [List.getElem?_eq_none_iff] at ht ⊢; omega
        rw [this]
      | some t =>
        obtain ⟨i, o, _, _, _, h6⟩ := h3 k t ht
        rw [h6]; rfl

example : HasRoot exGrammar ∧ search exGrammar c!"ADDRESS" [{ inclass := [.WORD] }] = .ok [] ∧
    ∃ results, search exGrammar c!"ADDRESS" [{ inclass := [.WORD] }, { inclass := [.WORD] }] = .ok results ∧ results ≠ [] :=
  ⟨exGrammar_root, rfl, _, rfl, by decide⟩

/-! ## C42 -/

/-- Result of the loop over the phrases described by a picked result. -/
def phraseOf (b : BestResult F) : Option (Nat × BestResult F) → BestResult F
  | none => b
  | some (_, r) => { r with matched := some (r.matched.getD []) }

theorem bestPhrases_eq {G : Grammar F} {fo : FloatOps F} (b : BestResult F) :
    ∀ (phrases : List (List Token)) (rs : List (BestResult F)) (i : Nat) (acc : F × Option (Nat × BestResult F)),
    phrases.map (searchAndReclassBest G fo) = rs.map .ok → acc.1 = (phraseOf b acc.2).score →
    bestPhrases G fo (phraseOf b acc.2) phrases = .ok (phraseOf b (pickLoop fo (·.score) i acc rs).2)
  | [], [], i, acc, _, _ => rfl
  | [], _ :: _, _, _, h, _ => by simp at h
  | _ :: _, [], _, _, h, _ => by simp at h
  | phrase :: ps, r :: rs, i, acc, h, hs => by
    simp only [List.map_cons, List.cons.injEq] at h
    obtain ⟨h1, h2⟩ := h
    simp only [bestPhrases, h1, pickLoop, ← hs]
    cases hlt : fo.lt acc.1 r.score with
    | true =>
      simp only [↓reduceIte]
      exact bestPhrases_eq b ps rs (i + 1) (r.score, some (i, r)) h2 rfl
    | false =>
      simp only [Bool.false_eq_true, ↓reduceIte]
      exact bestPhrases_eq b ps rs (i + 1) acc h2 hs

theorem best_all {fo : FloatOps F} (laws : LtLaws fo) {G : Grammar F} (wf : WfGrammar G) (hb : Balanced G)
    (hroot : HasRoot G) (phrases : List (List Token)) :
    ∃ rs : List (BestResult F), phrases.map (searchAndReclassBest G fo) = rs.map .ok := by
  induction phrases with
  | nil => exact ⟨[], rfl⟩
  | cons p ps ih =>
    obtain ⟨rs, h⟩ := ih
    obtain ⟨_, r, _, hr, _⟩ := C41_no_match_iff laws wf hb hroot p
    exact ⟨r :: rs, by simp [h, hr]⟩

/-- With several phrases the result is that of the first phrase whose score no other exceeds (an
unassigned pattern being the empty one), or nothing and score -1 if no phrase has a match. -/
theorem C42_first_best_phrase {fo : FloatOps F} (laws : LtLaws fo) (hm1 : fo.lt (fo.ofInt (-1)) fo.zero = true)
    {G : Grammar F} (wf : WfGrammar G) (hb : Balanced G) (hroot : HasRoot G) (phrases : List (List Token)) :
    ∃ rs : List (BestResult F), phrases.map (searchAndReclassBest G fo) = rs.map .ok ∧
      ((∃ i r, rs[i]? = some r ∧ FirstBest fo (rs.map (·.score)) i r.score ∧ r.matched = some (patternText r.tokens) ∧
          searchAndReclassBestOf G fo phrases = .ok r) ∨
       ((∀ phrase ∈ phrases, search G c!"ADDRESS" phrase = .ok []) ∧
          searchAndReclassBestOf G fo phrases = .ok ⟨[], fo.ofInt (-1), some [], fo.ofInt (-1)⟩)) := by
  obtain ⟨rs, hrs⟩ := best_all laws wf hb hroot phrases
  refine ⟨rs, hrs, ?_⟩
  have hmem : ∀ r ∈ rs, ∃ phrase ∈ phrases, searchAndReclassBest G fo phrase = .ok r := by
    intro r hr
    have : Outcome.ok r ∈ phrases.map (searchAndReclassBest G fo) := by
      rw [hrs]; exact List.mem_map.2 ⟨r, hr, rfl⟩
    obtain ⟨ph, h1, h2⟩ := List.mem_map.1 this
    exact ⟨ph, h1, h2⟩
  have heq := bestPhrases_eq (G := G) (fo := fo) ⟨[], fo.ofInt (-1), some [], fo.ofInt (-1)⟩ phrases rs 0
    (fo.ofInt (-1), none) hrs rfl
  rcases pickLoop_spec laws (fun r : BestResult F => r.score) rs 0 (fo.ofInt (-1)) none with ⟨h1, h2⟩ | ⟨j, r, h1, h2, h3, h4, h5⟩
  · right
    rw [h1] at heq
    refine ⟨?_, heq⟩
    intro phrase hp
    obtain ⟨results, r, hs, hr, _, hr2⟩ := C41_no_match_iff laws wf hb hroot phrase
    by_cases hne : results = []
    · rw [hs, hne]
    · exfalso
      have hin : r ∈ rs := by
        have : searchAndReclassBest G fo phrase ∈ rs.map .ok := by
          rw [← hrs]; exact List.mem_map.2 ⟨phrase, hp, rfl⟩
        rw [hr] at this
        obtain ⟨r', h6, h7⟩ := List.mem_map.1 this
        cases h7
        exact h6
      have hno := h2 r hin
      rcases (hr2 hne).1 with h | h
      · rw [h, hm1] at hno; cases hno
      · rw [laws.trans _ _ _ hm1 h] at hno; cases hno
  · left
    obtain ⟨phrase, hp, hr⟩ := hmem r (List.mem_of_getElem? h2)
    obtain ⟨results, r', hs, hr', hr1, hr2⟩ := C41_no_match_iff laws wf hb hroot phrase
    rw [hr] at hr'
    cases hr'
    have hne : results ≠ [] := by
      intro e
      rw [hr1 e, laws.irrefl] at h3
      cases h3
    have hm := (hr2 hne).2.2.2
    refine ⟨j, r, h2, ⟨?_, ?_, ?_⟩, hm, ?_⟩
    · rw [List.getElem?_map, h2]; rfl
    · intro x hx
      obtain ⟨q, hq, rfl⟩ := List.mem_map.1 hx
      exact h4 q hq
    · intro k hk e
      rw [List.getElem?_map] at e
      cases hq : rs[k]? with
      | none => rw [hq] at e; cases e
      | some q =>
        rw [hq] at e
        simp only [Option.map_some, Option.some.injEq] at e
        exact h5 k hk q hq e
    · rw [h1] at heq
      unfold searchAndReclassBestOf
      have : phraseOf ⟨[], fo.ofInt (-1), some [], fo.ofInt (-1)⟩ (none : Option (Nat × BestResult F)) =
          ⟨[], fo.ofInt (-1), some [], fo.ofInt (-1)⟩ := rfl
      rw [this] at heq
      rw [heq]
      simp only [phraseOf, hm, Option.getD_some, Outcome.ok.injEq]
      cases r
      simp only at hm
      subst hm
      rfl

example : ratOps.lt (ratOps.ofInt (-1)) ratOps.zero = true ∧
    searchAndReclassBestOf exGrammar ratOps [[{ inclass := [.WORD] }], [{ inclass := [.WORD] }, { inclass := [.WORD] }]] =
      .ok ⟨[{ inclass := [.WORD], outclass := .CITY }, { inclass := [.WORD], outclass := .CITY }], 2,
        some c!"WORD WORD -> CITY CITY", 2⟩ := ⟨by decide +kernel, by decide +kernel⟩

/-! ## C43 -/

variable {D : Type}

theorem rowsOf_eq (dops : FloatOps D) (widen : F → D) (phrase : List Token) : ∀ ps : List (SearchPath F),
    (∀ p ∈ ps, reclassTokens phrase p = some (true, reclassed phrase p)) →
    rowsOf dops widen phrase ps = some (ps.map (rowFor dops widen phrase))
  | [], _ => rfl
  | p :: ps, h => by
    rw [rowsOf, h p (List.mem_cons_self ..)]
    simp only [rowsOf_eq dops widen phrase ps (fun q hq => h q (List.mem_cons_of_mem _ hq)), ↓reduceIte,
      List.map_cons, Option.some.injEq, List.cons.injEq, and_true]
    simp [rowFor, searchToString_eq, avgScoreD, List.foldl_map]

theorem rowsOfAll_eq (dops : FloatOps D) (widen : F → D) {G : Grammar F} (wf : WfGrammar G) (hb : Balanced G)
    (hroot : HasRoot G) : ∀ phrases : List (List Token), ∃ rss : List (List (SearchPath F)),
      phrases.map (search G c!"ADDRESS") = rss.map .ok ∧
      rowsOfAll G dops widen phrases =
        .ok ((phrases.zip rss).flatMap (fun q => q.2.map (rowFor dops widen q.1)))
  | [] => ⟨[], rfl, rfl⟩
  | phrase :: ps => by
    obtain ⟨rss, h1, h2⟩ := rowsOfAll_eq dops widen wf hb hroot ps
    obtain ⟨results, hs⟩ := search_root wf hroot phrase
    refine ⟨results :: rss, by simp [hs, h1], ?_⟩
    rw [rowsOfAll, hs]
    have := rowsOf_eq dops widen phrase results (by
      intro p hp
      obtain ⟨h3, h4, _⟩ := search_balanced wf hb _ phrase results hs p hp
      exact reclassTokens_ok phrase p h3 h4)
    simp only [this, h2, List.zip_cons_cons, List.flatMap_cons]

/-- The row that stands for no match. -/
def failedRow (dops : FloatOps D) : MatchResult D :=
  ⟨c!"Failed to match to grammar!", dops.ofInt (-1), dops.ofInt (-1)⟩

/-- The listing has, phrase by phrase and in the order of the search results, one row per result, or
the single row for no match; it is never empty. -/
theorem C43_all_rows (dops : FloatOps D) (widen : F → D) {G : Grammar F} (wf : WfGrammar G) (hb : Balanced G)
    (hroot : HasRoot G) (phrases : List (List Token)) :
    ∃ (rss : List (List (SearchPath F))) (rows : List (MatchResult D)),
      phrases.map (search G c!"ADDRESS") = rss.map .ok ∧
      searchAndReclassAll G dops widen phrases = .ok rows ∧ rows ≠ [] ∧
      ((∃ rs ∈ rss, rs ≠ []) → rows = (phrases.zip rss).flatMap (fun q => q.2.map (rowFor dops widen q.1))) ∧
      ((∀ rs ∈ rss, rs = []) → rows = [failedRow dops]) := by
  obtain ⟨rss, h1, h2⟩ := rowsOfAll_eq dops widen wf hb hroot phrases
  have hlen : phrases.length = rss.length := by simpa using congrArg List.length h1
  refine ⟨rss, ?_⟩
  cases hr : (phrases.zip rss).flatMap (fun q => q.2.map (rowFor dops widen q.1)) with
  | nil =>
    have hall : ∀ rs ∈ rss, rs = [] := by
      intro rs hrs
      obtain ⟨i, hi, e⟩ := List.getElem_of_mem hrs
      have hz : (phrases[i]'(by omega), rs) ∈ phrases.zip rss := by
        rw [List.mem_iff_getElem]
        exact ⟨i, by simp; omega, by simp [e]⟩
      have := (List.flatMap_eq_nil_iff.1 hr) _ hz
      exact List.map_eq_nil_iff.1 this
    rw [hr] at h2
    refine ⟨[failedRow dops], h1, by unfold searchAndReclassAll; rw [h2]; rfl, by simp, ?_, fun _ => rfl⟩
    rintro ⟨rs, hrs, hne⟩
    exact absurd (hall rs hrs) hne
  | cons row rows =>
    rw [hr] at h2
    refine ⟨row :: rows, h1, by unfold searchAndReclassAll; rw [h2], by simp, fun _ => rfl, ?_⟩
    intro hall
    exfalso
    have : (phrases.zip rss).flatMap (fun q => q.2.map (rowFor dops widen q.1)) = [] := by
      rw [List.flatMap_eq_nil_iff]
      intro q hq
      rw [hall q.2 (List.of_mem_zip hq).2]
      rfl
    rw [this] at hr
    cases hr

/-- If averages are computed the same way in both precisions (the listing uses `double`, the best
match `float`) and are positive, the score of the best match is the greatest score of the listing. -/
theorem C43_best_row {fo : FloatOps F} (laws : LtLaws fo) (hm1 : fo.lt (fo.ofInt (-1)) fo.zero = true)
    (htot : ∀ a b c, fo.lt fo.zero b = true → fo.lt a c = true → fo.lt a b = true ∨ fo.lt b c = true)
    (dops : FloatOps D) (widen : F → D) (hlt : ∀ a b, dops.lt (widen a) (widen b) = fo.lt a b)
    (havg : ∀ rs : List (Rule F), dops.divNat ((rs.map (fun r => widen r.score)).foldl dops.add dops.zero) rs.length =
      widen (average fo rs))
    (hneg : widen (fo.ofInt (-1)) = dops.ofInt (-1))
    {G : Grammar F} (wf : WfGrammar G) (hb : Balanced G) (hroot : HasRoot G) (phrases : List (List Token))
    (hpos : ∀ phrase ∈ phrases, ∀ results, search G c!"ADDRESS" phrase = .ok results → ∀ p ∈ results,
      fo.lt fo.zero (average fo p.rules) = true)
    (rows : List (MatchResult D)) (hrows : searchAndReclassAll G dops widen phrases = .ok rows)
    (b : BestResult F) (hbest : searchAndReclassBestOf G fo phrases = .ok b) :
    (∃ row ∈ rows, row.score = widen b.score) ∧ ∀ row ∈ rows, dops.lt (widen b.score) row.score = false := by
  obtain ⟨rss, rows', h1, h2, _, h3, h4⟩ := C43_all_rows dops widen wf hb hroot phrases
  rw [hrows] at h2
  cases h2
  have hlen : phrases.length = rss.length := by simpa using congrArg List.length h1
  have hget : ∀ (i : Nat) ph, phrases[i]? = some ph → ∃ rs, rss[i]? = some rs ∧ search G c!"ADDRESS" ph = .ok rs := by
    intro i ph hi
    have := congrArg (fun l => l[i]?) h1
    simp only [List.getElem?_map, hi, Option.map_some] at this
    cases hr : rss[i]? with
    | none => rw [hr] at this; cases this
    | some rs => rw [hr] at this; exact ⟨rs, rfl, by simpa using this⟩
  have hrow : ∀ ph (p : SearchPath F), (rowFor dops widen ph p).score = widen (average fo p.rules) := fun ph p => havg p.rules
  obtain ⟨rs, hrs, hcase⟩ := C42_first_best_phrase laws hm1 wf hb hroot phrases
  have hbget : ∀ (i : Nat) ph, phrases[i]? = some ph → ∃ r, rs[i]? = some r ∧ searchAndReclassBest G fo ph = .ok r := by
    intro i ph hi
    have := congrArg (fun l => l[i]?) hrs
    simp only [List.getElem?_map, hi, Option.map_some] at this
    cases hr : rs[i]? with
    | none => rw [hr] at this; cases this
    | some r => rw [hr] at this; exact ⟨r, rfl, by simpa using this⟩
  rcases hcase with ⟨i, r, hi, ⟨_, hmax, _⟩, hmt, hres⟩ | ⟨hnone, hres⟩
  · rw [hbest] at hres
    cases hres
    have hlen2 : phrases.length = rs.length := by simpa using congrArg List.length hrs
    have hil : i < rs.length := (List.getElem?_eq_some_iff.1 hi).1
    obtain ⟨ph, hph⟩ : ∃ ph, phrases[i]? = some ph := ⟨_, List.getElem?_eq_getElem (by omega)⟩
    obtain ⟨r', hr', hbr⟩ := hbget i ph hph
    rw [hi] at hr'
    cases hr'
    obtain ⟨results, hrss, hsr⟩ := hget i ph hph
    have hne : results ≠ [] := by
      intro e
      subst e
      simp [searchAndReclassBest, hsr] at hbr
      rw [← hbr] at hmt
      cases hmt
    have hex : ∃ rs ∈ rss, rs ≠ [] := ⟨results, List.mem_of_getElem? hrss, hne⟩
    have hr := h3 hex
    subst hr
    have hzip : ∀ (i : Nat) ph rs, phrases[i]? = some ph → rss[i]? = some rs → (ph, rs) ∈ phrases.zip rss := by
      intro i ph rs h1 h2
      apply List.mem_of_getElem? (i := i)
      rw [List.getElem?_zip_eq_some]
      exact ⟨h1, h2⟩
    constructor
    · obtain ⟨k, p, score, nr, hk, hb1, hc⟩ := C39_best_is_first_max laws wf hb ph results hsr hne
      rw [hbr] at hb1
      cases hb1
      rcases hc with ⟨⟨hs1, _, _⟩, _, _⟩ | ⟨hc, _⟩
      · refine ⟨rowFor dops widen ph p, ?_, ?_⟩
        · rw [List.mem_flatMap]
          exact ⟨_, hzip i ph results hph hrss, List.mem_map.2 ⟨p, List.mem_of_getElem? hk, rfl⟩⟩
        · rw [hrow]
          rw [List.getElem?_map, hk] at hs1
          simp only [Option.map_some, Option.some.injEq] at hs1
          rw [hs1]
      · have := hpos ph (List.mem_of_getElem? hph) results hsr p (List.mem_of_getElem? hk)
        rw [hc p (List.mem_of_getElem? hk)] at this
        cases this
    · intro row hrow'
      obtain ⟨⟨ph', rs'⟩, hq, hrow'⟩ := List.mem_flatMap.1 hrow'
      obtain ⟨p, hp, rfl⟩ := List.mem_map.1 hrow'
      obtain ⟨j, hj⟩ := List.getElem?_of_mem hq
      rw [List.getElem?_zip_eq_some] at hj
      obtain ⟨hj1, hj2⟩ := hj
      obtain ⟨rs2, hj3, hj4⟩ := hget j ph' hj1
      simp only at hj2 hp
      rw [hj2] at hj3
      cases hj3
      obtain ⟨r2, hr2, hb2⟩ := hbget j ph' hj1
      obtain ⟨k, p2, score, nr, hk, hb1, hc⟩ := C39_best_is_first_max laws wf hb ph' rs' hj4 (List.ne_nil_of_mem hp)
      rw [hb2] at hb1
      cases hb1
      have hle := hmax _ (List.mem_map.2 ⟨_, List.mem_of_getElem? hr2, rfl⟩)
      simp only at hle
      rw [hrow, hlt]
      rcases hc with ⟨⟨_, hs2, _⟩, hs3, _⟩ | ⟨hc, _⟩
      · have h7 := hs2 _ (List.mem_map.2 ⟨p, hp, rfl⟩)
        cases h8 : fo.lt b.score (average fo p.rules) with
        | false => rfl
        | true =>
          rcases htot _ _ _ hs3 h8 with h9 | h9
          · rw [hle] at h9; cases h9
          · rw [h7] at h9; cases h9
      · have := hpos ph' (List.mem_of_getElem? hj1) rs' hj4 p hp
        rw [hc p hp] at this
        cases this
  · rw [hbest] at hres
    cases hres
    have hall : ∀ rs ∈ rss, rs = [] := by
      intro rs hrs
      obtain ⟨i, hi⟩ := List.getElem?_of_mem hrs
      have hil : i < rss.length := (List.getElem?_eq_some_iff.1 hi).1
      obtain ⟨ph, hph⟩ : ∃ ph, phrases[i]? = some ph := ⟨_, List.getElem?_eq_getElem (by omega)⟩
      obtain ⟨rs', hrs', hs'⟩ := hget i ph hph
      rw [hi] at hrs'
      cases hrs'
      rw [hnone ph (List.mem_of_getElem? hph)] at hs'
      cases hs'
      rfl
    rw [h4 hall]
    refine ⟨⟨_, List.mem_singleton.2 rfl, hneg.symm⟩, ?_⟩
    intro row hrow'
    rw [List.mem_singleton.1 hrow']
    simp only [failedRow, ← hneg, hlt, laws.irrefl]

/-- The hypotheses hold of exact arithmetic; the listing of the example has eight rows (C38: four results, two of each). -/
example : (∀ a b c : Rat, ratOps.lt ratOps.zero b = true → ratOps.lt a c = true → ratOps.lt a b = true ∨ ratOps.lt b c = true) ∧
    (∀ rs : List (Rule Rat), ratOps.divNat ((rs.map (fun r => id r.score)).foldl ratOps.add ratOps.zero) rs.length =
      id (average ratOps rs)) ∧
    (∃ rows, searchAndReclassAll exGrammar ratOps id [[{ inclass := [.WORD] }, { inclass := [.WORD] }]] = .ok rows ∧
      rows.length = 8) := by
  refine ⟨?_, fun rs => rfl, _, rfl, by decide +kernel⟩
  intro a b c _ h
  simp only [ratOps, decide_eq_true_eq] at *
  grind

/-- With two precisions the best score need not be among the rows: here the coarse operations keep
whole numbers only, as `float` keeps 24 bits. -/
def coarse : FloatOps Rat := { ratOps with divNat := fun x n => (x / n).floor }

/-- The averages are compared after rounding in `float`, so the best match need not be a match with
the best score of the listing. -/
theorem C43_best_row_needs_exactness :
    ∃ (G : Grammar Rat) (phrase : List Token) (rows : List (MatchResult Rat)) (b : BestResult Rat),
      WfGrammar G ∧ Balanced G ∧ HasRoot G ∧ LtLaws coarse ∧
      searchAndReclassAll G ratOps id [phrase] = .ok rows ∧ searchAndReclassBestOf G coarse [phrase] = .ok b ∧
      ¬ ∃ row ∈ rows, row.matched = patternText b.tokens ∧ ∀ row' ∈ rows, ratOps.lt row.score row'.score = false := by
  refine ⟨{ exGrammar with rules := [⟨c!"R", [⟨[.WORD], [.STREET], 1⟩, ⟨[.WORD], [.CITY], 3 / 2⟩]⟩] },
    [{ inclass := [.WORD] }, { inclass := [.WORD] }],
    [⟨c!"WORD WORD -> STREET STREET", 1, 2⟩, ⟨c!"WORD WORD -> STREET CITY", 5 / 4, 2⟩,
      ⟨c!"WORD WORD -> CITY STREET", 5 / 4, 2⟩, ⟨c!"WORD WORD -> CITY CITY", 3 / 2, 2⟩,
      ⟨c!"WORD WORD -> STREET STREET", 1, 2⟩, ⟨c!"WORD WORD -> STREET CITY", 5 / 4, 2⟩,
      ⟨c!"WORD WORD -> CITY STREET", 5 / 4, 2⟩, ⟨c!"WORD WORD -> CITY CITY", 3 / 2, 2⟩],
    ⟨[{ inclass := [.WORD], outclass := .STREET }, { inclass := [.WORD], outclass := .STREET }], 1,
      some c!"WORD WORD -> STREET STREET", 2⟩, ?_, by unfold Balanced; decide,
    Or.inl ⟨_, List.mem_cons_self .., rfl⟩, ⟨ratOps_laws.irrefl, ratOps_laws.trans⟩, by decide +kernel, by decide +kernel,
    by decide +kernel⟩
  exact {
    distinct := by decide
    nonempty := exGrammar_wf.nonempty
    linked := by
      intro sec hs refs hr ref href
      have h : ref.mptr = none ∧ ref.rptr = some 0 ∧ ref.name = c!"R" := by
        revert ref; revert refs; revert sec; decide
      exact Or.inr ⟨h.1, 0, _, h.2.1, rfl, h.2.2.symm⟩
    indexed := by
      intro name
      simp only [exGrammar, mapFind]
      by_cases h1 : name = c!"ADDRESS"
      · subst h1; exact Or.inl ⟨_, rfl, rfl⟩
      · by_cases h2 : name = c!"R"
        · subst h2; exact Or.inr ⟨_, rfl, rfl⟩
        · rw [if_neg h1, if_neg h2]
          simp only [List.mem_singleton, forall_eq]
          exact ⟨fun h => h1 h.symm, fun h => h2 h.symm⟩ }

/-! ## C44 -/

/-- The pattern string is the names of the input classes, `->` and the names of the output classes,
separated by single blanks. -/
theorem C44_pattern_text (ts : List Token) : searchToString ts = patternText ts := searchToString_eq ts

theorem words_joinBlank : ∀ ws : List Str, (∀ w ∈ ws, w ≠ [] ∧ ∀ c ∈ w, isCSpace c = false) →
    words (joinWith c!" " ws) = ws
  | [], _ => rfl
  | [w], h => by
    have := words_run w [] (h w (List.mem_singleton.2 rfl)).1 (h w (List.mem_singleton.2 rfl)).2 (by intro c cs h; cases h)
    simpa [joinWith, words] using this
  | w :: v :: vs, h => by
    rw [joinWith_blank_cons w (v :: vs) (by simp)]
    obtain ⟨h1, h2⟩ := h w (List.mem_cons_self ..)
    rw [Rule.words_name w _ h1 h2,
      words_joinBlank (v :: vs) (fun x hx => h x (List.mem_cons_of_mem _ hx))]

theorem inNamed_asString (t : InType) : inNamed t.asString = t := by cases t <;> decide
theorem outNamed_asString (t : OutType) : outNamed t.asString = t := by cases t <;> decide

/-- The pattern of tokens with one input class each, as all reported tokens have, reads back to the
classes. -/
theorem C44_pattern_reads_back (ts : List Token) (is : List InType) (h : ts.map (·.inclass) = is.map (fun i => [i])) :
    ∃ ins outs, splitArrow (words (searchToString ts)) = [ins, outs] ∧ ins.map inNamed = is ∧
      outs.map outNamed = ts.map (·.outclass) ∧ ins.length = ts.length ∧ outs.length = ts.length := by
  have hin : ts.map (fun t => InType.setAsString t.inclass) = is.map (·.asString) := by
    have := congrArg (List.map InType.setAsString) h
    rw [List.map_map, List.map_map] at this
    rw [show (fun t : Token => InType.setAsString t.inclass) = InType.setAsString ∘ (·.inclass) from rfl, this]
    apply List.map_congr_left
    intro i _
    simp [InType.setAsString, InType.setAsStringLoop]
  have hw : words (searchToString ts) = is.map (·.asString) ++ [c!"->"] ++ ts.map (fun t => t.outclass.asString) := by
    rw [searchToString_eq, patternText, hin]
    apply words_joinBlank
    intro w hw
    simp only [List.mem_append, List.mem_map, List.mem_singleton] at hw
    rcases hw with (⟨i, _, rfl⟩ | rfl) | ⟨t, _, rfl⟩
    · exact ⟨(Rule.in_name_ok i).1, (Rule.in_name_ok i).2.1⟩
    · decide
    · exact ⟨(Rule.out_name_ok t.outclass).1, (Rule.out_name_ok t.outclass).2.1⟩
  have hno : ∀ vs : List Str, (∀ v ∈ vs, v ≠ c!"->") → splitArrow vs = [vs] := by
    intro vs
    induction vs with
    | nil => intro _; rfl
    | cons v vs ih =>
      intro hv
      rw [splitArrow, if_neg (hv v (List.mem_cons_self ..)), ih (fun x hx => hv x (List.mem_cons_of_mem _ hx))]
  refine ⟨is.map (·.asString), ts.map (fun t => t.outclass.asString), ?_, ?_, ?_, ?_, by simp⟩
  · rw [hw, List.append_assoc, List.singleton_append, Rule.splitArrow_append_arrow, hno]
    · intro v hv
      obtain ⟨t, _, rfl⟩ := List.mem_map.1 hv
      exact (Rule.out_name_ok t.outclass).2.2
    · intro v hv
      obtain ⟨i, _, rfl⟩ := List.mem_map.1 hv
      exact (Rule.in_name_ok i).2.2
  · rw [List.map_map]
    conv => rhs; rw [← List.map_id is]
    exact List.map_congr_left (fun i _ => inNamed_asString i)
  · rw [List.map_map]
    exact List.map_congr_left (fun t _ => outNamed_asString t.outclass)
  · simpa using (congrArg List.length h).symm

example : [({ inclass := [.NUMBER], outclass := .HOUSE } : Token), { inclass := [.WORD], outclass := .STREET }].map (·.inclass) =
    [InType.NUMBER, .WORD].map (fun i => [i]) ∧
    searchToString [{ inclass := [.NUMBER], outclass := .HOUSE }, { inclass := [.WORD], outclass := .STREET }] =
      c!"NUMBER WORD -> HOUSE STREET" := by decide

end AS.Props
