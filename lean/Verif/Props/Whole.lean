import Verif.Lemmas.Chars
import Verif.Props.Compiled
/-
Properties C65 and C66: from the texts to the address.
-/
namespace AS.Props
open AS AS.Wrapper
variable {F D : Type}

/-! ## C65 -/

theorem retag_classes : ∀ (ts : List Token) (is : List InType) (os : List OutType), ∀ t ∈ retag ts is os, ∃ i, t.inclass = [i]
  | [], _, _, t, h => by simp [retag] at h
  | _ :: _, [], _, t, h => by simp [retag] at h
  | _ :: _, _ :: _, [], t, h => by simp [retag] at h
  | _ :: ts, i :: is, _ :: os, t, h => by
    rw [retag] at h
    rcases List.mem_cons.1 h with rfl | h
    · exact ⟨i, rfl⟩
    · exact retag_classes ts is os t h

theorem joinWith_free {d : Char} {sep : Str} (hs : d ∉ sep) : ∀ {ws : List Str}, (∀ w ∈ ws, d ∉ w) → d ∉ joinWith sep ws
  | [], _ => by simp [joinWith]
  | [w], h => by simpa [joinWith] using h w (List.mem_cons_self ..)
  | w :: v :: vs, h => by
    simp only [joinWith, List.mem_append, not_or]
    exact ⟨⟨h w (List.mem_cons_self ..), hs⟩, joinWith_free hs (fun x hx => h x (List.mem_cons_of_mem _ hx))⟩

theorem patternText_noNul (ts : List Token) (is : List InType) (os : List OutType) :
    '\x00' ∉ patternText (retag ts is os) := by
  unfold patternText
  refine joinWith_free (by decide) (fun w hw => ?_)
  rcases List.mem_append.1 hw with hw | hw
  · rcases List.mem_append.1 hw with hw | hw
    · obtain ⟨t, ht, rfl⟩ := List.mem_map.1 hw
      obtain ⟨i, hi⟩ := retag_classes _ _ _ t ht
      rw [hi]
      revert i
      intro i _
      cases i <;> decide
    · rw [List.mem_singleton.1 hw]; decide
  · obtain ⟨t, _, rfl⟩ := List.mem_map.1 hw
    cases t.outclass <;> decide

/-- Every address that is returned is explained by a derivation of the grammar: its input classes choose one class of each
token of one of the token lists, no derivation of any of the token lists within the nesting limit has a better average
score, and the fields hold, by its output classes, the standard texts of the tokens. The derivation is itself within the nesting limit. -/
theorem C65_within (env : Env F D) (laws : LtLaws env.fo) (signs : SignLaws env.fo)
    (htot : ∀ a b c, env.fo.lt env.fo.zero b = true → env.fo.lt a c = true → env.fo.lt a b = true ∨ env.fo.lt b c = true)
    (h0 : env.fo.le0 env.fo.zero = true) (address grammar lexicon locale filter : Str) (a : StdAddr) (err : Option Str)
    (h : stdStandardize env address grammar lexicon locale filter = some ⟨some a, err⟩) :
    ∃ g l phrases phrase rs m std, loadGrammar env grammar = .ok g ∧ loadLexicon env lexicon = .ok l ∧
      phrasesOf env l locale filter address = .ok phrases ∧ phrase ∈ phrases ∧
      Derives g [c!"ADDRESS"] rs m ∧ m ≤ phrase.length + 2 ∧ Picks (inputs rs) (phrase.map (·.inclass)) ∧ (outputs rs).length = phrase.length ∧
      (∀ phrase' ∈ phrases, sizeProd (phrase'.map (·.inclass)) < 2 ^ 32 → ∀ rs' m', Derives g [c!"ADDRESS"] rs' m' →
        m' ≤ phrase'.length + 2 → Picks (inputs rs') (phrase'.map (·.inclass)) →
        env.fo.lt env.fo.zero (average env.fo rs') = true → env.fo.lt (average env.fo rs) (average env.fo rs') = false) ∧
      (retag phrase (inputs rs) (outputs rs)).map l.standardize = std.map some ∧
      std.map (·.outclass) = outputs rs ∧
      (∀ f, a.get f = if wordsFor f std = [] then none else some (upToNul (joinWith c!" " (wordsFor f std)))) ∧
      a.pattern = some (patternText (retag phrase (inputs rs) (outputs rs))) := by
  unfold stdStandardize at h
  cases hg : loadGrammar env grammar with
  | undefined => rw [hg] at h; cases h
  | throws m => rw [hg] at h; cases h
  | ok g =>
  rw [hg] at h
  simp only at h
  cases hl : loadLexicon env lexicon with
  | undefined => rw [hl] at h; cases h
  | throws m => rw [hl] at h; cases h
  | ok l =>
  rw [hl] at h
  simp only at h
  have hinit : Grammar.initialize env.u.toCharTables env.fo grammar = .ok g := by
    unfold loadGrammar at hg
    split at hg
    · next g' e => cases hg; exact e
    · cases hg
  obtain ⟨wf, hb, hr⟩ := C29_constructed_wf _ env.fo h0 grammar g hinit
  have hge : ∃ phrases b, phrasesOf env l locale filter address = .ok phrases ∧
      searchAndReclassBestOf g env.fo phrases = .ok b ∧ env.fo.ge0 b.score = true := by
    have h' := h
    unfold standardizeAddr standardizeAddrWith at h'
    cases hp : phrasesOf env l locale filter address with
    | undefined => rw [hp] at h'; cases h'
    | throws m => rw [hp] at h'; cases h'
    | ok phrases =>
      rw [hp] at h'
      simp only at h'
      cases hbb : searchAndReclassBestOf g env.fo phrases with
      | undefined => rw [hbb] at h'; cases h'
      | throws m => rw [hbb] at h'; cases h'
      | ok b =>
        rw [hbb] at h'
        simp only at h'
        split at h'
        · next hs => exact ⟨phrases, b, rfl, hbb, hs⟩
        · cases h'
  obtain ⟨phrases, b, std, k1, k2, k3, k4, k5, _, k6⟩ := C45_address env g l locale filter address a err h
  obtain ⟨phrases', b', q1, q2, hge⟩ := hge
  rw [k1] at q1
  injection q1 with q1
  subst q1
  rw [k2] at q2
  injection q2 with q2
  subst q2
  obtain ⟨rs, hrs, hc⟩ := C42_first_best_phrase laws signs.neg_lt wf hb hr phrases
  rcases hc with ⟨i, r, hi, hfb, hm, hbest⟩ | ⟨_, hbest⟩
  · rw [k2] at hbest
    injection hbest with hbest
    subst hbest
    have hphrase : ∃ phrase ∈ phrases, searchAndReclassBest g env.fo phrase = .ok b := by
      have : Outcome.ok b ∈ phrases.map (searchAndReclassBest g env.fo) := by
        rw [hrs]; exact List.mem_map.2 ⟨b, List.mem_of_getElem? hi, rfl⟩
      obtain ⟨ph, h1, h2⟩ := List.mem_map.1 this
      exact ⟨ph, h1, h2⟩
    obtain ⟨phrase, hmem, hbr⟩ := hphrase
    obtain ⟨results, r', hs, hr', hno, hyes⟩ := C41_no_match_iff laws wf hb hr phrase
    rw [hbr] at hr'
    cases hr'
    have hne : results ≠ [] := by
      intro e
      rw [hno e] at hm
      cases hm
    obtain ⟨j, p, score, nrules, hj, hbp, hcase⟩ := C39_best_is_first_max laws wf hb phrase results hs hne
    rw [hbr] at hbp
    injection hbp with hbp
    subst hbp
    have hpm := List.mem_of_getElem? hj
    obtain ⟨_, hpk, _⟩ := C36_search_sound wf _ phrase results hs p hpm
    obtain ⟨m, hd, hml⟩ : ∃ m, Derives g [c!"ADDRESS"] p.rules m ∧ m ≤ phrase.length + 2 := by
      obtain ⟨ps, hps, _⟩ := Token.enumerate_picks phrase
      rcases search_spec wf c!"ADDRESS" phrase ps hps with ⟨results', h1, _, hmem'⟩ | ⟨h1, _⟩
      · rw [hs] at h1; cases h1
        obtain ⟨qs, m, hd, hl, _, rfl⟩ := (hmem' p).1 hpm
        exact ⟨m, hd, hl⟩
      · rw [hs] at h1; cases h1
    obtain ⟨hbal, _, _⟩ := search_balanced wf hb _ phrase results hs p hpm
    have hlen : (inputs p.rules).length = phrase.length := by
      have := picks_length hpk
      rwa [List.length_map] at this
    have hol : (outputs p.rules).length = phrase.length := by rw [outputs_length _ hbal, hlen]
    refine ⟨g, l, phrases, phrase, p.rules, m, std, rfl, rfl, k1, hmem, hd, hml, hpk, hol, ?_, k3, ?_, k5, ?_⟩
    · intro phrase' hp' hsz rs' m' hd' hm' hpk' hpos
      -- the result for that token list
      obtain ⟨results', r', hs', hr', hno', hyes'⟩ := C41_no_match_iff laws wf hb hr phrase'
      have hin : ⟨rs', [], []⟩ ∈ results' := (C37_search_exact wf _ phrase' hsz results' hs' rs').2 ⟨m', hd', hm', hpk'⟩
      have hne' : results' ≠ [] := List.ne_nil_of_mem hin
      obtain ⟨j', p', score', nrules', hj', hbp', hcase'⟩ := C39_best_is_first_max laws wf hb phrase' results' hs' hne'
      have hrin : r' ∈ rs := by
        have : searchAndReclassBest g env.fo phrase' ∈ rs.map .ok := by
          rw [← hrs]; exact List.mem_map.2 ⟨phrase', hp', rfl⟩
        rw [hr'] at this
        obtain ⟨r'', h6, h7⟩ := List.mem_map.1 this
        cases h7
        exact h6
      rw [hr'] at hbp'
      injection hbp' with hbp'
      have hscore : r'.score = score' := by rw [hbp']
      have hle : env.fo.lt score score' = false := by
        have := hfb.2.1 r'.score (List.mem_map.2 ⟨r', hrin, rfl⟩)
        rwa [hscore] at this
      have hmem' : average env.fo rs' ∈ results'.map (fun q => average env.fo q.rules) := List.mem_map.2 ⟨_, hin, rfl⟩
      rcases hcase' with ⟨hfb', hpos', _⟩ | ⟨hall, _⟩
      · have h2 := hfb'.2.1 _ hmem'
        rcases hcase with ⟨hfb0, _, _⟩ | ⟨_, _, hz, _⟩
        · have e : score = average env.fo p.rules := by
            have := hfb0.1
            rw [List.getElem?_map, hj] at this
            exact (Option.some.inj this).symm
          rw [← e]
          cases hx : env.fo.lt score (average env.fo rs') with
          | false => rfl
          | true =>
            rcases htot _ _ _ hpos' hx with h | h
            · rw [hle] at h; cases h
            · rw [h2] at h; cases h
        · rw [hz, hpos'] at hle; cases hle
      · have := hall _ hin
        rw [this] at hpos; cases hpos
    · rw [k4]
      have hout : ∀ (ts : List Token) (is : List InType) (os : List OutType), is.length = ts.length → os.length = ts.length →
          (retag ts is os).map (·.outclass) = os := by
        intro ts
        induction ts with
        | nil =>
          intro is os _ h2
          have := List.length_eq_zero_iff.1 h2
          subst this
          simp [retag]
        | cons t ts ih =>
          intro is os h1 h2
          cases is with
          | nil => cases h1
          | cons i is =>
            cases os with
            | nil => cases h2
            | cons o os =>
              rw [retag, List.map_cons, ih is os (by simpa using h1) (by simpa using h2)]
      exact hout _ _ _ hlen hol
    · rw [k6]
      simp only [Option.getD_some]
      have := Archive.cstr_free (patternText_noNul phrase (inputs p.rules) (outputs p.rules))
      exact congrArg some this
  · rw [k2] at hbest
    injection hbest with hbest
    rw [hbest, signs.neg_ge] at hge
    cases hge

/-- The same without the nesting limit for the derivation itself. -/
theorem C65_explained (env : Env F D) (laws : LtLaws env.fo) (signs : SignLaws env.fo)
    (htot : ∀ a b c, env.fo.lt env.fo.zero b = true → env.fo.lt a c = true → env.fo.lt a b = true ∨ env.fo.lt b c = true)
    (h0 : env.fo.le0 env.fo.zero = true) (address grammar lexicon locale filter : Str) (a : StdAddr) (err : Option Str)
    (h : stdStandardize env address grammar lexicon locale filter = some ⟨some a, err⟩) :
    ∃ g l phrases phrase rs m std, loadGrammar env grammar = .ok g ∧ loadLexicon env lexicon = .ok l ∧
      phrasesOf env l locale filter address = .ok phrases ∧ phrase ∈ phrases ∧
      Derives g [c!"ADDRESS"] rs m ∧ Picks (inputs rs) (phrase.map (·.inclass)) ∧ (outputs rs).length = phrase.length ∧
      (∀ phrase' ∈ phrases, sizeProd (phrase'.map (·.inclass)) < 2 ^ 32 → ∀ rs' m', Derives g [c!"ADDRESS"] rs' m' →
        m' ≤ phrase'.length + 2 → Picks (inputs rs') (phrase'.map (·.inclass)) →
        env.fo.lt env.fo.zero (average env.fo rs') = true → env.fo.lt (average env.fo rs) (average env.fo rs') = false) ∧
      (retag phrase (inputs rs) (outputs rs)).map l.standardize = std.map some ∧
      std.map (·.outclass) = outputs rs ∧
      (∀ f, a.get f = if wordsFor f std = [] then none else some (upToNul (joinWith c!" " (wordsFor f std)))) ∧
      a.pattern = some (patternText (retag phrase (inputs rs) (outputs rs))) := by
  obtain ⟨g, l, phrases, phrase, rs, m, std, h1, h2, h3, h4, h5, _, h6⟩ :=
    C65_within env laws signs htot h0 address grammar lexicon locale filter a err h
  exact ⟨g, l, phrases, phrase, rs, m, std, h1, h2, h3, h4, h5, h6⟩

theorem ratOps_total : ∀ a b c : Rat, ratOps.lt ratOps.zero b = true → ratOps.lt a c = true →
    ratOps.lt a b = true ∨ ratOps.lt b c = true := by
  intro a b c _ h
  simp only [ratOps, decide_eq_true_eq] at *
  grind

example : LtLaws exEnv.fo ∧ SignLaws exEnv.fo ∧
    (∀ a b c, exEnv.fo.lt exEnv.fo.zero b = true → exEnv.fo.lt a c = true → exEnv.fo.lt a b = true ∨ exEnv.fo.lt b c = true) ∧
    exEnv.fo.le0 exEnv.fo.zero = true ∧
    stdStandardize exEnv c!"12 new york str" addrText townText c!"en" c!"SPACE" = some ⟨some
      { house_num := some c!"12", city := some c!"NY", suftype := some c!"STRASSE",
        pattern := some c!"NUMBER CITY TYPE -> HOUSE CITY SUFTYP" }, none⟩ :=
  ⟨ratOps_laws, ratOps_signs, ratOps_total, by decide, by decide +kernel⟩

/-! ## C66 -/

/-- The text of a token consists of characters of the address, put in upper case and normalised, of blanks and points. -/
theorem C66_token_characters (env : Env F D) (l : Lexicon) (locale filter address : Str) (phrases : List (List Token))
    (hp : phrasesOf env l locale filter address = .ok phrases) (phrase : List Token) (hm : phrase ∈ phrases) (t : Token)
    (ht : t ∈ phrase) (c : Char) (hc : c ∈ t.text) :
    c ∈ env.icu.upper l.locale (env.icu.norm (env.icu.upper locale (env.icu.norm address))) ∨ c = ' ' ∨ c = '.' :=
  (phrasesOf_of (P := fun c => c ∈ env.icu.upper l.locale (env.icu.norm (env.icu.upper locale (env.icu.norm address))) ∨
    c = ' ' ∨ c = '.') (Or.inr (Or.inr rfl)) (Or.inr (Or.inl rfl)) (fun _ hc => Or.inl hc) hp phrase hm t ht).1 c hc

/-- The fields of an address consist of such characters and those of the standard words of the lexicon. -/
theorem C66_field_characters (env : Env F D) (g : Grammar F) (l : Lexicon) (locale filter address : Str) (a : StdAddr)
    (err : Option Str) (h : standardizeAddr env g l locale filter address = some ⟨some a, err⟩) (f : Field) (v : Str)
    (hv : a.get f = some v) (c : Char) (hc : c ∈ v) :
    c ∈ env.icu.upper l.locale (env.icu.norm (env.icu.upper locale (env.icu.norm address))) ∨ c = ' ' ∨ c = '.' ∨
      ∃ e ∈ l.lex, ∃ x ∈ e.2, c ∈ x.stdword := by
  obtain ⟨phrases, b, std, k1, k2, k3, _, k5, _, _⟩ := C45_address env g l locale filter address a err h
  have htok := bestOf_of (Q := TokenOf fun c => c ∈ env.icu.upper l.locale (env.icu.norm (env.icu.upper locale (env.icu.norm address))) ∨
    c = ' ' ∨ c = '.' ∨ ∃ e ∈ l.lex, ∃ x ∈ e.2, c ∈ x.stdword)
    (fun _ _ _ h => h) (phrasesOf_of (Or.inr (Or.inr (Or.inl rfl))) (Or.inr (Or.inl rfl)) (fun c hc => Or.inl hc) k1) k2
  have hstd : ∀ t ∈ std, AllOf (fun c => c ∈ env.icu.upper l.locale (env.icu.norm (env.icu.upper locale (env.icu.norm address))) ∨
      c = ' ' ∨ c = '.' ∨ ∃ e ∈ l.lex, ∃ x ∈ e.2, c ∈ x.stdword) t.stdtext := by
    intro t ht
    have : some t ∈ b.tokens.map l.standardize := by rw [k3]; exact List.mem_map.2 ⟨t, ht, rfl⟩
    obtain ⟨t0, h0, e⟩ := List.mem_map.1 this
    exact standardize_of (fun e he x hx c hc => Or.inr (Or.inr (Or.inr ⟨e, he, x, hx, hc⟩))) (htok t0 h0) e
  rw [k5 f] at hv
  split at hv
  · cases hv
  · injection hv with hv
    subst hv
    have hj : ∀ {ws : List Str} {c : Char}, c ∈ joinWith c!" " ws → c = ' ' ∨ ∃ w ∈ ws, c ∈ w := by
      intro ws
      induction ws with
      | nil => intro c h; cases h
      | cons w ws ih =>
        intro c h
        cases ws with
        | nil => exact Or.inr ⟨w, List.mem_cons_self .., h⟩
        | cons v vs =>
          rw [joinWith] at h
          rcases List.mem_append.1 h with h | h
          · rcases List.mem_append.1 h with h | h
            · exact Or.inr ⟨w, List.mem_cons_self .., h⟩
            · exact Or.inl (List.mem_singleton.1 h)
          · rcases ih h with h | ⟨x, hx, h⟩
            · exact Or.inl h
            · exact Or.inr ⟨x, List.mem_cons_of_mem _ hx, h⟩
    rcases hj ((List.takeWhile_sublist _).subset hc) with h | ⟨w, hw, h⟩
    · exact Or.inr (Or.inl h)
    · obtain ⟨t, ht, rfl⟩ := List.mem_map.1 hw
      exact hstd t (List.mem_filter.1 ht).1 c h

/-- Without a NUL in the address and in the standard words of the lexicon no field is cut off. -/
theorem C66_nothing_cut (env : Env F D) (g : Grammar F) (l : Lexicon) (locale filter address : Str) (a : StdAddr)
    (err : Option Str) (h : standardizeAddr env g l locale filter address = some ⟨some a, err⟩)
    (hk : IcuKeeps env.icu '\x00') (hn : '\x00' ∉ address) (hl : ∀ e ∈ l.lex, ∀ x ∈ e.2, '\x00' ∉ x.stdword) :
    ∃ phrases b std, phrasesOf env l locale filter address = .ok phrases ∧
      searchAndReclassBestOf g env.fo phrases = .ok b ∧ b.tokens.map l.standardize = std.map some ∧
      std.map (·.outclass) = b.tokens.map (·.outclass) ∧ Holds a std ∧ a.pattern = some (upToNul (b.matched.getD [])) := by
  obtain ⟨phrases, b, std, k1, k2, k3, k4, _, k5, k6⟩ := C45_address env g l locale filter address a err h
  refine ⟨phrases, b, std, k1, k2, k3, k4, k5 ?_, k6⟩
  have hprep : AllOf (fun c => c ≠ '\x00') (env.icu.upper l.locale (env.icu.norm (env.icu.upper locale (env.icu.norm address)))) := by
    rintro _ hc rfl
    exact hk.upper _ _ (hk.norm _ (hk.upper _ _ (hk.norm _ hn))) hc
  have htok := bestOf_of (fun _ _ _ h => h) (phrasesOf_of (by decide) (by decide) hprep k1) k2
  intro t ht
  have : some t ∈ b.tokens.map l.standardize := by rw [k3]; exact List.mem_map.2 ⟨t, ht, rfl⟩
  obtain ⟨t0, h0, e⟩ := List.mem_map.1 this
  have := standardize_of (P := fun c => c ≠ '\x00') (fun e he x hx c hc e' => by subst e'; exact hl e he x hx hc) (htok t0 h0) e
  intro h0
  exact this _ h0 rfl

example : outcomeIs (phrasesOf exEnv townLexicon c!"en" c!"SPACE" c!"12 new york str") (fun ps => ps.length = 2) = true ∧
    outcomeIs (loadGrammar exEnv addrText) (fun g =>
      decide (standardizeAddr exEnv g townLexicon c!"en" c!"SPACE" c!"12 new york str" = some ⟨some
        { house_num := some c!"12", city := some c!"NY", suftype := some c!"STRASSE",
          pattern := some c!"NUMBER CITY TYPE -> HOUSE CITY SUFTYP" }, none⟩)) = true ∧
    IcuKeeps exEnv.icu '\x00' ∧ '\x00' ∉ c!"12 new york str" ∧ (∀ e ∈ townLexicon.lex, ∀ x ∈ e.2, '\x00' ∉ x.stdword) :=
  ⟨by decide +kernel, by decide +kernel, asciiIcu_keeps _ (toUpper_low _ (by decide)), by decide, by decide⟩

end AS.Props
