import Verif.Lemmas.Further
import Verif.Props.Improve
import Verif.Props.Use
/-
Property C95: further classes, or other standard words, for words of the lexicon change only what they take part in.
-/
namespace AS.Props
open AS AS.Wrapper AS.Tokenizer
variable {F D : Type} {fo : FloatOps F} {New : Str → InType → Prop}

/-! ### Phrases -/

theorem found_picks {G : Grammar F} (wf : WfGrammar G) (phrase : List Token) {l : List (SearchPath F)}
    (hl : search G c!"ADDRESS" phrase = .ok l) : ∀ p ∈ l, Picks (inputs p.rules) (phrase.map (·.inclass)) ∧
      ∃ m, Derives G [c!"ADDRESS"] p.rules m := by
  intro p hp
  obtain ⟨ps, hps, hpick⟩ := Token.enumerate_picks phrase
  rcases search_spec wf c!"ADDRESS" phrase ps hps with ⟨res, h', _, hmem⟩ | ⟨h', _⟩
  · rw [hl] at h'
    cases h'
    obtain ⟨rs, m, hd, _, hin, rfl⟩ := (hmem p).1 hp
    exact ⟨hpick _ hin, m, hd⟩
  · rw [hl] at h'; cases h'

/-- What is found for tokens with fewer classes. -/
theorem found_fewer {G : Grammar F} (wf : WfGrammar G) {phrase phrase' : List Token} (h : Along (MoreToken New) phrase phrase')
    (hsize : sizeProd (phrase'.map (·.inclass)) < 2 ^ 32) {l' : List (SearchPath F)} (hl' : search G c!"ADDRESS" phrase' = .ok l') :
    ∃ P : List InType → Bool, (∀ p, Picks p (phrase'.map (·.inclass)) → (P p = true ↔ Picks p (phrase.map (·.inclass)))) ∧
      search G c!"ADDRESS" phrase = .ok (l'.filter (fun p => P (inputs p.rules))) := by
  obtain ⟨P, h1, h2⟩ := cart_more h
  refine ⟨P, h1, search_fewer wf _ h.length ?_ (Token.enumerate_eq phrase' hsize) h2 hl'⟩
  exact Token.enumerate_eq phrase (Nat.lt_of_le_of_lt (sizeProd_more h) hsize)

theorem one_further {nan : F → Prop} (nl : NanLaws fo nan) (hm1 : fo.lt (fo.ofInt (-1)) fo.zero = true) {G : Grammar F}
    (wf : WfGrammar G) (hb : Balanced G) (hr : HasRoot G) {phrase phrase' : List Token} (h : Along (MoreToken New) phrase phrase')
    (hsize : sizeProd (phrase'.map (·.inclass)) < 2 ^ 32) :
    ∃ r r' l', searchAndReclassBest G fo phrase = .ok r ∧ searchAndReclassBest G fo phrase' = .ok r' ∧
      search G c!"ADDRESS" phrase' = .ok l' ∧ fo.lt r'.score r.score = false ∧ (¬ nan r.score ∧ ¬ nan r'.score) ∧
      ((r = r' ∧ (r'.tokens = [] ∨ ∃ p ∈ l', ¬ UsesNew New phrase' (inputs p.rules) ∧ Reports fo phrase' p r')) ∨
        ∃ p ∈ l', UsesNew New phrase' (inputs p.rules) ∧ Reports fo phrase' p r') := by
  obtain ⟨l', hl'⟩ := search_root wf hr phrase'
  obtain ⟨P, h1, hl⟩ := found_fewer wf h hsize hl'
  obtain ⟨r, r', k1, k2, k3, k4, k5⟩ := one_choice (K := fun p => ¬ UsesNew New phrase' (inputs p.rules)) nl hm1 wf wf hb hb hl hl'
    (fun q hq => ⟨q, (List.mem_filter.1 hq).1, Or.inr (.refl _)⟩)
    (fun u' p' v' e' hk => by
      refine ⟨u'.filter (fun p => P (inputs p.rules)), v'.filter (fun p => P (inputs p.rules)), ?_, ?_⟩
      · have hp' : p' ∈ l' := by rw [e']; simp
        have hpk := (found_picks wf phrase' hl' p' hp').1
        rw [e', List.filter_append, List.filter_cons_of_pos]
        exact (h1 _ hpk).2 (picks_more h _ hpk hk)
      · intro q hq
        exact ⟨q, (List.mem_filter.1 hq).1, Or.inr (.refl _)⟩)
    (fun p _ _ => retag_more h _ _)
  refine ⟨r, r', l', k1, k2, hl', k3, k4, ?_⟩
  rcases k5 with k5 | ⟨p, hp, hk, hrep⟩
  · exact Or.inl k5
  · exact Or.inr ⟨p, hp, Classical.byContradiction hk, hrep⟩

/-! ### C95 -/

/-- The best match for tokens with further classes: it is the one found before, or a token is taken in one of the new
classes; and the score is not lower. -/
theorem C95_same_or_new {nan : F → Prop} (nl : NanLaws fo nan) (hm1 : fo.lt (fo.ofInt (-1)) fo.zero = true) {G : Grammar F}
    (wf : WfGrammar G) (hb : Balanced G) (hr : HasRoot G) {phrases phrases' : List (List Token)}
    (h : Along (Along (MoreToken New)) phrases phrases') (hsize : ∀ p ∈ phrases', sizeProd (p.map (·.inclass)) < 2 ^ 32) :
    ∃ r r', searchAndReclassBestOf G fo phrases = .ok r ∧ searchAndReclassBestOf G fo phrases' = .ok r' ∧
      fo.lt r'.score r.score = false ∧
      ((r = r' ∧ (r'.tokens = [] ∨ ∃ phrase ∈ phrases', ∃ p : SearchPath F, ¬ UsesNew New phrase (inputs p.rules) ∧
          r'.tokens = reclassed phrase p)) ∨
        ∃ phrase ∈ phrases', ∃ l' p, search G c!"ADDRESS" phrase = .ok l' ∧ p ∈ l' ∧ UsesNew New phrase (inputs p.rules) ∧
          Reports fo phrase p r') := by
  have all : ∃ zs : List (List Token × BestResult F × BestResult F), phrases' = zs.map (·.1) ∧
      phrases.map (searchAndReclassBest G fo) = (zs.map (·.2.1)).map .ok ∧
      phrases'.map (searchAndReclassBest G fo) = (zs.map (·.2.2)).map .ok ∧
      ∀ z ∈ zs, fo.lt z.2.2.score z.2.1.score = false ∧ (¬ nan z.2.1.score ∧ ¬ nan z.2.2.score) ∧
        ∃ l', search G c!"ADDRESS" z.1 = .ok l' ∧
        ((z.2.1 = z.2.2 ∧ (z.2.2.tokens = [] ∨ ∃ p ∈ l', ¬ UsesNew New z.1 (inputs p.rules) ∧ Reports fo z.1 p z.2.2)) ∨
          ∃ p ∈ l', UsesNew New z.1 (inputs p.rules) ∧ Reports fo z.1 p z.2.2) := by
    induction h with
    | nil => exact ⟨[], rfl, rfl, rfl, by simp⟩
    | @cons phrase phrase' ps ps' hp _ ih =>
      obtain ⟨zs, h1, h2, h3, h4⟩ := ih (fun p hp => hsize p (List.mem_cons_of_mem _ hp))
      obtain ⟨r, r', l', k1, k2, k3, k4, k5, k6⟩ := one_further nl hm1 wf hb hr hp (hsize phrase' List.mem_cons_self)
      refine ⟨(phrase', r, r') :: zs, by rw [h1]; rfl, by rw [List.map_cons, h2, k1]; rfl, by rw [List.map_cons, h3, k2]; rfl, ?_⟩
      intro z hz
      rcases List.mem_cons.1 hz with rfl | hz
      · exact ⟨k4, k5, l', k3, k6⟩
      · exact h4 z hz
  obtain ⟨zs, e1, e2, e3, hzs⟩ := all
  obtain ⟨r, r', h1, h2, h3, h4⟩ := all_choice nl e2 e3 (fun z hz => ⟨(hzs z hz).1, (hzs z hz).2.1⟩)
  refine ⟨r, r', h1, h2, h3, ?_⟩
  rcases h4 with ⟨h4, h5⟩ | ⟨z, hz, h5, h6⟩
  · exact Or.inl ⟨h4, Or.inl h5⟩
  · have hphr : z.1 ∈ phrases' := by rw [e1]; exact List.mem_map.2 ⟨z, hz, rfl⟩
    obtain ⟨_, _, l', c1, ⟨c2, c3⟩ | ⟨p, c2, c3, c4⟩⟩ := hzs z hz
    · refine Or.inl ⟨h6 c2, ?_⟩
      rcases c3 with c3 | ⟨p, _, c4, c5⟩
      · exact Or.inl (by rw [h5]; exact c3)
      · exact Or.inr ⟨z.1, hphr, p, c4, by rw [h5]; exact c5.1⟩
    · refine Or.inr ⟨z.1, hphr, l', p, c1, c2, c3, ?_⟩
      rw [h5, c4.fixed]
      exact c4

/-- The two lexicons. -/
theorem further_loaded {env : Env F D} {text text' h h' : Str} {es es' : List LexEntry}
    (ha : env.archive text = .notArchive) (ha' : env.archive text' = .notArchive)
    (ht : LexText env.icu text h es) (ht' : LexText env.icu text' h' es') (hloc : headerLocale h = headerLocale h')
    (hmore : FurtherUse New es es') : ∃ l l', loadLexicon env text = .ok l ∧ loadLexicon env text' = .ok l' ∧
      FindsMore New l l' ∧ lexRe env l = lexRe env l' ∧ l.locale = l'.locale := by
  obtain ⟨l, h1, h2, H, C⟩ := loadLexicon_text ha ht
  obtain ⟨l', h1', h2', H', C'⟩ := loadLexicon_text ha' ht'
  have hmem : ∀ (es : List LexEntry) w c, (∃ e ∈ (held (es.map LexOp.ins)).filter (fun e => e.word = w), c ∈ e.type) ↔
      standardOf es w c ≠ none := by
    intro es w c
    rw [← Option.isSome_iff_ne_none, standardOf_some]
    simp only [List.mem_filter, mem_heldIns, decide_eq_true_eq, and_assoc]
  have e1 : (trieOf (l.lex.map (·.1))).getRegexp = (trieOf (l'.lex.map (·.1))).getRegexp := by
    refine pattern_canon fun w _ => ?_
    rw [H.key_iff, H'.key_iff]
    simp only [mem_heldIns]
    exact hmore.listed w
  have e2 : (trieOf (Lexicon.attachedWords LexEntry.isPrefixAttached l.lex)).getRegexp =
      (trieOf (Lexicon.attachedWords LexEntry.isPrefixAttached l'.lex)).getRegexp := by
    refine pattern_canon fun w _ => ?_
    rw [H.attached_iff, H'.attached_iff]
    simp only [mem_heldIns, LexEntry.isPrefixAttached, List.contains_eq_mem, decide_eq_true_eq]
    exact hmore.front w
  have e3 : (trieOf (Lexicon.attachedWords LexEntry.isSuffixAttached l.lex)).getRegexp =
      (trieOf (Lexicon.attachedWords LexEntry.isSuffixAttached l'.lex)).getRegexp := by
    refine pattern_canon fun w _ => ?_
    rw [H.attached_iff, H'.attached_iff]
    simp only [mem_heldIns, LexEntry.isSuffixAttached, List.contains_eq_mem, decide_eq_true_eq]
    exact hmore.behind w
  have hre : lexRe env l = lexRe env l' := by
    unfold lexRe
    rw [C.regex.1, C'.regex.1, C.regexPrefixAtt.1, C'.regexPrefixAtt.1, C.regexSuffixAtt.1, C'.regexSuffixAtt.1]
    unfold Lexicon.freshRegex Lexicon.freshPrefix Lexicon.freshSuffix
    rw [e1, e2, e3]
  refine ⟨l, l', h1, h1', ⟨?_, ?_, ?_, ?_⟩, hre, by rw [h2, h2', hloc]⟩
  · intro w c
    rw [H.find, H'.find, hmem, hmem]
    exact hmore.kept w c
  · intro w c
    rw [H.find, H'.find, hmem, hmem]
    intro hc
    by_cases hn : New w c
    · exact Or.inr hn
    · exact Or.inl (by rw [hmore.standard w c hn]; exact hc)
  · intro w c hn
    obtain ⟨d, hd⟩ := hmore.classed w c hn
    refine ⟨d, ?_⟩
    rw [H.find, hmem]
    exact hd
  · intro w c cs hn
    rw [H.find, H'.find, stdLoop_find, stdLoop_find, List.find?_filter, List.find?_filter, find_held, find_held]
    have := hmore.standard w c hn
    unfold standardOf at this
    simpa only [decide_eq_true_eq] using congrArg some this

/-- The token lists of an address: the same texts, in the same lists, with the same classes and new ones. -/
theorem C95_tokens (env : Env F D) (text text' h h' : Str) (es es' : List LexEntry)
    (ha : env.archive text = .notArchive) (ha' : env.archive text' = .notArchive)
    (ht : LexText env.icu text h es) (ht' : LexText env.icu text' h' es') (hloc : headerLocale h = headerLocale h')
    (hmore : FurtherUse New es es') (address locale filter : Str) (hf : ∀ w c, New w c → c ∉ InType.asType filter) :
    ∃ l l', loadLexicon env text = .ok l ∧ loadLexicon env text' = .ok l' ∧
      ((phrasesOf env l locale filter address = .undefined ∧ phrasesOf env l' locale filter address = .undefined) ∨
      ∃ ps ps', phrasesOf env l locale filter address = .ok ps ∧ phrasesOf env l' locale filter address = .ok ps' ∧
        Along (Along (MoreToken New)) ps ps') := by
  obtain ⟨l, l', h1, h2, h3, h4, h5⟩ := further_loaded ha ha' ht ht' hloc hmore
  exact ⟨l, l', h1, h2, phrasesOf_more h3 h4 h5 hf locale address⟩

/-- An address standardized with the lexicon with further classes: the result is that of the lexicon before, or it is that of
a derivation in which some token is taken in a new class. -/
theorem C95_address (env : Env F D) {nan : F → Prop} (laws : NanLaws env.fo nan) (hm1 : env.fo.lt (env.fo.ofInt (-1)) env.fo.zero = true)
    (h0 : env.fo.le0 env.fo.zero = true) (text text' h h' : Str) (es es' : List LexEntry)
    (ha : env.archive text = .notArchive) (ha' : env.archive text' = .notArchive)
    (ht : LexText env.icu text h es) (ht' : LexText env.icu text' h' es') (hloc : headerLocale h = headerLocale h')
    (hmore : FurtherUse New es es') (address grammar locale filter : Str) (hf : ∀ w c, New w c → c ∉ InType.asType filter)
    (hsize : ∀ l' phrases, loadLexicon env text' = .ok l' → phrasesOf env l' locale filter address = .ok phrases →
      ∀ p ∈ phrases, sizeProd (p.map (·.inclass)) < 2 ^ 32) :
    stdStandardize env address grammar text' locale filter = stdStandardize env address grammar text locale filter ∨
    ∃ g l' phrases phrase rs m, loadGrammar env grammar = .ok g ∧ loadLexicon env text' = .ok l' ∧
      phrasesOf env l' locale filter address = .ok phrases ∧ phrase ∈ phrases ∧ Derives g [c!"ADDRESS"] rs m ∧
      Picks (inputs rs) (phrase.map (·.inclass)) ∧ UsesNew New phrase (inputs rs) ∧
      ∀ a err, stdStandardize env address grammar text' locale filter = some ⟨some a, err⟩ →
        a.pattern = some (patternText (retag phrase (inputs rs) (outputs rs))) := by
  obtain ⟨l, l', h1, h2, h3, h4, h5⟩ := further_loaded ha ha' ht ht' hloc hmore
  unfold stdStandardize
  rw [h1, h2]
  cases hlg : loadGrammar env grammar with
  | undefined => exact Or.inl rfl
  | throws m => exact Or.inl rfl
  | ok g =>
    simp only
    have hinit : Grammar.initialize env.u.toCharTables env.fo grammar = .ok g := by
      unfold loadGrammar at hlg
      split at hlg
      · next g' e => cases hlg; exact e
      · cases hlg
    obtain ⟨wf, hb, hr⟩ := C29_constructed_wf _ env.fo h0 grammar g hinit
    rcases phrasesOf_more h3 h4 h5 hf locale address with ⟨p1, p2⟩ | ⟨ps, ps', p1, p2, p3⟩
    · left; unfold standardizeAddr standardizeAddrWith; rw [p1, p2]
    · obtain ⟨b, b', k1, k2, _, k3⟩ := C95_same_or_new laws hm1 wf hb hr p3 (hsize l' ps' h2 p2)
      rcases k3 with ⟨rfl, k4⟩ | ⟨phrase, hphr, res, p, hs, hpm, hnew, hrep⟩
      · left
        unfold standardizeAddr standardizeAddrWith
        simp only [p1, p2, k1, k2]
        have : collect l (List.replicate 16 []) b.tokens = collect l' (List.replicate 16 []) b.tokens := by
          rcases k4 with k4 | ⟨phrase, _, p, k4, k5⟩
          · rw [k4]; rfl
          · rw [k5]; exact collect_more h3 _ _ _ _ k4
        rw [this]
      · right
        obtain ⟨q1, m, q2⟩ := found_picks wf phrase hs p hpm
        refine ⟨g, l', ps', phrase, p.rules, m, rfl, rfl, p2, hphr, q2, q1, hnew, ?_⟩
        intro a err hx
        unfold standardizeAddr standardizeAddrWith at hx
        simp only [p2, k2] at hx
        split at hx
        · cases hc : collect l' (List.replicate 16 []) b'.tokens with
          | none => rw [hc] at hx; cases hx
          | some v =>
            rw [hc] at hx
            simp only at hx
            split at hx
            · simp only [Option.some.injEq, Ret.mk.injEq] at hx
              obtain ⟨rfl, _⟩ := hx
              simp only [fill, hrep.2.1, Option.getD_some, reclassed]
              exact congrArg some (Archive.cstr_free (patternText_noNul phrase (inputs p.rules) (outputs p.rules)))
            · simp at hx
        · simp at hx

/-- Addresses that were standardized are standardized. -/
theorem C95_kept (env : Env F D) (laws : LtLaws env.fo) (signs : SignLaws env.fo) (hal : env.alloc 1 = true)
    (h0 : env.fo.le0 env.fo.zero = true) (text text' h h' : Str) (es es' : List LexEntry)
    (ha : env.archive text = .notArchive) (ha' : env.archive text' = .notArchive)
    (ht : LexText env.icu text h es) (ht' : LexText env.icu text' h' es') (hloc : headerLocale h = headerLocale h')
    (hmore : FurtherUse New es es') (address grammar locale filter : Str) (hf : ∀ w c, New w c → c ∉ InType.asType filter)
    (hsize : ∀ l' phrases, loadLexicon env text' = .ok l' → phrasesOf env l' locale filter address = .ok phrases →
      ∀ p ∈ phrases, sizeProd (p.map (·.inclass)) < 2 ^ 32)
    (x : StdAddr) (hx : stdStandardize env address grammar text locale filter = some ⟨some x, none⟩) :
    ∃ y, stdStandardize env address grammar text' locale filter = some ⟨some y, none⟩ := by
  obtain ⟨l, l', h1, h2, h3, h4, h5⟩ := further_loaded ha ha' ht ht' hloc hmore
  unfold stdStandardize at hx ⊢
  rw [h1] at hx
  rw [h2]
  cases hlg : loadGrammar env grammar with
  | undefined => rw [hlg] at hx; cases hx
  | throws m => rw [hlg] at hx; cases hx
  | ok g =>
    rw [hlg] at hx
    simp only at hx ⊢
    have hinit : Grammar.initialize env.u.toCharTables env.fo grammar = .ok g := by
      unfold loadGrammar at hlg
      split at hlg
      · next g' e => cases hlg; exact e
      · cases hlg
    obtain ⟨wf, hb, hr⟩ := C29_constructed_wf _ env.fo h0 grammar g hinit
    rcases phrasesOf_more h3 h4 h5 hf locale address with ⟨p1, p2⟩ | ⟨ps, ps', p1, p2, p3⟩
    · unfold standardizeAddr standardizeAddrWith at hx; rw [p1] at hx; cases hx
    · rcases C48_address_iff_match env laws signs h0 hal _ g hlg l locale filter address ps p1 with
        ⟨_, _, phrase, hphr, ⟨results, hres, hne⟩, _⟩ | ⟨k1, _⟩
      · rcases C48_address_iff_match env laws signs h0 hal _ g hlg l' locale filter address ps' p2 with
          ⟨y, hy, _⟩ | ⟨_, hall⟩
        · exact ⟨y, hy⟩
        · exfalso
          have left : ∀ {a : List (List Token)} {b : List (List Token)}, Along (Along (MoreToken New)) a b → phrase ∈ a →
              ∃ y ∈ b, Along (MoreToken New) phrase y := by
            intro a b hab hm
            induction hab with
            | nil => cases hm
            | cons r _ ih =>
              rcases List.mem_cons.1 hm with rfl | hm
              · exact ⟨_, List.mem_cons_self, r⟩
              · obtain ⟨y, hy, hr⟩ := ih hm
                exact ⟨y, List.mem_cons_of_mem _ hy, hr⟩
          obtain ⟨phrase', hphr', hal'⟩ := left p3 hphr
          obtain ⟨P, _, hl⟩ := found_fewer wf hal' (hsize l' ps' h2 p2 phrase' hphr') (hall phrase' hphr')
          rw [hres] at hl
          cases hl
          exact hne rfl
      · rw [k1] at hx; cases hx

/-- A line that is added anywhere for a word with a class. -/
theorem further_line (a b : List LexEntry) (e : LexEntry) (hl : ∃ x ∈ a ++ b, x.word = e.word ∧ x.type ≠ [])
    (hp : .ATT_PRE ∈ e.attached → ∃ x ∈ a ++ b, x.word = e.word ∧ Attach.ATT_PRE ∈ x.attached)
    (hs : .ATT_SUF ∈ e.attached → ∃ x ∈ a ++ b, x.word = e.word ∧ Attach.ATT_SUF ∈ x.attached) :
    FurtherUse (fun w c => w = e.word ∧ c ∈ e.type) (a ++ b) (a ++ e :: b) := by
  have key : ∀ P : LexEntry → Prop, (P e → ∃ x ∈ a ++ b, P x) → ((∃ x ∈ a ++ b, P x) ↔ ∃ x ∈ a ++ e :: b, P x) := by
    intro P hP
    constructor
    · rintro ⟨x, hx, h⟩
      refine ⟨x, ?_, h⟩
      rcases List.mem_append.1 hx with hx | hx
      · exact List.mem_append_left _ hx
      · exact List.mem_append_right _ (List.mem_cons_of_mem _ hx)
    · rintro ⟨x, hx, h⟩
      rcases List.mem_append.1 hx with hx | hx
      · exact ⟨x, List.mem_append_left _ hx, h⟩
      · rcases List.mem_cons.1 hx with rfl | hx
        · exact hP h
        · exact ⟨x, List.mem_append_right _ hx, h⟩
  refine ⟨fun w => key _ ?_, fun w c => ?_, fun w c hn => ?_, ?_, fun w => key _ ?_, fun w => key _ ?_⟩
  · rintro rfl
    obtain ⟨x, hx, h, _⟩ := hl
    exact ⟨x, hx, h⟩
  · rw [← Option.isSome_iff_ne_none, ← Option.isSome_iff_ne_none, standardOf_some, standardOf_some]
    rintro ⟨x, hx, h⟩
    refine ⟨x, ?_, h⟩
    rcases List.mem_append.1 hx with hx | hx
    · exact List.mem_append_left _ hx
    · exact List.mem_append_right _ (List.mem_cons_of_mem _ hx)
  · unfold standardOf
    rw [List.find?_append, List.find?_append, List.find?_cons, decide_eq_false (fun h => hn ⟨h.1.symm, h.2⟩)]
  · rintro w c ⟨rfl, _⟩
    obtain ⟨x, hx, h1, h2⟩ := hl
    obtain ⟨d, ds, hd⟩ := List.exists_cons_of_ne_nil h2
    refine ⟨d, ?_⟩
    rw [← Option.isSome_iff_ne_none, standardOf_some]
    exact ⟨x, hx, h1, by rw [hd]; simp⟩
  · rintro ⟨rfl, h⟩; exact hp h
  · rintro ⟨rfl, h⟩; exact hs h

/-- One more line for a word that has a class already, wherever it is put, with any standard word and any classes that are not
filtered: an address in which the word does not come to be taken in one of these classes has the result it had. -/
theorem C95_line (env : Env F D) {nan : F → Prop} (laws : NanLaws env.fo nan) (hm1 : env.fo.lt (env.fo.ofInt (-1)) env.fo.zero = true)
    (h0 : env.fo.le0 env.fo.zero = true) (text text' h h' : Str) (a b : List LexEntry) (e : LexEntry)
    (ha : env.archive text = .notArchive) (ha' : env.archive text' = .notArchive)
    (ht : LexText env.icu text h (a ++ b)) (ht' : LexText env.icu text' h' (a ++ e :: b)) (hloc : headerLocale h = headerLocale h')
    (hl : ∃ x ∈ a ++ b, x.word = e.word ∧ x.type ≠ [])
    (hp : .ATT_PRE ∈ e.attached → ∃ x ∈ a ++ b, x.word = e.word ∧ Attach.ATT_PRE ∈ x.attached)
    (hs : .ATT_SUF ∈ e.attached → ∃ x ∈ a ++ b, x.word = e.word ∧ Attach.ATT_SUF ∈ x.attached)
    (address grammar locale filter : Str) (hf : ∀ c ∈ e.type, c ∉ InType.asType filter)
    (hsize : ∀ l' phrases, loadLexicon env text' = .ok l' → phrasesOf env l' locale filter address = .ok phrases →
      ∀ p ∈ phrases, sizeProd (p.map (·.inclass)) < 2 ^ 32) :
    stdStandardize env address grammar text' locale filter = stdStandardize env address grammar text locale filter ∨
    ∃ l' phrases phrase cs t c, loadLexicon env text' = .ok l' ∧ phrasesOf env l' locale filter address = .ok phrases ∧
      phrase ∈ phrases ∧ Picks cs (phrase.map (·.inclass)) ∧ (t, c) ∈ phrase.zip cs ∧ t.text = e.word ∧ c ∈ e.type := by
  rcases C95_address env laws hm1 h0 text text' h h' (a ++ b) (a ++ e :: b) ha ha' ht ht' hloc (further_line a b e hl hp hs)
    address grammar locale filter (fun w c hn => hf c hn.2) hsize with k | ⟨_, l', phrases, phrase, rs, m, _, k1, k2, k3, _, k4, ⟨x, k5, k6⟩, _⟩
  · exact Or.inl k
  · exact Or.inr ⟨l', phrases, phrase, inputs rs, x.1, x.2, k1, k2, k3, k4, k5, k6.1, k6.2⟩

/-! ### Cases -/

/-- A line for "NEW YORK" with a further class, put in front. -/
def provText : Str := unlines [c!"LEXICON:\tT\tENG\ten\t2", c!"LEXENTRY:\tNEW YORK\tNEW YORK\tPROV\t",
  c!"LEXENTRY:\tNEW YORK\tNY\tCITY\t", c!"LEXENTRY:\tSTR\tSTRASSE\tTYPE\t"]
def eProv : LexEntry := ⟨c!"NEW YORK", c!"NEW YORK", [.PROV], []⟩
def provGrammar : Str := unlines [c!"[ADDRESS]", c!"@A", c!"[A]", c!"NUMBER CITY TYPE -> HOUSE CITY SUFTYP -> 0.5",
  c!"NUMBER PROV -> HOUSE PROV -> 0.8", c!"NUMBER CITY -> HOUSE CITY -> 0.2", c!"NUMBER WORD -> HOUSE STREET -> 0.4"]

theorem provText_means : LexText asciiIcu provText c!"LEXICON:\tT\tENG\ten\t2" ([] ++ eProv :: [eNY, eStr]) := by
  refine ⟨_, _, c!"LEXICON:\tT\tENG\ten\t2", _, rfl, .plain (by decide), ⟨[], rfl, by decide, by decide⟩, by decide, by decide +kernel, ?_⟩
  exact .entry (l := c!"LEXENTRY:\tNEW YORK\tNEW YORK\tPROV\t") (Or.inl (by decide)) (by decide +kernel)
    (.entry (l := c!"LEXENTRY:\tNEW YORK\tNY\tCITY\t") (Or.inl (by decide)) (by decide +kernel)
    (.entry (l := c!"LEXENTRY:\tSTR\tSTRASSE\tTYPE\t") (Or.inl (by decide)) (by decide +kernel) (.blank .nil)))

theorem prov_sizes (address : Str) (k : outcomeIs (loadLexicon exEnv provText) (fun l => outcomeIs (phrasesOf exEnv l c!"en" c!"SPACE" address)
      (fun phrases => decide (∀ p ∈ phrases, sizeProd (p.map (·.inclass)) < 2 ^ 32))) = true) :
    ∀ l' phrases, loadLexicon exEnv provText = .ok l' → phrasesOf exEnv l' c!"en" c!"SPACE" address = .ok phrases →
      ∀ p ∈ phrases, sizeProd (p.map (·.inclass)) < 2 ^ 32 := by
  intro l' phrases h1 h2
  obtain ⟨l, k1, k2⟩ := of_outcomeIs k
  rw [h1] at k1
  cases k1
  obtain ⟨ps, k3, k4⟩ := of_outcomeIs k2
  rw [h2] at k3
  cases k3
  exact of_decide_eq_true k4

/-- The hypotheses hold of the example. One address changes, with a token taken in the new class; the other, in which the
same word occurs, stays as it is. -/
example : NanLaws exEnv.fo (fun _ => False) ∧ exEnv.fo.lt (exEnv.fo.ofInt (-1)) exEnv.fo.zero = true ∧
    exEnv.fo.le0 exEnv.fo.zero = true ∧ LtLaws exEnv.fo ∧ SignLaws exEnv.fo ∧ exEnv.alloc 1 = true ∧
    exEnv.archive townText = .notArchive ∧ exEnv.archive provText = .notArchive ∧
    LexText exEnv.icu townText c!"LEXICON:\tT\tENG\ten\t2" ([] ++ [eNY, eStr]) ∧
    LexText exEnv.icu provText c!"LEXICON:\tT\tENG\ten\t2" ([] ++ eProv :: [eNY, eStr]) ∧
    FurtherUse (fun w c => w = eProv.word ∧ c ∈ eProv.type) ([] ++ [eNY, eStr]) ([] ++ eProv :: [eNY, eStr]) ∧
    (∀ c ∈ eProv.type, c ∉ InType.asType c!"SPACE") ∧
    (∀ l' phrases, loadLexicon exEnv provText = .ok l' → phrasesOf exEnv l' c!"en" c!"SPACE" c!"12 new york" = .ok phrases →
      ∀ p ∈ phrases, sizeProd (p.map (·.inclass)) < 2 ^ 32) ∧
    stdStandardize exEnv c!"12 new york" provGrammar townText c!"en" c!"SPACE" = some ⟨some
      { house_num := some c!"12", city := some c!"NY", pattern := some c!"NUMBER CITY -> HOUSE CITY" }, none⟩ ∧
    stdStandardize exEnv c!"12 new york" provGrammar provText c!"en" c!"SPACE" = some ⟨some
      { house_num := some c!"12", prov := some c!"NEW YORK", pattern := some c!"NUMBER PROV -> HOUSE PROV" }, none⟩ ∧
    stdStandardize exEnv c!"12 new york str" provGrammar townText c!"en" c!"SPACE" = some ⟨some
      { house_num := some c!"12", city := some c!"NY", suftype := some c!"STRASSE",
        pattern := some c!"NUMBER CITY TYPE -> HOUSE CITY SUFTYP" }, none⟩ ∧
    stdStandardize exEnv c!"12 new york str" provGrammar provText c!"en" c!"SPACE" = some ⟨some
      { house_num := some c!"12", city := some c!"NY", suftype := some c!"STRASSE",
        pattern := some c!"NUMBER CITY TYPE -> HOUSE CITY SUFTYP" }, none⟩ :=
  ⟨ratOps_mono.toNanLaws, by decide, by decide, ratOps_laws, ratOps_signs, rfl, rfl, rfl, townText_means, provText_means,
    further_line [] _ _ ⟨eNY, by decide, by decide⟩ (fun h => absurd h (by decide)) (fun h => absurd h (by decide)), by decide +kernel,
    prov_sizes _ (by decide +kernel), by decide +kernel, by decide +kernel, by decide +kernel, by decide +kernel⟩

/-- An environment in which the patterns are read, down to some depth. -/
def depthEnv : Env Rat Rat :=
  { exEnv with compile := fun P Q R => ⟨readOf (P.dropLast.map asciiU.canon), readOf (Q.drop 1).dropLast.dropLast, readOf R⟩ }

/-- A line for a word that had none may take an address away: the word is then no longer of the class `WORD`. -/
theorem C95_first_class : ∃ (env : Env Rat Rat) (text text' h address grammar locale filter : Str) (a : List LexEntry) (e : LexEntry),
    env.archive text = .notArchive ∧ env.archive text' = .notArchive ∧ LexText env.icu text h a ∧ LexText env.icu text' h (a ++ [e]) ∧
    (∀ x ∈ a, x.word ≠ e.word) ∧ (∀ c ∈ e.type, c ∉ InType.asType filter) ∧
    (∃ x, stdStandardize env address grammar text locale filter = some ⟨some x, none⟩) ∧
    stdStandardize env address grammar text' locale filter = some ⟨none, none⟩ := by
  refine ⟨depthEnv, townText, townText3, _, c!"12 paris", unlines [c!"[ADDRESS]", c!"NUMBER WORD -> HOUSE STREET -> 0.4"], c!"en",
    c!"SPACE", [eNY, eStr], eParis, rfl, rfl, townText_means, townText3_means, by decide, by decide +kernel, ⟨
      { house_num := some c!"12", name := some c!"PARIS", pattern := some c!"NUMBER WORD -> HOUSE STREET" }, ?_⟩, ?_⟩ <;>
  decide +kernel

end AS.Props
