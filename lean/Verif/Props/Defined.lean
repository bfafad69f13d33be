import Verif.Lemmas.Defined
import Verif.Props.Sql
/-
Property C97: exactly when a call of the interface has undefined behaviour, and how many rows there are.
-/
namespace AS.Props
open AS AS.Wrapper AS.Tokenizer
variable {F D : Type}

/-- Standardizing is undefined exactly if both texts can be loaded and 32 or more tokens of the address have a blank in
their text. Nothing about the scores is needed. -/
theorem C97_standardize (env : Env F D) (h0 : env.fo.le0 env.fo.zero = true) (address grammar lexicon locale filter : Str) :
    stdStandardize env address grammar lexicon locale filter = none ↔
      (∃ g, loadGrammar env grammar = .ok g) ∧
      ∃ l ts, loadLexicon env lexicon = .ok l ∧ TokensOf env l locale filter address ts ∧ 32 ≤ (spaced ts).length := by
  unfold stdStandardize
  cases hg : loadGrammar env grammar with
  | undefined => exact absurd hg (loadGrammar_defined env grammar)
  | throws m => simp
  | ok g =>
    cases hl : loadLexicon env lexicon with
    | undefined => exact absurd hl (loadLexicon_defined env lexicon)
    | throws m => simp
    | ok l =>
      obtain ⟨ts, h1, h2, h3⟩ := C86_defined_iff env l locale filter address
      obtain ⟨wf, hb, hr⟩ := loadGrammar_wf env h0 hg
      have hts : TokensOf env l locale filter address ts := h1
      constructor
      · intro h
        refine ⟨⟨g, rfl⟩, l, ts, rfl, hts, ?_⟩
        apply Classical.byContradiction
        intro hlt
        obtain ⟨phrases, hp⟩ := h2.2 (by unfold multiWord; unfold spaced at hlt; omega)
        obtain ⟨r, e⟩ := standardizeAddr_defined env wf hb hr l phrases
        simp only [standardizeAddr, hp, e] at h
        cases h
      · rintro ⟨_, l', ts', e, h4, h5⟩
        cases e
        unfold TokensOf at h4
        rw [h1] at h4
        cases h4
        simp only [standardizeAddr, h3.2 h5, standardizeAddrWith]

/-- Fewer than 32 blanks in the text read are enough for it to be defined. -/
theorem C97_few_blanks (env : Env F D) (h0 : env.fo.le0 env.fo.zero = true) (address grammar lexicon locale filter : Str)
    (h : ∀ l, loadLexicon env lexicon = .ok l →
      blanksIn (prepare env.icu l (env.icu.upper locale (env.icu.norm address))) < 32) :
    ∃ r, stdStandardize env address grammar lexicon locale filter = some r := by
  cases e : stdStandardize env address grammar lexicon locale filter with
  | some r => exact ⟨r, rfl⟩
  | none =>
    obtain ⟨_, l, ts, hl, ht, h32⟩ := (C97_standardize env h0 address grammar lexicon locale filter).1 e
    obtain ⟨ts', h1, hb⟩ := C86_bound env.icu env.u l (lexRe env l) (InType.asType filter)
      (env.icu.upper locale (env.icu.norm address))
    unfold TokensOf at ht
    rw [ht] at h1
    cases h1
    have hlt := h l hl
    unfold prepare at hlt
    have : multiWord ts = (spaced ts).length := rfl
    omega

/-- The token lists of an address: `2^k` of them for `k` tokens with a blank, and the number of tokens in all of them
together. -/
theorem C97_counts (env : Env F D) (l : Lexicon) (locale filter address : Str) (ts : List Token)
    (ht : TokensOf env l locale filter address ts) (hk : (spaced ts).length < 32) :
    ∃ phrases, phrasesOf env l locale filter address = .ok phrases ∧ phrases.length = 2 ^ (spaced ts).length ∧
      2 * phrases.flatten.length = twiceRows ts := by
  obtain ⟨choices, h1, h2, _, h3, _⟩ := C46_alternatives env l locale filter address ts ht hk
  obtain ⟨c1, c2⟩ := rows_count (wordToken env.u l) ts choices h1 h2
  exact ⟨_, h3, by rw [List.length_map, c2], c1⟩

theorem lists_le_rows (ts : List Token) (n : Nat) (hn : 2 * n = twiceRows ts) (h : (spaced ts).length ≠ 0) :
    2 ^ (spaced ts).length ≤ n := by
  have hw : ∀ s : Str, ' ' ∈ s → 1 ≤ (wordsOf s).length := by
    intro s hs
    unfold wordsOf
    split
    · next e => exact absurd e (splitOn_ne_nil ' ' s)
    · simp
    · simp
  have hsum : ∀ us : List Token, (∀ t ∈ us, ' ' ∈ t.text) → us.length ≤ (us.map (fun t => (wordsOf t.text).length)).sum := by
    intro us
    induction us with
    | nil => intro _; simp
    | cons t us ih =>
      intro hu
      have := ih (fun x hx => hu x (List.mem_cons_of_mem _ hx))
      have := hw t.text (hu t (List.mem_cons_self ..))
      simp only [List.length_cons, List.map_cons, List.sum_cons]
      omega
  have h1 := hsum (spaced ts) (by
    intro t ht
    simpa [spaced] using (List.mem_filter.1 ht).2)
  unfold twiceRows spacedWords at hn
  have h2 : 2 ^ (spaced ts).length * 2 ≤ 2 * n := by
    rw [hn]
    exact Nat.mul_le_mul_left _ (by omega)
  omega

/-- Parsing is undefined exactly if the lexicon can be loaded and either 32 or more tokens have a blank in their text, or
there are `2^31` rows or more and memory for them is granted. -/
theorem C97_parse (env : Env F D) (address lexicon locale filter : Str) :
    stdParseAddress env address lexicon locale filter = none ↔
      ∃ l ts, loadLexicon env lexicon = .ok l ∧ TokensOf env l locale filter address ts ∧
        (32 ≤ (spaced ts).length ∨ ∃ n, 2 * n = twiceRows ts ∧ 2 ^ 31 ≤ n ∧ env.alloc n = true) := by
  unfold stdParseAddress
  cases hl : loadLexicon env lexicon with
  | undefined => exact absurd hl (loadLexicon_defined env lexicon)
  | throws m => simp
  | ok l =>
    obtain ⟨ts, h1, _, h3⟩ := C86_defined_iff env l locale filter address
    have hts : TokensOf env l locale filter address ts := h1
    have huniq : ∀ ts', TokensOf env l locale filter address ts' → ts' = ts := by
      intro ts' h
      unfold TokensOf at h
      rw [h1] at h
      cases h
      rfl
    by_cases hk : (spaced ts).length < 32
    · obtain ⟨phrases, hp, hlen, hrows⟩ := C97_counts env l locale filter address ts hts hk
      have hc : parseCount 0 phrases = phrases.flatten.length := by rw [parseCount_eq]; omega
      simp only [parseAddr, hp, parseAddrWith, hc]
      constructor
      · intro h
        refine ⟨l, ts, rfl, hts, Or.inr ⟨phrases.flatten.length, hrows, ?_⟩⟩
        cases ha : env.alloc phrases.flatten.length with
        | false => rw [ha, if_pos (by simp)] at h; cases h
        | true =>
          simp only [ha, not_true_eq_false, if_false] at h
          split at h
          · next hc =>
            refine ⟨?_, rfl⟩
            rcases hc with hc | hc
            · exact hc
            · by_cases hz : (spaced ts).length = 0
              · rw [hlen, hz] at hc
                omega
              · have := lists_le_rows ts _ hrows hz
                omega
          · cases h
      · rintro ⟨l', ts', e, h4, h5⟩
        cases e
        cases huniq ts' h4
        rcases h5 with h5 | ⟨n, e, h6, h7⟩
        · omega
        · have : n = phrases.flatten.length := by omega
          rw [← this]
          simp only [h7, not_true_eq_false, if_false]
          rw [if_pos (Or.inl h6)]
    · have h32 : 32 ≤ (spaced ts).length := by omega
      simp only [parseAddr, h3.2 h32, parseAddrWith, true_iff]
      exact ⟨l, ts, rfl, hts, Or.inl h32⟩

/-- Otherwise, memory granted, there are that many rows. -/
theorem C97_rows (env : Env F D) (address lexicon locale filter : Str) (l : Lexicon) (hl : loadLexicon env lexicon = .ok l)
    (ts : List Token) (ht : TokensOf env l locale filter address ts) (hk : (spaced ts).length < 32)
    (n : Nat) (hn : 2 * n = twiceRows ts) (ha : env.alloc n = true) (hlt : n < 2 ^ 31) :
    ∃ rows, stdParseAddress env address lexicon locale filter = some ⟨some rows, none⟩ ∧ rows.length = n := by
  obtain ⟨phrases, hp, hlen, hrows⟩ := C97_counts env l locale filter address ts ht hk
  have e : n = phrases.flatten.length := by omega
  have hl2 : phrases.length < 2 ^ 31 := by
    by_cases hz : (spaced ts).length = 0
    · rw [hlen, hz]; decide
    · have := lists_le_rows ts n hn hz
      omega
  rw [e] at ha hlt
  obtain ⟨rows, h1, _, h2, _⟩ := C46_rows env phrases ha hlt hl2
  refine ⟨rows, ?_, by rw [h2, e]⟩
  simp only [stdParseAddress, hl, parseAddr, hp, h1]

/-- Matching is undefined exactly if both texts can be loaded and either 32 or more tokens have a blank in their text, or
one of the matches has the score NaN while two others differ in score, or there are `2^31` matches or more and memory for
them is granted. -/
theorem C97_match (env : Env F D) (h0 : env.fo.le0 env.fo.zero = true) (nan : D → Prop) (laws : NanLaws env.dops nan)
    (hsort : SortContract env.sort) (address grammar lexicon locale filter : Str) :
    stdMatchAddress env address grammar lexicon locale filter = none ↔
      ∃ g l ts, loadGrammar env grammar = .ok g ∧ loadLexicon env lexicon = .ok l ∧
        TokensOf env l locale filter address ts ∧
        (32 ≤ (spaced ts).length ∨
          ∃ phrases rows, phrasesOf env l locale filter address = .ok phrases ∧
            searchAndReclassAll g env.dops env.widen phrases = .ok rows ∧
            ((∃ a ∈ rows, ∃ b ∈ rows, ∃ c ∈ rows, nan b.score ∧ env.dops.lt a.score c.score = true) ∨
              2 ^ 31 ≤ rows.length ∧ env.alloc rows.length = true)) := by
  unfold stdMatchAddress
  cases hg : loadGrammar env grammar with
  | undefined => exact absurd hg (loadGrammar_defined env grammar)
  | throws m => simp
  | ok g =>
    cases hl : loadLexicon env lexicon with
    | undefined => exact absurd hl (loadLexicon_defined env lexicon)
    | throws m => simp
    | ok l =>
      obtain ⟨ts, h1, h2, h3⟩ := C86_defined_iff env l locale filter address
      obtain ⟨wf, hb, hr⟩ := loadGrammar_wf env h0 hg
      have hts : TokensOf env l locale filter address ts := h1
      by_cases hk : (spaced ts).length < 32
      · obtain ⟨phrases, hp⟩ := h2.2 hk
        obtain ⟨_, rows, _, hrows, _⟩ := C43_all_rows env.dops env.widen wf hb hr phrases
        simp only [matchAddr, hp, matchAddrWith, hrows]
        constructor
        · intro h
          refine ⟨g, l, ts, rfl, rfl, hts, Or.inr ⟨phrases, rows, hp, hrows, ?_⟩⟩
          cases hsw : strictWeakOn (sortByScoresDesc env.dops) rows with
          | false => exact Or.inl ((strictWeak_nan env.dops nan laws rows).1 hsw)
          | true =>
            obtain ⟨s1, s2, s3⟩ := (strictWeakOn_iff _ _).1 hsw
            obtain ⟨hperm, _⟩ := hsort (sortByScoresDesc env.dops) rows s1 s2 s3
            rw [hsw, if_pos rfl, hperm.length_eq] at h
            cases ha : env.alloc rows.length with
            | false => simp [ha] at h
            | true =>
              simp only [ha, not_true_eq_false, if_false] at h
              split at h
              · next hc => exact Or.inr ⟨hc, rfl⟩
              · cases h
        · rintro ⟨g', l', ts', e1, e2, h4, h5⟩
          cases e1
          cases e2
          unfold TokensOf at h4
          rw [h1] at h4
          cases h4
          rcases h5 with h5 | ⟨phrases', rows', e3, e4, h5⟩
          · omega
          · rw [hp] at e3
            cases e3
            rw [hrows] at e4
            cases e4
            cases hsw : strictWeakOn (sortByScoresDesc env.dops) rows with
            | false => rfl
            | true =>
              rcases h5 with h5 | ⟨h5, h6⟩
              · rw [(strictWeak_nan env.dops nan laws rows).2 h5] at hsw
                cases hsw
              · obtain ⟨s1, s2, s3⟩ := (strictWeakOn_iff _ _).1 hsw
                obtain ⟨hperm, _⟩ := hsort (sortByScoresDesc env.dops) rows s1 s2 s3
                rw [if_pos rfl, hperm.length_eq]
                simp only [h6, not_true_eq_false, if_false]
                rw [if_pos h5]
      · have h32 : 32 ≤ (spaced ts).length := by omega
        simp only [matchAddr, h3.2 h32, matchAddrWith, true_iff]
        exact ⟨g, l, ts, rfl, rfl, hts, Or.inl h32⟩

theorem tokensIs {env : Env F D} {l : Lexicon} {locale filter address : Str} {p : List Token → Bool}
    (h : (getTokens env.icu env.u l (lexRe env l) (InType.asType filter) (env.icu.upper locale (env.icu.norm address))).any p = true) :
    ∃ ts, TokensOf env l locale filter address ts ∧ p ts = true := by
  unfold TokensOf
  cases e : getTokens env.icu env.u l (lexRe env l) (InType.asType filter) (env.icu.upper locale (env.icu.norm address)) with
  | none => rw [e] at h; cases h
  | some ts => rw [e] at h; exact ⟨ts, rfl, h⟩

set_option maxRecDepth 100000 in
/-- An address with 32 blanks that are not filtered can be neither standardized nor parsed; one with 26 blanks can be
standardized, and its rows are already too many to be numbered. -/
theorem C97_long :
    stdStandardize exEnv (manyWords 32) addrText townText c!"en" [] = none ∧
    stdParseAddress exEnv (manyWords 32) townText c!"en" [] = none ∧
    (∃ r, stdStandardize exEnv (manyWords 26) addrText townText c!"en" [] = some r) ∧
    stdParseAddress exEnv (manyWords 26) townText c!"en" [] = none := by
  obtain ⟨g, hg, _⟩ := of_outcomeIs (o := loadGrammar exEnv addrText) (p := fun _ => true) (by decide +kernel)
  obtain ⟨l, hl, hx⟩ := of_outcomeIs (o := loadLexicon exEnv townText) (p := fun l =>
    (getTokens exEnv.icu exEnv.u l (lexRe exEnv l) (InType.asType []) (exEnv.icu.upper c!"en" (exEnv.icu.norm (manyWords 32)))).any
      (fun ts => decide (32 ≤ (spaced ts).length)) &&
    (getTokens exEnv.icu exEnv.u l (lexRe exEnv l) (InType.asType []) (exEnv.icu.upper c!"en" (exEnv.icu.norm (manyWords 26)))).any
      (fun ts => decide ((spaced ts).length = 26 ∧ twiceRows ts = 2 ^ 26 * 130))) (by decide +kernel)
  rw [Bool.and_eq_true] at hx
  obtain ⟨ts, ht, h1⟩ := tokensIs hx.1
  obtain ⟨us, hu, h2⟩ := tokensIs hx.2
  rw [decide_eq_true_eq] at h1 h2
  refine ⟨(C97_standardize exEnv (by decide) ..).2 ⟨⟨g, hg⟩, l, ts, hl, ht, h1⟩, (C97_parse ..).2 ⟨l, ts, hl, ht, Or.inl h1⟩, ?_,
    (C97_parse ..).2 ⟨l, us, hl, hu, Or.inr ⟨2 ^ 25 * 130, by omega, by decide, rfl⟩⟩⟩
  cases e : stdStandardize exEnv (manyWords 26) addrText townText c!"en" [] with
  | some r => exact ⟨r, rfl⟩
  | none =>
    obtain ⟨_, l', ts', hl', ht', h32⟩ := (C97_standardize exEnv (by decide) ..).1 e
    rw [hl] at hl'
    cases hl'
    unfold TokensOf at hu ht'
    rw [hu] at ht'
    cases ht'
    omega

/-- The hypotheses of C97: an address with a phrase of two words, seven rows in two lists. -/
example : exEnv.fo.le0 exEnv.fo.zero = true ∧ SortContract exEnv.sort ∧ exEnv.alloc 7 = true ∧
    ∃ l ts, loadLexicon exEnv townText = .ok l ∧ TokensOf exEnv l c!"en" c!"SPACE" c!"12 new york str" ts ∧
      (spaced ts).length = 1 ∧ twiceRows ts = 2 * 7 ∧
      blanksIn (prepare exEnv.icu l (exEnv.icu.upper c!"en" (exEnv.icu.norm c!"12 new york str"))) = 3 := by
  obtain ⟨l, hl, hx⟩ := of_outcomeIs (o := loadLexicon exEnv townText) (p := fun l =>
    (getTokens exEnv.icu exEnv.u l (lexRe exEnv l) (InType.asType c!"SPACE")
      (exEnv.icu.upper c!"en" (exEnv.icu.norm c!"12 new york str"))).any
      (fun ts => decide ((spaced ts).length = 1 ∧ twiceRows ts = 2 * 7)) &&
    decide (blanksIn (prepare exEnv.icu l (exEnv.icu.upper c!"en" (exEnv.icu.norm c!"12 new york str"))) = 3)) (by decide +kernel)
  rw [Bool.and_eq_true] at hx
  obtain ⟨ts, ht, h1⟩ := tokensIs hx.1
  rw [decide_eq_true_eq] at h1
  exact ⟨by decide, insertionSort_contract, rfl, l, ts, hl, ht, h1.1, h1.2, by simpa using hx.2⟩

/-- Three matches, one of them NaN: the case of C97 in which sorting is undefined. -/
example : nanEnv.fo.le0 nanEnv.fo.zero = true ∧ NanLaws nanEnv.dops (· = none) ∧
    stdMatchAddress nanEnv c!"12" nanText townText c!"en" [] = none := ⟨by decide, nanOps_laws, by decide +kernel⟩

end AS.Props
