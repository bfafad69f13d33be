import Verif.Spec.Filter
import Verif.Props.AltBound
import Verif.Props.Agree
import Verif.Props.Prune
/-
Property C89: what a filter does.
-/
namespace AS.Props
open AS AS.Wrapper AS.Tokenizer
variable {F D : Type}

theorem mem_asType (filter : Str) (c : InType) : c ∈ InType.asType filter ↔ FilterNames filter c := by
  obtain ⟨p, ps, hc, rfl⟩ := exists_parts ',' filter
  obtain ⟨S, h1, _, h3⟩ := C02_read_class_list p ps hc
  unfold InType.asType FilterNames
  rw [h1, splitOn_join ',' ps p hc]
  exact h3 c

instance (filter : Str) (c : InType) : Decidable (FilterNames filter c) := decidable_of_iff _ (mem_asType filter c)

theorem tokens_filter (icu : Icu) (u : UTables) (l : Lexicon) (x : LexRe) (f : List InType) (str : Str) :
    getTokens icu u l x f str = (getTokens icu u l x [] str).map (fun all => all.filter (fun t => ∀ c ∈ t.inclass, c ∉ f)) := by
  unfold getTokens
  simp only
  split
  · rfl
  · rw [Option.map_some, C08_keeps, C08_keeps, List.filter_filter]
    simp

/-- There are tokens of the address, the same for every filter, such that the first token list consists of those that have
none of the classes the filter names. Whatever else there is in the other lists consists of words of phrases in the first. -/
theorem C89_lists (env : Env F D) (l : Lexicon) (locale address : Str) :
    ∃ all : List Token, ∀ filter phrases, phrasesOf env l locale filter address = .ok phrases →
      ∃ alts, phrases = all.filter (fun t => ∀ c ∈ t.inclass, ¬ FilterNames filter c) :: alts ∧
        ∀ alt ∈ alts, ∀ t ∈ alt, (t ∈ all ∧ ∀ c ∈ t.inclass, ¬ FilterNames filter c) ∨
          ∃ t0 ∈ all, (∀ c ∈ t0.inclass, ¬ FilterNames filter c) ∧ ' ' ∈ t0.text ∧ ∃ w ∈ wordsOf t0.text, t = wordToken env.u l w := by
  obtain ⟨all, h, _⟩ := C86_bound env.icu env.u l (lexRe env l) [] (env.icu.upper locale (env.icu.norm address))
  refine ⟨all, fun filter phrases hp => ?_⟩
  have hf := tokens_filter env.icu env.u l (lexRe env l) (InType.asType filter) (env.icu.upper locale (env.icu.norm address))
  rw [h, Option.map_some] at hf
  have he : all.filter (fun t => ∀ c ∈ t.inclass, c ∉ InType.asType filter) =
      all.filter (fun t => ∀ c ∈ t.inclass, ¬ FilterNames filter c) := by
    simp only [mem_asType]
  rw [he] at hf
  unfold phrasesOf at hp
  simp only [hf] at hp
  split at hp
  · cases hp
  · next alts ha =>
    cases hp
    refine ⟨alts, rfl, ?_⟩
    intro alt hm t ht
    unfold getAltTokens at ha
    simp only at ha
    split at ha
    · cases ha; cases hm
    · split at ha
      · cases ha
      · obtain ⟨i, _, e⟩ := mapM_some ha alt hm
        have key : ∀ (ts : List Token) (n : Nat) (r : List Token),
            altOne env.u l i n (ts.map (fun t => (t, splitBlanks false [] t.text))) = some r → ∀ t ∈ r, t ∈ ts ∨
              ∃ t0 ∈ ts, ' ' ∈ t0.text ∧ ∃ w ∈ wordsOf t0.text, t = wordToken env.u l w := by
          intro ts
          induction ts with
          | nil =>
            intro n r h
            simp only [List.map_nil, altOne, Option.some.injEq] at h
            subst h; intro t ht; cases ht
          | cons a ts ih =>
            intro n r h
            have later : ∀ {m r'}, altOne env.u l i m (ts.map (fun t => (t, splitBlanks false [] t.text))) = some r' → ∀ t ∈ r',
                t ∈ a :: ts ∨ ∃ t0 ∈ a :: ts, ' ' ∈ t0.text ∧ ∃ w ∈ wordsOf t0.text, t = wordToken env.u l w := by
              intro m r' h t ht
              rcases ih m r' h t ht with h | ⟨t0, h, k⟩
              · exact Or.inl (List.mem_cons_of_mem _ h)
              · exact Or.inr ⟨t0, List.mem_cons_of_mem _ h, k⟩
            have keep : ∀ m, (altOne env.u l i m (ts.map (fun t => (t, splitBlanks false [] t.text)))).map (a :: ·) = some r →
                ∀ t ∈ r, t ∈ a :: ts ∨ ∃ t0 ∈ a :: ts, ' ' ∈ t0.text ∧ ∃ w ∈ wordsOf t0.text, t = wordToken env.u l w := by
              intro m h
              obtain ⟨r', hr', rfl⟩ := Option.map_eq_some_iff.1 h
              intro t ht
              rcases List.mem_cons.1 ht with rfl | ht
              · exact Or.inl List.mem_cons_self
              · exact later hr' t ht
            rw [List.map_cons, altOne] at h
            split at h
            · exact keep _ h
            · next hone =>
              split at h
              · cases h
              · split at h
                · exact keep _ h
                · obtain ⟨r', hr', rfl⟩ := Option.map_eq_some_iff.1 h
                  intro t ht
                  rcases List.mem_append.1 ht with ht | ht
                  · obtain ⟨w, hw, rfl⟩ := List.mem_map.1 ht
                    rw [splitBlanks_eq] at hw hone
                    refine Or.inr ⟨a, List.mem_cons_self, ?_, w, hw, rfl⟩
                    exact Decidable.not_not.1 (fun hb => hone ((wordsOf_length _).2 hb))
                  · exact later hr' t ht
        rcases key _ 0 alt e t ht with h | ⟨t0, h, k⟩
        · have := List.mem_filter.1 h
          exact Or.inl ⟨this.1, by simpa using this.2⟩
        · have := List.mem_filter.1 h
          exact Or.inr ⟨t0, this.1, by simpa using this.2, k⟩

/-- The three functions of the interface depend on the filter through the token lists only. -/
theorem same_of_phrases {env : Env F D} {lexicon locale filter filter' address : Str}
    (h : ∀ l, loadLexicon env lexicon = .ok l →
      phrasesOf env l locale filter address = phrasesOf env l locale filter' address) (grammar : Str) :
    stdStandardize env address grammar lexicon locale filter = stdStandardize env address grammar lexicon locale filter' ∧
    stdParseAddress env address lexicon locale filter = stdParseAddress env address lexicon locale filter' ∧
    stdMatchAddress env address grammar lexicon locale filter = stdMatchAddress env address grammar lexicon locale filter' := by
  unfold stdStandardize stdParseAddress stdMatchAddress
  cases hl : loadLexicon env lexicon with
  | undefined => exact ⟨rfl, rfl, rfl⟩
  | throws m => exact ⟨rfl, rfl, rfl⟩
  | ok l =>
    simp only [standardizeAddr, parseAddr, matchAddr, h l hl, and_self]

/-- Two filters that name the same classes have the same effect. -/
theorem C89_same (env : Env F D) (address grammar lexicon locale filter filter' : Str)
    (h : ∀ c, FilterNames filter c ↔ FilterNames filter' c) :
    stdStandardize env address grammar lexicon locale filter = stdStandardize env address grammar lexicon locale filter' ∧
    stdParseAddress env address lexicon locale filter = stdParseAddress env address lexicon locale filter' ∧
    stdMatchAddress env address grammar lexicon locale filter = stdMatchAddress env address grammar lexicon locale filter' := by
  refine same_of_phrases (fun l _ => ?_) grammar
  obtain ⟨S, h1, h2⟩ := C02_read_total filter
  obtain ⟨T, g1, g2⟩ := C02_read_total filter'
  have : S = T := by
    refine h2.ext g2 (fun c => ?_)
    have a := mem_asType filter c
    have b := mem_asType filter' c
    unfold InType.asType at a b
    rw [h1] at a
    rw [g1] at b
    exact a.trans ((h c).trans b.symm)
  unfold phrasesOf InType.asType
  rw [h1, g1, this]

/-- So do two filters that differ only in classes no token can have: neither given by shape nor listed in the lexicon. -/
theorem C89_possible (env : Env F D) (hk : IcuKeeps env.icu '\t') (address grammar lexicon locale filter filter' : Str)
    (hn : '\t' ∉ address) (l : Lexicon) (hl : loadLexicon env lexicon = .ok l)
    (h : ∀ c, c ∈ shapeClasses ∨ HasClass l c → (FilterNames filter c ↔ FilterNames filter' c)) :
    stdStandardize env address grammar lexicon locale filter = stdStandardize env address grammar lexicon locale filter' ∧
    stdParseAddress env address lexicon locale filter = stdParseAddress env address lexicon locale filter' ∧
    stdMatchAddress env address grammar lexicon locale filter = stdMatchAddress env address grammar lexicon locale filter' := by
  refine same_of_phrases (fun l' hl' => ?_) grammar
  rw [hl] at hl'
  cases hl'
  have hprep : AllOf (· ≠ '\t') (prepare env.icu l (env.icu.upper locale (env.icu.norm address))) := by
    rintro _ hc rfl
    exact hk.upper _ _ (hk.norm _ (hk.upper _ _ (hk.norm _ hn))) hc
  have key : getTokens env.icu env.u l (lexRe env l) (InType.asType filter) (env.icu.upper locale (env.icu.norm address)) =
      getTokens env.icu env.u l (lexRe env l) (InType.asType filter') (env.icu.upper locale (env.icu.norm address)) := by
    rw [tokens_filter, tokens_filter (f := InType.asType filter')]
    cases hg : getTokens env.icu env.u l (lexRe env l) [] (env.icu.upper locale (env.icu.norm address)) with
    | none => rfl
    | some all =>
      rw [Option.map_some, Option.map_some]
      congr 1
      apply List.filter_congr
      intro t ht
      obtain ⟨t0, d, h0, hd, rfl⟩ := getTokens_fc hprep hg t ht
      apply decide_eq_decide.2
      have hc : ∀ c ∈ (l.classify env.u t0 d).inclass, c ∈ shapeClasses ∨ HasClass l c := by
        intro c hc
        by_cases he : ∃ c, c ∈ t0.inclass ∨ ∃ e ∈ l.find t0.text, c ∈ e.type
        · obtain ⟨k1, _⟩ := C13_in_lexicon env.u l t0 d he
          rw [k1 c, h0] at hc
          rcases hc with hc | ⟨e, he, hc⟩
          · cases hc
          · exact Or.inr ⟨_, e, he, hc⟩
        · refine Or.inl (shape_listed hd (((C13_by_shape env.u l t0 d h0 ?_).1 c).1 hc))
          intro e hm
          cases htype : e.type with
          | nil => rfl
          | cons c cs => exact absurd ⟨c, Or.inr ⟨e, hm, by rw [htype]; exact List.mem_cons_self⟩⟩ he
      constructor
      · intro hall c hm hf
        exact hall c hm ((mem_asType _ _).2 ((h c (hc c hm)).2 ((mem_asType _ _).1 hf)))
      · intro hall c hm hf
        exact hall c hm ((mem_asType _ _).2 ((h c (hc c hm)).1 ((mem_asType _ _).1 hf)))
  unfold phrasesOf
  simp only [key]

theorem body_good {icu : Icu} {loc : Str} {ls : List Str} {es : List LexEntry} (h : BodyMeans icu loc ls es) :
    ∀ e ∈ es, InType.BADTOKEN ∉ e.type := by
  induction h with
  | nil => intro e he; cases he
  | blank _ ih => exact ih
  | entry _ h2 _ ih =>
    intro e he
    rcases List.mem_cons.1 he with rfl | he
    · exact h2
    · exact ih e he

/-- Names in a filter that are no class names, such as misspelt ones, are ignored, without a message, with every lexicon that
is given as text: only the classes named besides count. -/
theorem C89_unknown (env : Env F D) (hk : IcuKeeps env.icu '\t') (address grammar lexicon locale filter filter' : Str)
    (hn : '\t' ∉ address) (ha : env.archive lexicon = .notArchive)
    (h : ∀ c, c ≠ .BADTOKEN → (FilterNames filter c ↔ FilterNames filter' c)) :
    stdStandardize env address grammar lexicon locale filter = stdStandardize env address grammar lexicon locale filter' ∧
    stdParseAddress env address lexicon locale filter = stdParseAddress env address lexicon locale filter' ∧
    stdMatchAddress env address grammar lexicon locale filter = stdMatchAddress env address grammar lexicon locale filter' := by
  cases hl : loadLexicon env lexicon with
  | undefined =>
    refine same_of_phrases (fun l h => ?_) grammar
    rw [hl] at h; cases h
  | throws m =>
    refine same_of_phrases (fun l h => ?_) grammar
    rw [hl] at h; cases h
  | ok l =>
    refine C89_possible env hk address grammar lexicon locale filter filter' hn l hl (fun c hc => h c ?_)
    rintro rfl
    rcases hc with hc | ⟨w, e, he, hc⟩
    · revert hc; decide
    · have hi : Lexicon.initialize env.icu c!"query-lex" lexicon = .ok l := by
        unfold loadLexicon at hl
        rw [ha] at hl
        simp only at hl
        split at hl
        · next l' e => cases hl; exact e
        · cases hl
      obtain ⟨hd, es, ht⟩ := C18_only env.icu c!"query-lex" lexicon l hi
      obtain ⟨l', h1, _, H, _⟩ := loadLexicon_text ha ht
      rw [hl] at h1
      cases h1
      obtain ⟨_, _, _, _, _, _, _, _, _, hb⟩ := ht
      rw [H.find] at he
      exact body_good hb e ((mem_heldIns es e).1 (List.mem_filter.1 he).1) hc

/-- The filter is not applied to the words of a phrase: there are lists with tokens of a class it names. -/
theorem C89_words_kept :
    (stdParseAddress exEnv c!"abc new york" townText c!"en" c!"SPACE,WORD").map
      (fun r => r.value.map (·.map (fun row => (row.pat, row.word, row.inclass)))) =
    some (some [(0, c!"NEW YORK", c!"CITY"), (1, c!"NEW", c!"WORD"), (1, c!"YORK", c!"WORD")]) := by decide +kernel

/-- The hypotheses of C89: filters that name the same classes, and a misspelt name. -/
example : (∀ c, FilterNames c!"PUNCT, SPACE" c ↔ FilterNames c!"SPACE,PUNCT,,SPACE " c) ∧
    (∀ c, c ≠ .BADTOKEN → (FilterNames c!"PUNCT,SPACES" c ↔ FilterNames c!"PUNCT" c)) ∧
    ¬ (∀ c, FilterNames c!"PUNCT,SPACES" c ↔ FilterNames c!"PUNCT" c) := by
  simp only [← mem_asType]
  have h1 : InType.asType c!"PUNCT, SPACE" = InType.asType c!"SPACE,PUNCT,,SPACE " := by decide +kernel
  have h2 : InType.asType c!"PUNCT,SPACES" = [.PUNCT, .BADTOKEN] := by decide +kernel
  have h3 : InType.asType c!"PUNCT" = [.PUNCT] := by decide +kernel
  refine ⟨fun c => by rw [h1], fun c hc => by rw [h2, h3]; simp [hc], fun h => ?_⟩
  rw [h2, h3] at h
  have := (h .BADTOKEN).1 (by decide)
  revert this; decide

/-- And with it: the blanks stay when the name of their class is misspelt. -/
example : (stdParseAddress exEnv c!"abc def" townText c!"en" c!"PUNCT,SPACES") =
      stdParseAddress exEnv c!"abc def" townText c!"en" c!"PUNCT" ∧
    exEnv.archive townText = .notArchive ∧ IcuKeeps exEnv.icu '\t' :=
  ⟨by decide +kernel, rfl, asciiIcu_keeps _ (toUpper_low _ (by decide))⟩

end AS.Props
