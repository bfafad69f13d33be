import Verif.Lemmas.Unknown
import Verif.Props.Joint
/-
C100: words the lexicon does not know.
-/
namespace AS.Props
open AS AS.Tokenizer AS.Wrapper
variable {F D : Type}

/-! ### The token of an unknown word -/

theorem byShape_rest (u : UTables) (t : Token) : (Lexicon.byShape u t).stdtext = t.stdtext ∧
    (Lexicon.byShape u t).outclass = t.outclass ∧ (Lexicon.byShape u t).attached = t.attached := by
  refine ⟨?_, ?_, ?_⟩
  · simp only [Lexicon.byShape, Token.addClass, apply_ite Token.stdtext, ite_self]
  · simp only [Lexicon.byShape, Token.addClass, apply_ite Token.outclass, ite_self]
  · simp only [Lexicon.byShape, Token.addClass, apply_ite Token.attached, ite_self]

theorem unknown_blank {u : UTables} {es : List LexEntry} {v : Str} (h : Unknown u es v) : ∀ c ∈ v, c ≠ ' ' ∧ c ≠ '\t' := by
  intro c hc
  have := (h.plain c hc).1
  refine ⟨?_, ?_⟩ <;> rintro rfl <;> exact this (Or.inr (Or.inr (Or.inl (u.cspace_space _ (by decide)))))

theorem unknown_find {u : UTables} {l : Lexicon} {es : List LexEntry} (H : Lexicon.Holds l (held (es.map LexOp.ins))) {v : Str}
    (h : Unknown u es v) : l.find v = [] := by
  rw [H.find, List.filter_eq_nil_iff]
  intro e he
  simpa using (h.unlisted e ((mem_heldIns es e).1 he)).1

/-- The token of an unknown word has the classes of its shape. -/
theorem wordToken_unknown {u : UTables} {l : Lexicon} {es : List LexEntry} (H : Lexicon.Holds l (held (es.map LexOp.ins))) {v : Str}
    (h : Unknown u es v) : ∃ cs, IsSet InType.code cs ∧ cs ≠ [] ∧ (∀ c, c ∈ cs ↔ FirstShape (shapes u .WORD) v c) ∧
      wordToken u l v = { text := v, inclass := cs } := by
  have hf := unknown_find H h
  have h0 : ∀ e ∈ l.find ({ text := v } : Token).text, e.type = [] := by rw [hf]; simp
  have hs := C13_by_shape u l { text := v } .WORD rfl h0
  have ht := C13_total u l { text := v } .WORD
  have hx : (l.classify u { text := v } .WORD).text = v := by
    rcases C13_text u l { text := v } .WORD with e | ⟨_, _, _, a, b, _, e, _⟩
    · exact e
    · exact absurd rfl (h.plain ',' (by rw [show v = a ++ [','] ++ b from e]; simp)).2.2.1
  have hr : (l.classify u { text := v } .WORD).stdtext = [] ∧ (l.classify u { text := v } .WORD).outclass = ({ } : Token).outclass ∧
      (l.classify u { text := v } .WORD).attached = [] := by
    have := byShape_rest u ({ text := v, inlex := false } : Token)
    rw [classify_out u l _ _ rfl h0]
    split
    · exact this
    · exact this
  refine ⟨_, ht.2 List.Pairwise.nil, ht.1, hs.1, ?_⟩
  unfold wordToken
  rw [ofText_plain fun hc => (unknown_blank h _ hc).2 rfl]
  have h2 := hs.2
  obtain ⟨r1, r2, r3⟩ := hr
  generalize l.classify u { text := v } .WORD = t at *
  obtain ⟨a, b, c, d, e, f⟩ := t
  simp only at hx r1 r2 r3 h2
  subst hx r1 r2 r3 h2
  rfl

theorem attached_of {l : Lexicon} {es : List LexEntry} (H : Lexicon.Holds l (held (es.map LexOp.ins))) (q : LexEntry → Bool) (w : Str) :
    w ∈ (l.lex.filter (fun e => e.2.any q)).map (·.1) ↔ w ∈ (es.filter q).map (·.word) := by
  rw [← mem_attachedWords, H.attached_iff]
  simp only [mem_heldIns, List.mem_map, List.mem_filter]
  exact ⟨fun ⟨e, h1, h2, h3⟩ => ⟨e, ⟨h1, h3⟩, h2⟩, fun ⟨e, ⟨h1, h3⟩, h2⟩ => ⟨e, h1, h2, h3⟩⟩

theorem roundTokens_unknown {u : UTables} {l : Lexicon} {x : LexRe} {es : List LexEntry} (hpl : PlainLexicon u l) (hx : x.For u l)
    (H : Lexicon.Holds l (held (es.map LexOp.ins))) {v : Str} (h : Unknown u es v) (s : Str) :
    roundTokens u l x ⟨[], [], v, s⟩ = wordToken u l v :: roundTokens u l x ⟨[], [], [], s⟩ := by
  obtain ⟨cs, h1, h2, h3, h4⟩ := wordToken_unknown H h
  have hm : InType.MIXED ∉ (wordToken u l v).inclass := by
    rw [h4]
    exact fun hc => h.whole ((h3 _).1 hc)
  have hn : splitToken u l x (wordToken u l v) = [] := by
    refine (C09_attached u l x _ hpl hx hm).1 ?_ ?_
    · rw [h4]
      rintro ⟨a, b, e, ha, k⟩
      exact h.noPrefix ⟨a, b, e, (attached_of H _ a).1 ha, k⟩
    · rw [h4]
      rintro ⟨a, b, e, ha, k⟩
      exact h.noSuffix ⟨a, b, e, (attached_of H _ b).1 ha, k⟩
  have hi : (wordToken u l v).inlex = false := by rw [h4]
  unfold roundTokens
  simp [h.chars.1, hi, hn]

theorem roundTokens_swapped {u : UTables} {l : Lexicon} {x : LexRe} {es : List LexEntry} (hpl : PlainLexicon u l) (hx : x.For u l)
    (H : Lexicon.Holds l (held (es.map LexOp.ins))) {v w : Str} (h : Interchangeable u es v w) (s : Str) :
    Along (Swapped (NoStandard l v w) v w) (roundTokens u l x ⟨[], [], v, s⟩) (roundTokens u l x ⟨[], [], w, s⟩) := by
  rw [roundTokens_unknown hpl hx H h.left, roundTokens_unknown hpl hx H h.right]
  refine .cons ?_ (along_refl _)
  obtain ⟨cs, h1, h2, h3, h4⟩ := wordToken_unknown (u := u) H h.left
  obtain ⟨ds, k1, k2, k3, k4⟩ := wordToken_unknown (u := u) H h.right
  have : ds = cs := IsSet.ext k1 h1 fun c => by rw [k3, h3, h.shape]
  subst this
  rw [h4, k4]
  refine Or.inr ⟨rfl, rfl, h2, fun c _ => ⟨rfl, fun cs => ?_⟩⟩
  rw [unknown_find H h.left, unknown_find H h.right]
  exact ⟨rfl, rfl⟩

/-- The alternatives of two addresses that differ in an unknown word. -/
theorem phrases_unknown {env : Env F D} (hread : ReadsPatterns env) {text h : Str} {es : List LexEntry}
    (ha : env.archive text = .notArchive) (ht : LexText env.icu text h es)
    (hp : ∀ e ∈ es, ∀ c ∈ e.word, c ∉ unescaped ∧ env.u.canon c = c) (hne : ∃ e ∈ es, e.word ≠ [])
    {address address' locale filter a g v w g' b : Str} (hi : Interchangeable env.u es v w)
    (hv : StandsAlone env.u (es.map (·.word)) a g v g' b) (hw : StandsAlone env.u (es.map (·.word)) a g w g' b)
    (htext : textFor env locale (headerLocale h) address = a ++ (g ++ (v ++ (g' ++ b))))
    (htext' : textFor env locale (headerLocale h) address' = a ++ (g ++ (w ++ (g' ++ b)))) {l : Lexicon}
    (hl : loadLexicon env text = .ok l) :
    (phrasesOf env l locale filter address = .undefined ∧ phrasesOf env l locale filter address' = .undefined) ∨
    ∃ ps ps', phrasesOf env l locale filter address = .ok ps ∧ phrasesOf env l locale filter address' = .ok ps' ∧
      Along (Along (Swapped (NoStandard l v w) v w)) ps ps' := by
  obtain ⟨l', h1, h2, H, C⟩ := loadLexicon_text ha ht
  rw [hl] at h1; cases h1
  have hpl : PlainLexicon env.u l := plain_of H hp
  have hx := lexRe_for hread hpl C
  have hkey := fun w => (words_of H w).symm
  have hne' : ∃ w ∈ lexWords l, w ≠ [] := by
    obtain ⟨e, he, hw⟩ := hne
    exact ⟨e.word, (words_of H _).2 (List.mem_map.2 ⟨e, he, rfl⟩), hw⟩
  unfold textFor at htext htext'
  rw [← h2] at htext htext'
  refine phrases_swapped hpl hx rfl hne' (alone_words hkey hv) (alone_words hkey hw)
    (splits_run hi.left.chars fun c hc => (hi.left.plain c hc).1) (splits_run hi.right.chars fun c hc => (hi.right.plain c hc).1)
    ?_ (roundTokens_swapped hpl hx H hi) htext htext'
  intro c hc
  rcases List.mem_append.1 hc with hc | hc
  · exact (unknown_blank hi.left c hc).1
  · exact (unknown_blank hi.right c hc).1

/-! ## C100 -/

/-- Two addresses that differ in an unknown word have the same list of matches. -/
theorem C100_match (env : Env F D) (hread : ReadsPatterns env) (text h : Str) (es : List LexEntry)
    (ha : env.archive text = .notArchive) (ht : LexText env.icu text h es)
    (hp : ∀ e ∈ es, ∀ c ∈ e.word, c ∉ unescaped ∧ env.u.canon c = c) (hne : ∃ e ∈ es, e.word ≠ [])
    (address address' grammar locale filter a g v w g' b : Str) (hi : Interchangeable env.u es v w)
    (hv : StandsAlone env.u (es.map (·.word)) a g v g' b) (hw : StandsAlone env.u (es.map (·.word)) a g w g' b)
    (htext : textFor env locale (headerLocale h) address = a ++ (g ++ (v ++ (g' ++ b))))
    (htext' : textFor env locale (headerLocale h) address' = a ++ (g ++ (w ++ (g' ++ b)))) :
    stdMatchAddress env address' grammar text locale filter = stdMatchAddress env address grammar text locale filter := by
  unfold stdMatchAddress
  cases loadGrammar env grammar with
  | undefined => rfl
  | throws m => rfl
  | ok G =>
    cases hl : loadLexicon env text with
    | undefined => rfl
    | throws m => rfl
    | ok l =>
      simp only
      unfold matchAddr
      rcases phrases_unknown (filter := filter) hread ha ht hp hne hi hv hw htext htext' hl with ⟨k1, k2⟩ | ⟨ps, ps', k1, k2, k3⟩
      · rw [k1, k2]
      · rw [k1, k2]
        unfold matchAddrWith searchAndReclassAll
        simp only [rowsOfAll_replaced G env.dops env.widen k3]

/-- They are standardized alike: the error, if any, is the same, and otherwise the fields have the same words, except that one
word stands for the other. -/
theorem C100_standardize (env : Env F D) (hread : ReadsPatterns env) (text h : Str) (es : List LexEntry)
    (ha : env.archive text = .notArchive) (ht : LexText env.icu text h es)
    (hp : ∀ e ∈ es, ∀ c ∈ e.word, c ∉ unescaped ∧ env.u.canon c = c) (hne : ∃ e ∈ es, e.word ≠ [])
    (address address' grammar locale filter a g v w g' b : Str) (hi : Interchangeable env.u es v w)
    (hv : StandsAlone env.u (es.map (·.word)) a g v g' b) (hw : StandsAlone env.u (es.map (·.word)) a g w g' b)
    (htext : textFor env locale (headerLocale h) address = a ++ (g ++ (v ++ (g' ++ b))))
    (htext' : textFor env locale (headerLocale h) address' = a ++ (g ++ (w ++ (g' ++ b)))) :
    stdStandardize env address' grammar text locale filter = stdStandardize env address grammar text locale filter ∨
    ∃ s s', stdStandardize env address grammar text locale filter = some ⟨some s, none⟩ ∧
      stdStandardize env address' grammar text locale filter = some ⟨some s', none⟩ ∧ FieldsReplaced v w s s' := by
  unfold stdStandardize
  cases loadGrammar env grammar with
  | undefined => exact Or.inl rfl
  | throws m => exact Or.inl rfl
  | ok G =>
    cases hl : loadLexicon env text with
    | undefined => exact Or.inl rfl
    | throws m => exact Or.inl rfl
    | ok l =>
      simp only
      unfold standardizeAddr
      rcases phrases_unknown (filter := filter) hread ha ht hp hne hi hv hw htext htext' hl with ⟨k1, k2⟩ | ⟨ps, ps', k1, k2, k3⟩
      · rw [k1, k2]; exact Or.inl rfl
      · rw [k1, k2]
        unfold standardizeAddrWith searchAndReclassBestOf
        simp only
        rcases bestPhrases_replaced G env.fo k3 (b := { tokens := [], score := env.fo.ofInt (-1), matched := some [], nrules := env.fo.ofInt (-1) })
          (b' := { tokens := [], score := env.fo.ofInt (-1), matched := some [], nrules := env.fo.ofInt (-1) }) ⟨rfl, .nil⟩ with ⟨q1, q2⟩ | ⟨m, q1, q2⟩ | ⟨r, r', q1, q2, q3, q4⟩
        · rw [q1, q2]; exact Or.inl rfl
        · rw [q1, q2]; exact Or.inl rfl
        · rw [q1, q2]
          simp only
          have e1 : r'.score = r.score := by rw [q3]
          have e2 : r'.matched = r.matched := by rw [q3]
          rw [e1, e2]
          split
          · cases hc : collect l (List.replicate 16 []) r.tokens with
            | none =>
              cases hc' : collect l (List.replicate 16 []) r'.tokens with
              | none => exact Or.inl rfl
              | some v' =>
                exfalso
                obtain ⟨std, hs⟩ := standardize_all_of_collect l _ _ _ hc'
                obtain ⟨std', hs'⟩ := standardize_back q4 hs
                obtain ⟨x, hx, _⟩ := collect_fields l r.tokens std' [] hs'
                rw [hc] at hx; cases hx
            | some x =>
              obtain ⟨std, hs⟩ := standardize_all_of_collect l _ _ _ hc
              obtain ⟨std', hs', hal⟩ := standardize_along q4 hs
              obtain ⟨y, hy, hf⟩ := collect_fields l r.tokens std (r.matched.getD []) hs
              rw [hc] at hy; cases hy
              obtain ⟨y, hy, hf'⟩ := collect_fields l r'.tokens std' (r.matched.getD []) hs'
              rw [hy]
              simp only
              split
              · exact Or.inr ⟨_, _, rfl, rfl, rfl, fun f => ⟨_, _, hal f, hf f, hf' f⟩⟩
              · exact Or.inl rfl
          · exact Or.inl rfl

/-- They are parsed alike: the rows differ in the word only. -/
theorem C100_rows (env : Env F D) (hread : ReadsPatterns env) (text h : Str) (es : List LexEntry)
    (ha : env.archive text = .notArchive) (ht : LexText env.icu text h es)
    (hp : ∀ e ∈ es, ∀ c ∈ e.word, c ∉ unescaped ∧ env.u.canon c = c) (hne : ∃ e ∈ es, e.word ≠ [])
    (address address' locale filter a g v w g' b : Str) (hi : Interchangeable env.u es v w)
    (hv : StandsAlone env.u (es.map (·.word)) a g v g' b) (hw : StandsAlone env.u (es.map (·.word)) a g w g' b)
    (htext : textFor env locale (headerLocale h) address = a ++ (g ++ (v ++ (g' ++ b))))
    (htext' : textFor env locale (headerLocale h) address' = a ++ (g ++ (w ++ (g' ++ b)))) :
    stdParseAddress env address' text locale filter = stdParseAddress env address text locale filter ∨
    ∃ rows rows', stdParseAddress env address text locale filter = some ⟨some rows, none⟩ ∧
      stdParseAddress env address' text locale filter = some ⟨some rows', none⟩ ∧ Along (WordReplaced v w) rows rows' := by
  unfold stdParseAddress
  cases hl : loadLexicon env text with
  | undefined => exact Or.inl rfl
  | throws m => exact Or.inl rfl
  | ok l =>
    simp only
    unfold parseAddr
    rcases phrases_unknown (filter := filter) hread ha ht hp hne hi hv hw htext htext' hl with ⟨k1, k2⟩ | ⟨ps, ps', k1, k2, k3⟩
    · rw [k1, k2]; exact Or.inl rfl
    · rw [k1, k2]
      unfold parseAddrWith
      simp only [parseCount_replaced k3, k3.length]
      split
      · exact Or.inl rfl
      · split
        · exact Or.inl rfl
        · exact Or.inr ⟨_, _, rfl, rfl, parseLoop_replaced k3 0 0⟩

/-! ### Words and numbers -/

theorem shape_letters {u : UTables} {dflt : InType} {v : Str} (h0 : v ≠ []) (hd : ∀ c ∈ v, u.digit c = false)
    (hw : ∀ c ∈ v, u.isWord c = true) (c : InType) : FirstShape (shapes u dflt) v c ↔
      c = .WORD ∨ (c = .DOUBLE ∧ utf8Bytes v = 2) ∨ (c = .SINGLE ∧ utf8Bytes v = 1) := by
  have dg : ∀ {p : Char → Bool} {a b b' : Str}, RunOf u.digit a → v = b ++ a ++ b' → False := by
    intro p a b b' ha e
    obtain ⟨x, hx⟩ := List.exists_mem_of_ne_nil _ ha.1
    have := hd x (by rw [e]; simp [hx])
    rw [ha.2 x hx] at this
    cases this
  have df : ∀ x ∈ v, ¬ Dig u x := by
    intro x hx h
    unfold Dig at h
    rw [u.digit_fold, hd x hx] at h
    cases h
  have g1 : ¬ IsDecimal u v := fun ⟨a, x, b, e, ha, _⟩ => dg (p := u.digit) (b := []) ha (by rw [e, List.append_assoc]; rfl)
  have g2 : ¬ RunOf u.digit v := fun h => dg (p := u.digit) (b := []) (b' := []) h (by simp)
  have g3 : ¬ v = c!"@" := by
    intro e
    have := hw '@' (by rw [e]; simp)
    rw [u.word_at] at this; cases this
  have g4 : ¬ v = c!"/" := by
    intro e
    have := hw '/' (by rw [e]; simp)
    rw [u.word_slash] at this; cases this
  have g5 : ¬ IsFraction u v := fun ⟨a, b, e, ha, _⟩ => dg (p := u.digit) (b := []) ha (by rw [e, List.append_assoc]; rfl)
  have g6 : ¬ IsPostHead u v := by
    rintro ⟨a, b, d, e, _, _, hb, hb', _⟩
    have hb0 : b ≠ [] := by rintro rfl; simp at hb
    obtain ⟨x, hx⟩ := List.exists_mem_of_ne_nil _ hb0
    exact df x (by rw [e]; simp [hx]) (hb' x hx)
  have g7 : ¬ IsPostTail u v := by
    rintro ⟨x, y, z, e, hx, _⟩
    exact df x (by rw [e]; simp) hx
  have g8 : ¬ ∃ c ∈ v, u.digit c = true := by
    rintro ⟨x, hx, h⟩
    rw [hd x hx] at h; cases h
  have g9 : RunOf u.isWord v := ⟨h0, hw⟩
  simp only [shapes, FirstShape, g1, g2, g3, g4, g5, g6, g7, g8, g9, not_false_eq_true, not_true_eq_false, and_false, true_and, false_and,
    false_or, or_false]

theorem shape_digits {u : UTables} {dflt : InType} {v : Str} (h : RunOf u.digit v) (c : InType) : FirstShape (shapes u dflt) v c ↔
      c = .NUMBER ∨ (c = .QUAD ∧ utf8Bytes v = 4) ∨ (c = .QUINT ∧ utf8Bytes v = 5) := by
  have g1 : ¬ IsDecimal u v := by
    rintro ⟨a, x, b, e, _, hx, _⟩
    have := h.2 x (by rw [e]; simp)
    rcases hx with rfl | rfl
    · rw [u.digit_comma] at this; cases this
    · rw [u.digit_point] at this; cases this
  simp only [shapes, FirstShape, g1, h, not_false_eq_true, not_true_eq_false, true_and, false_and, false_or, or_false]

/-- Unknown words of letters are interchangeable if they have the same number of bytes, or both more than two. -/
theorem C100_letters (u : UTables) (es : List LexEntry) (v w : Str)
    (h : ∀ z, z = v ∨ z = w → z ≠ [] ∧ (∀ c ∈ z, u.alpha (u.fold c) = true ∧ u.isWord c = true ∧ u.digit c = false ∧ ¬ SepChar u c ∧
      c ≠ '/' ∧ c ≠ ',' ∧ c ≠ '.') ∧ (∀ e ∈ es, e.word ≠ z ∧ e.word ≠ z.map u.canon) ∧
      NoPrefix u ((es.filter LexEntry.isPrefixAttached).map (·.word)) z ∧ NoSuffix ((es.filter LexEntry.isSuffixAttached).map (·.word)) z)
    (hlen : utf8Bytes v = utf8Bytes w ∨ (2 < utf8Bytes v ∧ 2 < utf8Bytes w)) : Interchangeable u es v w := by
  have hu : ∀ z, z = v ∨ z = w → Unknown u es z ∧ ∀ c, FirstShape (shapes u .WORD) z c ↔
      c = .WORD ∨ (c = .DOUBLE ∧ utf8Bytes z = 2) ∨ (c = .SINGLE ∧ utf8Bytes z = 1) := by
    intro z hz
    obtain ⟨h0, h1, h2, h3, h4⟩ := h z hz
    have hs := shape_letters (dflt := .WORD) h0 (fun c hc => (h1 c hc).2.2.1) (fun c hc => (h1 c hc).2.1)
    refine ⟨⟨⟨h0, fun c hc => by simp [(h1 c hc).1]⟩, fun c hc => (h1 c hc).2.2.2, h2, h3, h4, ?_⟩, hs⟩
    rw [hs]
    simp
  obtain ⟨v1, v2⟩ := hu v (Or.inl rfl)
  obtain ⟨w1, w2⟩ := hu w (Or.inr rfl)
  refine ⟨v1, w1, fun c => ?_⟩
  rw [v2, w2]
  rcases hlen with e | ⟨e1, e2⟩
  · rw [e]
  · have a1 : utf8Bytes v ≠ 2 := by omega
    have a2 : utf8Bytes v ≠ 1 := by omega
    have a3 : utf8Bytes w ≠ 2 := by omega
    have a4 : utf8Bytes w ≠ 1 := by omega
    simp only [a1, a2, a3, a4]

/-- Unknown numbers are interchangeable if they have the same number of bytes, or both neither four nor five. -/
theorem C100_numbers (u : UTables) (es : List LexEntry) (v w : Str)
    (h : ∀ z, z = v ∨ z = w → z ≠ [] ∧ (∀ c ∈ z, u.digit c = true ∧ ¬ SepChar u c ∧ c ≠ '/') ∧
      (∀ e ∈ es, e.word ≠ z ∧ e.word ≠ z.map u.canon) ∧
      NoPrefix u ((es.filter LexEntry.isPrefixAttached).map (·.word)) z ∧ NoSuffix ((es.filter LexEntry.isSuffixAttached).map (·.word)) z)
    (hlen : utf8Bytes v = utf8Bytes w ∨ ∀ z, z = v ∨ z = w → utf8Bytes z ≠ 4 ∧ utf8Bytes z ≠ 5) : Interchangeable u es v w := by
  have hu : ∀ z, z = v ∨ z = w → Unknown u es z ∧ ∀ c, FirstShape (shapes u .WORD) z c ↔
      c = .NUMBER ∨ (c = .QUAD ∧ utf8Bytes z = 4) ∨ (c = .QUINT ∧ utf8Bytes z = 5) := by
    intro z hz
    obtain ⟨h0, h1, h2, h3, h4⟩ := h z hz
    have hs := shape_digits (dflt := .WORD) (v := z) ⟨h0, fun c hc => (h1 c hc).1⟩
    refine ⟨⟨⟨h0, fun c hc => by simp [u.digit_fold, (h1 c hc).1]⟩, fun c hc => ⟨(h1 c hc).2.1, (h1 c hc).2.2, ?_, ?_⟩, h2, h3, h4, ?_⟩, hs⟩
    · rintro rfl
      have := (h1 _ hc).1
      rw [u.digit_comma] at this; cases this
    · rintro rfl
      have := (h1 _ hc).1
      rw [u.digit_point] at this; cases this
    · rw [hs]
      simp
  obtain ⟨v1, v2⟩ := hu v (Or.inl rfl)
  obtain ⟨w1, w2⟩ := hu w (Or.inr rfl)
  refine ⟨v1, w1, fun c => ?_⟩
  rw [v2, w2]
  rcases hlen with e | e
  · rw [e]
  · simp only [(e v (Or.inl rfl)).1, (e v (Or.inl rfl)).2, (e w (Or.inr rfl)).1, (e w (Or.inr rfl)).2]

/-! ### Examples -/

theorem ascii_noPrefix (es : List LexEntry) (h : es.filter LexEntry.isPrefixAttached = []) (z : Str) :
    NoPrefix asciiU ((es.filter LexEntry.isPrefixAttached).map (·.word)) z := by
  rintro ⟨a, b, _, ha, _⟩
  rw [h] at ha; cases ha

theorem noSuffix_none (es : List LexEntry) (h : es.filter LexEntry.isSuffixAttached = []) (z : Str) :
    NoSuffix ((es.filter LexEntry.isSuffixAttached).map (·.word)) z := by
  rintro ⟨a, b, _, ha, _⟩
  rw [h] at ha; cases ha

theorem syn_letters : Interchangeable asciiU synEntries c!"MAIN" c!"ELM" := by
  refine C100_letters asciiU synEntries _ _ ?_ (Or.inr (by decide +kernel))
  rintro z (rfl | rfl) <;>
    exact ⟨by decide, by decide +kernel, by decide +kernel, ascii_noPrefix _ (by decide +kernel) _, noSuffix_none _ (by decide +kernel) _⟩

theorem syn_numbers : Interchangeable asciiU synEntries c!"12" c!"139" := by
  refine C100_numbers asciiU synEntries _ _ ?_ (Or.inr ?_)
  · rintro z (rfl | rfl) <;>
      exact ⟨by decide, by decide +kernel, by decide +kernel, ascii_noPrefix _ (by decide +kernel) _, noSuffix_none _ (by decide +kernel) _⟩
  · rintro z (rfl | rfl) <;> decide +kernel

/-- In `12 MAIN STR` and `12 ELM STR` the words are unknown and stand alone. -/
example : ReadsPatterns readingEnv ∧ LexText readingEnv.icu synText c!"LEXICON:\tT\tENG\ten\t2" synEntries ∧
    readingEnv.archive synText = .notArchive ∧
    (∀ e ∈ synEntries, ∀ c ∈ e.word, c ∉ unescaped ∧ readingEnv.u.canon c = c) ∧ (∃ e ∈ synEntries, e.word ≠ []) ∧
    Interchangeable readingEnv.u synEntries c!"MAIN" c!"ELM" ∧
    StandsAlone readingEnv.u (synEntries.map (·.word)) c!"12" c!" " c!"MAIN" c!" " c!"STR" ∧
    StandsAlone readingEnv.u (synEntries.map (·.word)) c!"12" c!" " c!"ELM" c!" " c!"STR" ∧
    textFor readingEnv c!"en" (headerLocale c!"LEXICON:\tT\tENG\ten\t2") c!"12 Main Str" =
      c!"12" ++ (c!" " ++ (c!"MAIN" ++ (c!" " ++ c!"STR"))) ∧
    textFor readingEnv c!"en" (headerLocale c!"LEXICON:\tT\tENG\ten\t2") c!"12 Elm Str" =
      c!"12" ++ (c!" " ++ (c!"ELM" ++ (c!" " ++ c!"STR"))) := by
  refine ⟨readingEnv_reads, synText_means, rfl, syn_plain, ⟨eNY, by simp [synEntries], by decide⟩, syn_letters, ?_, ?_, rfl, rfl⟩
  · exact ⟨⟨'M', rfl, by decide⟩, Or.inr (ascii_space (by decide) ⟨'2', rfl, by decide⟩ ⟨'M', rfl, by decide⟩ (by decide)
      (by decide +kernel)), Or.inr (ascii_space (by decide) ⟨'N', rfl, by decide⟩ ⟨'S', rfl, by decide⟩ (by decide)
      (by decide +kernel))⟩
  · exact ⟨⟨'E', rfl, by decide⟩, Or.inr (ascii_space (by decide) ⟨'2', rfl, by decide⟩ ⟨'E', rfl, by decide⟩ (by decide)
      (by decide +kernel)), Or.inr (ascii_space (by decide) ⟨'M', rfl, by decide⟩ ⟨'S', rfl, by decide⟩ (by decide)
      (by decide +kernel))⟩

/-- The number at the beginning of an address stands alone, too. -/
example : StandsAlone readingEnv.u (synEntries.map (·.word)) [] [] c!"12" c!" " c!"MAIN STR" ∧
    StandsAlone readingEnv.u (synEntries.map (·.word)) [] [] c!"139" c!" " c!"MAIN STR" :=
  ⟨⟨⟨'1', rfl, by decide⟩, Or.inl ⟨rfl, rfl⟩, Or.inr (ascii_space (by decide) ⟨'2', rfl, by decide⟩ ⟨'M', rfl, by decide⟩ (by decide)
      (by decide +kernel))⟩,
    ⟨⟨'1', rfl, by decide⟩, Or.inl ⟨rfl, rfl⟩, Or.inr (ascii_space (by decide) ⟨'9', rfl, by decide⟩ ⟨'M', rfl, by decide⟩ (by decide)
      (by decide +kernel))⟩⟩

/-- What the three addresses give. -/
example : let g := unlines [c!"[ADDRESS]", c!"NUMBER WORD TYPE -> HOUSE STREET SUFTYP -> 0.4"]
    stdStandardize readingEnv c!"12 main str" g synText c!"en" c!"SPACE" = some ⟨some { house_num := some c!"12", name := some c!"MAIN", suftype := some c!"STRASSE", pattern := some c!"NUMBER WORD TYPE -> HOUSE STREET SUFTYP" }, none⟩ ∧
    stdStandardize readingEnv c!"12 elm str" g synText c!"en" c!"SPACE" = some ⟨some { house_num := some c!"12", name := some c!"ELM", suftype := some c!"STRASSE", pattern := some c!"NUMBER WORD TYPE -> HOUSE STREET SUFTYP" }, none⟩ ∧
    stdStandardize readingEnv c!"139 main str" g synText c!"en" c!"SPACE" = some ⟨some { house_num := some c!"139", name := some c!"MAIN", suftype := some c!"STRASSE", pattern := some c!"NUMBER WORD TYPE -> HOUSE STREET SUFTYP" }, none⟩ := by
  simp only [(reading_syn _ _ _ _).1]
  decide +kernel

/-- Words of one or two bytes have a class of their own, so another word in the place of one may not be standardized. -/
theorem C100_short : ∃ (env : Env Rat Rat) (text h : Str) (es : List LexEntry) (v w grammar locale filter : Str),
    ReadsPatterns env ∧ env.archive text = .notArchive ∧ LexText env.icu text h es ∧ Unknown env.u es v ∧ Unknown env.u es w ∧
    (∃ x, stdStandardize env (c!"12 " ++ v) grammar text locale filter = some ⟨some x, none⟩) ∧
    stdStandardize env (c!"12 " ++ w) grammar text locale filter = some ⟨none, none⟩ := by
  have hu : Unknown asciiU synEntries c!"EL" ∧ Unknown asciiU synEntries c!"ELM" := by
    constructor
    · refine (C100_letters asciiU synEntries c!"EL" c!"EL" ?_ (Or.inl rfl)).left
      rintro z (rfl | rfl) <;>
        exact ⟨by decide, by decide +kernel, by decide +kernel, ascii_noPrefix _ (by decide +kernel) _, noSuffix_none _ (by decide +kernel) _⟩
    · exact syn_letters.right
  refine ⟨readingEnv, synText, _, synEntries, c!"EL", c!"ELM", unlines [c!"[ADDRESS]", c!"NUMBER DOUBLE -> HOUSE STREET -> 0.4"], c!"en",
    c!"SPACE", readingEnv_reads, rfl, synText_means, hu.1, hu.2,
    ⟨{ house_num := some c!"12", name := some c!"EL", pattern := some c!"NUMBER DOUBLE -> HOUSE STREET" }, ?_⟩, ?_⟩ <;>
  rw [(reading_syn _ _ _ _).1] <;> decide +kernel

end AS.Props
