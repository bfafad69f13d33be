import Verif.Spec.Plain
import Verif.Props.Filter
import Verif.Props.Slack
import Verif.Props.Unknown
import Verif.Props.Whole
/-
C107: addresses that are plain lists of words.
-/
namespace AS.Props
open AS AS.Tokenizer AS.Wrapper
variable {F D : Type}

theorem standardOf_find {l : Lexicon} {es : List LexEntry} (H : Lexicon.Holds l (held (es.map LexOp.ins))) (v : Str) (c : InType) :
    standardOf es v c ≠ none ↔ ∃ e ∈ l.find v, c ∈ e.type := by
  rw [← Option.isSome_iff_ne_none, standardOf_some, H.find]
  constructor
  · rintro ⟨e, he, h1, h2⟩
    exact ⟨e, List.mem_filter.2 ⟨(mem_heldIns es e).2 he, by simpa using h1⟩, h2⟩
  · rintro ⟨e, he, h⟩
    obtain ⟨h1, h2⟩ := List.mem_filter.1 he
    exact ⟨e, (mem_heldIns es e).1 h1, by simpa using h2, h⟩

/-- The classes given to a text. -/
theorem mem_classify {u : UTables} {l : Lexicon} {es : List LexEntry} (H : Lexicon.Holds l (held (es.map LexOp.ins))) (dflt : InType)
    (v : Str) (c : InType) : c ∈ (l.classify u { text := v } dflt).inclass ↔ ClassOf u es dflt v c := by
  unfold ClassOf
  by_cases h : ∃ d, standardOf es v d ≠ none
  · obtain ⟨d, hd⟩ := h
    have := (C13_in_lexicon u l { text := v } dflt ⟨d, Or.inr ((standardOf_find H v d).1 hd)⟩).1 c
    rw [this, standardOf_find H]
    constructor
    · rintro (h | h)
      · cases h
      · exact Or.inl h
    · rintro (h | ⟨h, _⟩)
      · exact Or.inr h
      · exact absurd (h d) hd
  · have h0 : ∀ d, standardOf es v d = none := fun d => Classical.not_not.1 fun hd => h ⟨d, hd⟩
    have h1 : ∀ e ∈ l.find v, e.type = [] := by
      intro e he
      cases ht : e.type with
      | nil => rfl
      | cons d ds => exact absurd ((standardOf_find H v d).2 ⟨e, he, by rw [ht]; simp⟩) (by simp [h0 d])
    rw [(C13_by_shape u l { text := v } dflt rfl h1).1 c]
    simp [h0]

/-- The token of a text without tabulators and commas. -/
theorem wordToken_any {u : UTables} {l : Lexicon} {es : List LexEntry} (H : Lexicon.Holds l (held (es.map LexOp.ins))) {v : Str}
    (htab : '\t' ∉ v) (hcomma : ',' ∉ v) : ∃ cs b, cs ≠ [] ∧ IsSet InType.code cs ∧
      (∀ c, c ∈ cs ↔ ClassOf u es .WORD v c) ∧ (b = true ↔ ∃ d, standardOf es v d ≠ none) ∧
      wordToken u l v = { text := v, inclass := cs, inlex := b } := by
  by_cases hd : ∃ d, standardOf es v d ≠ none
  · obtain ⟨cs, h1, h2, h3, h4⟩ := wordToken_listed (u := u) H htab hd
    refine ⟨cs, true, h2, h1, fun c => ?_, by simp [hd], h4⟩
    rw [h3]
    obtain ⟨d, hd⟩ := hd
    exact ⟨Or.inl, fun k => k.elim id fun k => absurd (k.1 d) hd⟩
  · have hn : ∀ d, standardOf es v d = none := fun d => Classical.not_not.1 fun h => hd ⟨d, h⟩
    have h0 : ∀ e ∈ l.find ({ text := v } : Token).text, e.type = [] := by
      intro e he
      cases ht : e.type with
      | nil => rfl
      | cons d ds => exact absurd ((standardOf_find H v d).2 ⟨e, he, by rw [ht]; simp⟩) (by simp [hn d])
    have hs := C13_by_shape u l { text := v } .WORD rfl h0
    have ht := C13_total u l { text := v } .WORD
    have hx : (l.classify u { text := v } .WORD).text = v := by
      rcases C13_text u l { text := v } .WORD with e | ⟨_, _, _, a, b, _, e, _⟩
      · exact e
      · exact absurd (by rw [show v = a ++ [','] ++ b from e]; simp) hcomma
    have hr : (l.classify u { text := v } .WORD).stdtext = [] ∧ (l.classify u { text := v } .WORD).outclass = ({ } : Token).outclass ∧
        (l.classify u { text := v } .WORD).attached = [] := by
      have := byShape_rest u ({ text := v, inlex := false } : Token)
      rw [classify_out u l _ _ rfl h0]
      split
      · exact this
      · exact this
    refine ⟨_, false, ht.1, ht.2 List.Pairwise.nil, mem_classify H .WORD v, by simp [hn], ?_⟩
    unfold wordToken
    rw [ofText_plain htab]
    have h2 := hs.2
    obtain ⟨r1, r2, r3⟩ := hr
    generalize l.classify u { text := v } .WORD = t at *
    obtain ⟨a, b, c, d, e, f⟩ := t
    simp only at hx r1 r2 r3 h2
    subst hx r1 r2 r3 h2
    rfl

/-- A word that is read as these. -/
def Becomes (u : UTables) (l : Lexicon) (x : LexRe) (v : Str) (ps : List Str) : Prop :=
  v ≠ [] ∧ SplitsInto u (lexWords l) v [⟨[], [], v, []⟩] [] ∧ roundTokens u l x ⟨[], [], v, []⟩ = ps.map (wordToken u l)

theorem longestPrefix_of {u : UTables} {l : Lexicon} {es : List LexEntry} (H : Lexicon.Holds l (held (es.map LexOp.ins))) {v a b : Str}
    (h : LongestPrefix u ((es.filter LexEntry.isPrefixAttached).map (·.word)) v a b) : LongestPrefix u (prefixWords l) v a b :=
  ⟨⟨h.1.1, (attached_of H _ _).2 h.1.2.1, h.1.2.2⟩, fun a' b' k => h.2 a' b' ⟨k.1, (attached_of H _ _).1 k.2.1, k.2.2⟩⟩

theorem shortestSuffix_of {l : Lexicon} {es : List LexEntry} (H : Lexicon.Holds l (held (es.map LexOp.ins))) {v c d : Str}
    (h : ShortestSuffix ((es.filter LexEntry.isSuffixAttached).map (·.word)) v c d) : ShortestSuffix (suffixWords l) v c d :=
  ⟨⟨h.1.1, (attached_of H _ _).2 h.1.2.1, h.1.2.2⟩, fun a' b' k => h.2 a' b' ⟨k.1, (attached_of H _ _).1 k.2.1, k.2.2⟩⟩

theorem noPrefix_of {u : UTables} {l : Lexicon} {es : List LexEntry} (H : Lexicon.Holds l (held (es.map LexOp.ins))) {v : Str}
    (h : NoPrefix u ((es.filter LexEntry.isPrefixAttached).map (·.word)) v) : NoPrefix u (prefixWords l) v := by
  rintro ⟨a, b, e, ha, k⟩
  exact h ⟨a, b, e, (attached_of H _ a).1 ha, k⟩

theorem noSuffix_of {l : Lexicon} {es : List LexEntry} (H : Lexicon.Holds l (held (es.map LexOp.ins))) {v : Str}
    (h : NoSuffix ((es.filter LexEntry.isSuffixAttached).map (·.word)) v) : NoSuffix (suffixWords l) v := by
  rintro ⟨a, b, e, ha, k⟩
  exact h ⟨a, b, e, (attached_of H _ b).1 ha, k⟩

/-- The parts have the characters of the word. -/
theorem parted_chars {u : UTables} {es : List LexEntry} {v : Str} {ps : List Str} (h : Parted u es v ps) :
    ps ≠ [] ∧ ∀ p ∈ ps, ∀ c ∈ p, c ∈ v := by
  refine ⟨by cases h <;> simp, fun p hp c hc => ?_⟩
  cases h with
  | front _ h _ => rw [h.1.1]; rcases List.mem_cons.1 hp with rfl | hp <;> simp_all
  | behind _ _ h => rw [h.1.1]; rcases List.mem_cons.1 hp with rfl | hp <;> simp_all
  | both _ _ _ _ h => rw [h]; rcases List.mem_cons.1 hp with rfl | hp <;> simp_all <;> rcases hp with rfl | rfl <;> simp_all
  | meeting _ h _ => rw [h.1.1]; rcases List.mem_cons.1 hp with rfl | hp <;> simp_all
  | letterBehind _ _ h _ _ => rw [h]; rcases List.mem_cons.1 hp with rfl | hp <;> simp_all
  | letterFirst _ _ h _ _ => rw [h]; rcases List.mem_cons.1 hp with rfl | hp <;> simp_all

theorem stray_blank {u : UTables} {es : List LexEntry} {v : Str} (h : Stray u es v) : ∀ c ∈ v, c ≠ ' ' ∧ c ≠ '\t' := by
  intro c hc
  have := (h.plain c hc).1
  refine ⟨?_, ?_⟩ <;> rintro rfl <;> exact this (Or.inr (Or.inr (Or.inl (u.cspace_space _ (by decide)))))

/-- The tokens of a word that is taken apart. -/
theorem parted_tokens {u : UTables} {l : Lexicon} {x : LexRe} {es : List LexEntry} (hpl : PlainLexicon u l) (hx : x.For u l)
    (H : Lexicon.Holds l (held (es.map LexOp.ins))) {v : Str} {ps : List Str} (hv : Stray u es v) (h : Parted u es v ps) :
    roundTokens u l x ⟨[], [], v, []⟩ = ps.map (wordToken u l) := by
  obtain ⟨cs, b, _, _, h3, h4, h5⟩ := wordToken_any (u := u) H (v := v) (fun hc => (stray_blank hv _ hc).2 rfl)
    (fun hc => (hv.plain _ hc).2.2.1 rfl)
  have h0 : ∀ d, standardOf es v d = none := by
    intro d
    rw [← Option.not_isSome_iff_eq_none, standardOf_some]
    rintro ⟨e, he, h1, _⟩
    exact (hv.unlisted e he).1 h1
  have hb : b = false := by
    cases b with
    | false => rfl
    | true => obtain ⟨d, hd⟩ := h4.1 rfl; exact absurd (h0 d) hd
  subst hb
  have hc : ∀ c, c ∈ cs ↔ FirstShape (shapes u .WORD) v c := by
    intro c
    rw [h3]
    unfold ClassOf
    simp [h0]
  have ht : (wordToken u l v).text = v := by rw [h5]
  have hs : splitToken u l x (wordToken u l v) = ps.map (wordToken u l) := by
    have hmix : ∀ hm : ¬ FirstShape (shapes u .WORD) v .MIXED, InType.MIXED ∉ (wordToken u l v).inclass := by
      intro hm
      rw [h5]
      exact fun k => hm ((hc _).1 k)
    have hmix' : ∀ hm : FirstShape (shapes u .WORD) v .MIXED, InType.MIXED ∈ (wordToken u l v).inclass := by
      intro hm
      rw [h5]
      exact (hc _).2 hm
    cases h with
    | front hm h1 h2 =>
      exact (C09_attached u l x _ hpl hx (hmix hm)).2.1 _ _ (by rw [ht]; exact longestPrefix_of H h1) (by rw [ht]; exact noSuffix_of H h2)
    | behind hm h1 h2 =>
      exact (C09_attached u l x _ hpl hx (hmix hm)).2.2.1 _ _ (by rw [ht]; exact noPrefix_of H h1) (by rw [ht]; exact shortestSuffix_of H h2)
    | both hm h1 h2 h3 h4 =>
      exact ((C09_attached u l x _ hpl hx (hmix hm)).2.2.2 _ _ _ _ (by rw [ht]; exact longestPrefix_of H h1)
        (by rw [ht]; exact shortestSuffix_of H h2)).2.1 _ h3 (by rw [ht]; exact h4)
    | meeting hm h1 h2 =>
      exact ((C09_attached u l x _ hpl hx (hmix hm)).2.2.2 _ _ _ _ (by rw [ht]; exact longestPrefix_of H h1)
        (by rw [ht]; exact shortestSuffix_of H h2)).1 rfl
    | letterBehind hm hw h1 h2 h3 =>
      exact (C09_mixed u l x _ (hmix' hm) (by rw [ht]; exact hw)).1 _ _ (by rw [ht]; exact h1) h2 h3
    | letterFirst hm hw h1 h2 h3 =>
      exact (C09_mixed u l x _ (hmix' hm) (by rw [ht]; exact hw)).2.1 _ _ (by rw [ht]; exact h1) h2 h3
  have hi : (wordToken u l v).inlex = false := by rw [h5]
  have hn : 0 < ps.length := List.length_pos_iff.2 (parted_chars h).1
  unfold roundTokens
  simp [hv.chars.1, hi, hs, hn]

/-- What a word is read as, and the tokens of these. -/
theorem read_of {u : UTables} {l : Lexicon} {x : LexRe} {es : List LexEntry} (hpl : PlainLexicon u l) (hx : x.For u l)
    (H : Lexicon.Holds l (held (es.map LexOp.ins))) {v : Str} {ps : List Str} (h : WordRead u es v ps) :
    Becomes u l x v ps ∧ ∀ p ∈ ps, (∀ c ∈ p, c ≠ ' ' ∧ c ≠ '\t') ∧ ∃ cs b, cs ≠ [] ∧ IsSet InType.code cs ∧
      (∀ c, c ∈ cs ↔ ClassOf u es .WORD p c) ∧ wordToken u l p = { text := p, inclass := cs, inlex := b } := by
  cases h with
  | whole h =>
    suffices hs : Becomes u l x v [v] ∧ (∀ c ∈ v, c ≠ ' ' ∧ c ≠ '\t') ∧ ∃ cs b, cs ≠ [] ∧ IsSet InType.code cs ∧
        (∀ c, c ∈ cs ↔ ClassOf u es .WORD v c) ∧ wordToken u l v = { text := v, inclass := cs, inlex := b } from
      ⟨hs.1, fun p hp => by cases List.mem_singleton.1 hp; exact hs.2⟩
    rcases h with h | h
    · have hv : v ≠ [] := by
        obtain ⟨c, hc, _⟩ := h.first
        rintro rfl; cases hc
      obtain ⟨cs, h1, h2, h3, h4⟩ := wordToken_listed (u := u) H (fun hc => (h.blanks _ hc).2 rfl) h.classed
      refine ⟨⟨hv, ?_, ?_⟩, h.blanks, cs, true, h2, h1, fun c => ?_, h4⟩
      · obtain ⟨c, hc⟩ := h.classed
        obtain ⟨e, he, h1, _⟩ := standardOf_some.1 (Option.isSome_iff_ne_none.2 hc)
        have hm : v ∈ lexWords l := (words_of H v).2 (List.mem_map.2 ⟨e, he, h1⟩)
        refine splits_word ?_ h.first
        rw [show v.map u.canon = v from by
          rw [List.map_congr_left (g := id) fun c hc => (hpl v hm c hc).2, List.map_id]]
        exact hm
      · unfold roundTokens
        simp [hv, h4]
      · rw [h3]
        obtain ⟨d, hd⟩ := h.classed
        exact ⟨Or.inl, fun k => k.elim id fun k => absurd (k.1 d) hd⟩
    · obtain ⟨cs, b, h1, h2, h3, _, h4⟩ := wordToken_any (u := u) H (v := v) (fun hc => (unknown_blank h _ hc).2 rfl)
        (fun hc => (h.plain _ hc).2.2.1 rfl)
      refine ⟨⟨h.chars.1, splits_run h.chars fun c hc => (h.plain c hc).1, ?_⟩, unknown_blank h, cs, b, h1, h2, h3, h4⟩
      rw [roundTokens_unknown hpl hx H h []]
      unfold roundTokens
      simp
  | parts h1 h2 =>
    refine ⟨⟨h1.chars.1, splits_run h1.chars fun c hc => (h1.plain c hc).1, parted_tokens hpl hx H h1 h2⟩, fun p hp => ?_⟩
    have hsub := (parted_chars h2).2 p hp
    have hb : ∀ c ∈ p, c ≠ ' ' ∧ c ≠ '\t' := fun c hc => stray_blank h1 c (hsub c hc)
    obtain ⟨cs, b, k1, k2, k3, _, k4⟩ := wordToken_any (u := u) H (v := p) (fun hc => (hb _ hc).2 rfl)
      (fun hc => (h1.plain _ (hsub _ hc)).2.2.1 rfl)
    exact ⟨hb, cs, b, k1, k2, k3, k4⟩

theorem sepToken_out {u : UTables} {l : Lexicon} {es : List LexEntry} (H : Lexicon.Holds l (held (es.map LexOp.ins))) {filter g : Str}
    (hg : g ≠ []) (h : LeftOut u es filter g) : applyFilter (InType.asType filter) [sepToken u l g] = [] := by
  obtain ⟨v, hv, ht⟩ := trim_trimmed hg
  obtain ⟨c, hc, hk⟩ := h.2 v ht
  rw [C08_keeps, List.filter_eq_nil_iff]
  intro t htm
  rw [List.mem_singleton.1 htm]
  unfold sepToken
  rw [ofText_plain h.1, hv]
  simp only [decide_eq_true_eq]
  exact fun hn => hn c ((mem_classify H .PUNCT v c).2 hk) ((mem_asType filter c).2 hc)

/-- The words are the tokens. -/
theorem inWords_tokens {u : UTables} {l : Lexicon} {x : LexRe} {es : List LexEntry} (hpl : PlainLexicon u l) (hx : x.For u l)
    (H : Lexicon.Holds l (held (es.map LexOp.ins))) (hne : ∃ w ∈ lexWords l, w ≠ []) {filter s : Str} {vs : List Str}
    (h : InWords u es filter s vs) : ∃ rs, SplitsInto u (lexWords l) s rs [] ∧
      applyFilter (InType.asType filter) (rs.flatMap (roundTokens u l x)) =
        applyFilter (InType.asType filter) (vs.map (wordToken u l)) := by
  induction h with
  | nil => exact ⟨[], .stop (Or.inl rfl), rfl⟩
  | @last v ps hv =>
    obtain ⟨⟨_, h1, h2⟩, _⟩ := read_of (x := x) hpl hx H hv
    exact ⟨_, h1, by simp [h2]⟩
  | @more v g b ps vs hv hj hg _ ih =>
    obtain ⟨⟨_, h1, h2⟩, _⟩ := read_of (x := x) hpl hx H hv
    have hj := joint_words (fun w => (words_of H w).symm) hj
    obtain ⟨qs, k1, k2⟩ := ih
    obtain ⟨pre, r, e1, e2, e3⟩ := (splits_joint hne hj h1).2 rfl
    cases pre with
    | cons p pre => simp at e1
    | nil =>
      rw [List.nil_append, List.cons.injEq] at e1
      obtain ⟨rfl, _⟩ := e1
      refine ⟨_, e3 _ _ k1, ?_⟩
      rw [List.nil_append, List.flatMap_cons, roundTokens_sep hj.nonempty rfl, h2, List.map_append]
      rw [applyFilter_append, applyFilter_append, sepToken_out H hj.nonempty hg, k2, List.append_nil, ← applyFilter_append]

theorem inWords_each {u : UTables} {es : List LexEntry} {filter s : Str} {vs : List Str} (h : InWords u es filter s vs) :
    ∀ p ∈ vs, ∃ v ps, WordRead u es v ps ∧ p ∈ ps := by
  induction h with
  | nil => intro v hv; cases hv
  | last hv => exact fun p hp => ⟨_, _, hv, hp⟩
  | more hv _ _ _ ih =>
    intro w hw
    rcases List.mem_append.1 hw with hw | hw
    · exact ⟨_, _, hv, hw⟩
    · exact ih w hw

/-- The token lists of a plain address. -/
theorem phrases_plain {env : Env F D} (hread : ReadsPatterns env) {text h : Str} {es : List LexEntry}
    (ha : env.archive text = .notArchive) (ht : LexText env.icu text h es)
    (hp : ∀ e ∈ es, ∀ c ∈ e.word, c ∉ unescaped ∧ env.u.canon c = c) (hne : ∃ e ∈ es, e.word ≠ [])
    {address locale filter : Str} {vs : List Str} {cls : Str → List InType}
    (hw : InWords env.u es filter (textFor env locale (headerLocale h) address) vs) (hc : ClassLists env.u es vs cls) :
    ∃ l, loadLexicon env text = .ok l ∧ (∀ v c cs, Lexicon.stdLoop (c :: cs) (l.find v) = some (standardOf es v c)) ∧
      ∃ inlex : Str → Bool, phrasesOf env l locale filter address = .ok [(vs.filter (fun v => ∀ c ∈ cls v, ¬ FilterNames filter c)).map
        (fun v => { text := v, inclass := cls v, inlex := inlex v })] := by
  obtain ⟨l, h1, h2, H, C⟩ := loadLexicon_text ha ht
  have hpl : PlainLexicon env.u l := plain_of H hp
  have hx := lexRe_for hread hpl C
  have hne' : ∃ w ∈ lexWords l, w ≠ [] := by
    obtain ⟨e, he, hw⟩ := hne
    exact ⟨e.word, (words_of H _).2 (List.mem_map.2 ⟨e, he, rfl⟩), hw⟩
  unfold textFor at hw
  rw [← h2] at hw
  obtain ⟨rs, k1, k2⟩ := inWords_tokens hpl hx H hne' hw
  have hts := tokens_split (icu := env.icu) hpl hx (InType.asType filter) k1
  rw [k2] at hts
  let inlex := fun v => (wordToken env.u l v).inlex
  have htok : vs.map (wordToken env.u l) = vs.map (fun v => ({ text := v, inclass := cls v, inlex := inlex v } : Token)) := by
    refine List.map_congr_left fun v hv => ?_
    obtain ⟨_, _, hr, hm⟩ := inWords_each hw v hv
    obtain ⟨_, cs, b, q1, q2, q3, q4⟩ := (read_of (x := lexRe env l) hpl hx H hr).2 v hm
    obtain ⟨_, r2, r3⟩ := hc v hv
    have : cs = cls v := IsSet.ext q2 r2 fun c => by rw [q3, r3]
    subst this
    simp only [inlex, q4]
  have hfil : applyFilter (InType.asType filter) (vs.map (wordToken env.u l)) =
      (vs.filter (fun v => ∀ c ∈ cls v, ¬ FilterNames filter c)).map
        (fun v => ({ text := v, inclass := cls v, inlex := inlex v } : Token)) := by
    rw [C08_keeps, htok, List.filter_map]
    congr 1
    refine List.filter_congr fun v _ => ?_
    simp only [Function.comp, mem_asType]
  refine ⟨l, h1, fun v c cs => standard_find H v c cs, inlex, ?_⟩
  rw [hfil] at hts
  unfold phrasesOf
  simp only [hts]
  rw [C10_none]
  intro t htm
  obtain ⟨v, hv, rfl⟩ := List.mem_map.1 htm
  obtain ⟨_, _, hr, hm⟩ := inWords_each hw v (List.mem_filter.1 hv).1
  obtain ⟨q, _⟩ := (read_of (x := lexRe env l) hpl hx H hr).2 v hm
  exact fun hb => (q _ hb).1 rfl

/-! ### The search looks at the classes only -/

theorem countCombos_classes : ∀ {ts ts' : List Token}, ts'.map (·.inclass) = ts.map (·.inclass) → ∀ n,
    Token.countCombos n ts' = Token.countCombos n ts
  | [], [], _, _ => rfl
  | [], _ :: _, h, _ => by cases h
  | _ :: _, [], h, _ => by cases h
  | t :: ts, t' :: ts', h, n => by
    rw [List.map_cons, List.map_cons, List.cons.injEq] at h
    rw [Token.countCombos, Token.countCombos, countCombos_classes h.2]; simp only [Token.inSize, h.1]

theorem enumOne_classes : ∀ {ts ts' : List Token}, ts'.map (·.inclass) = ts.map (·.inclass) → ∀ cnt i n,
    Token.enumOne cnt i n ts' = Token.enumOne cnt i n ts
  | [], [], _, _, _, _ => rfl
  | [], _ :: _, h, _, _, _ => by cases h
  | _ :: _, [], h, _, _, _ => by cases h
  | t :: ts, t' :: ts', h, cnt, i, n => by
    rw [List.map_cons, List.map_cons, List.cons.injEq] at h
    rw [Token.enumOne, Token.enumOne]; simp only [Token.inSize, h.1, enumOne_classes h.2]

theorem search_classes (g : Grammar F) (node : Str) {ts ts' : List Token} (h : ts'.map (·.inclass) = ts.map (·.inclass)) :
    search g node ts' = search g node ts := by
  have e : Token.enumerate ts' = Token.enumerate ts := by
    unfold Token.enumerate
    simp only [countCombos_classes h, enumOne_classes h]
  have hl : ts'.length = ts.length := by simpa using congrArg List.length h
  unfold search
  rw [e, hl]

/-- The text that shows these classes. -/
def shown (is : List InType) (os : List OutType) : Str :=
  joinWith c!" " (is.map (·.asString) ++ [c!"->"] ++ os.map (·.asString))

theorem patternText_retag : ∀ (ts : List Token) (is : List InType) (os : List OutType), is.length = ts.length → os.length = ts.length →
    (retag ts is os).map (fun t => InType.setAsString t.inclass) = is.map (·.asString) ∧
    (retag ts is os).map (fun t => t.outclass.asString) = os.map (·.asString)
  | [], [], [], _, _ => ⟨rfl, rfl⟩
  | t :: ts, i :: is, o :: os, h1, h2 => by
    obtain ⟨k1, k2⟩ := patternText_retag ts is os (by simpa using h1) (by simpa using h2)
    simp only [retag, List.map_cons, k1, k2]
    simp [InType.setAsString, InType.setAsStringLoop]

/-- What the search finds for two phrases with the same classes. -/
def FoundAlike (fo : FloatOps F) (ts ts' : List Token) (r r' : BestResult F) : Prop :=
  r'.score = r.score ∧ r'.matched = r.matched ∧ ((r.tokens = [] ∧ r'.tokens = [] ∧ r.score = fo.ofInt (-1)) ∨
    ∃ is os, Picks is (ts.map (·.inclass)) ∧ os.length = ts.length ∧ r.tokens = retag ts is os ∧ r'.tokens = retag ts' is os ∧
      r.matched = some (shown is os))

theorem best_classes {g : Grammar F} (wf : WfGrammar g) (hb : Balanced g) (fo : FloatOps F) {ts ts' : List Token}
    (h : ts'.map (·.inclass) = ts.map (·.inclass)) :
    OutAlike (FoundAlike fo ts ts') (searchAndReclassBest g fo ts) (searchAndReclassBest g fo ts') := by
  unfold searchAndReclassBest
  rw [search_classes g _ h]
  cases hs : search g c!"ADDRESS" ts with
  | undefined => exact Or.inl ⟨rfl, rfl⟩
  | throws m => exact Or.inr (Or.inl ⟨m, rfl, rfl⟩)
  | ok results =>
    simp only
    split
    · exact Or.inr (Or.inr ⟨_, _, rfl, rfl, rfl, rfl, Or.inl ⟨rfl, rfl, rfl⟩⟩)
    · split
      · exact Or.inl ⟨rfl, rfl⟩
      · next p hp =>
        obtain ⟨h1, h2, _⟩ := search_balanced wf hb _ ts results hs p (List.mem_of_getElem? hp)
        rw [reclassTokens_ok ts p h1 h2, reclassTokens_ok ts' p h1 (by rw [h]; exact h2)]
        have l1 := picks_length h2
        rw [List.length_map] at l1
        have l2 : (outputs p.rules).length = ts.length := by rw [outputs_length _ h1, l1]
        have l3 : ts'.length = ts.length := by simpa using congrArg List.length h
        have q := patternText_retag ts _ _ l1 l2
        have q' := patternText_retag ts' (inputs p.rules) (outputs p.rules) (l1.trans l3.symm) (l2.trans l3.symm)
        have e : ∀ ts : List Token, searchToString ts = patternText ts := fun ts => searchToString_eq ts
        refine Or.inr (Or.inr ⟨_, _, rfl, rfl, rfl, ?_, Or.inr ⟨_, _, h2, l2, rfl, rfl, ?_⟩⟩)
        · simp only [e, patternText, q.1, q.2, q'.1, q'.2]
        · simp only [e, patternText, q.1, q.2, shown]

theorem rowsOf_classes {g : Grammar F} (wf : WfGrammar g) (hb : Balanced g) (dops : FloatOps D) (widen : F → D) {ts ts' : List Token}
    (h : ts'.map (·.inclass) = ts.map (·.inclass)) {results : List (SearchPath F)} (hs : search g c!"ADDRESS" ts = .ok results) :
    ∀ ps : List (SearchPath F), (∀ p ∈ ps, p ∈ results) → rowsOf dops widen ts' ps = rowsOf dops widen ts ps
  | [], _ => rfl
  | p :: ps, hm => by
    rw [rowsOf, rowsOf, rowsOf_classes wf hb dops widen h hs ps fun q hq => hm q (List.mem_cons_of_mem _ hq)]
    obtain ⟨h1, h2, _⟩ := search_balanced wf hb _ ts results hs p (hm p (List.mem_cons_self ..))
    rw [reclassTokens_ok ts p h1 h2, reclassTokens_ok ts' p h1 (by rw [h]; exact h2)]
    have l1 := picks_length h2
    rw [List.length_map] at l1
    have l2 : (outputs p.rules).length = ts.length := by rw [outputs_length _ h1, l1]
    have l3 : ts'.length = ts.length := by simpa using congrArg List.length h
    have q := patternText_retag ts _ _ l1 l2
    have q' := patternText_retag ts' (inputs p.rules) (outputs p.rules) (l1.trans l3.symm) (l2.trans l3.symm)
    have e : ∀ ts : List Token, searchToString ts = patternText ts := fun ts => searchToString_eq ts
    simp only [e, patternText, q.1, q.2, q'.1, q'.2]

/-- The standardized tokens. -/
theorem standardize_words {l : Lexicon} {es : List LexEntry} {cls : Str → List InType} {inlex : Str → Bool}
    (hl : ∀ v c cs, Lexicon.stdLoop (c :: cs) (l.find v) = some (standardOf es v c)) :
    ∀ (vs : List Str) (is : List InType) (os : List OutType), ∃ std,
      (retag (vs.map (fun v => ({ text := v, inclass := cls v, inlex := inlex v } : Token))) is os).map l.standardize = std.map some ∧
      ∀ f, wordsFor f std = fieldWords es f vs is os
  | [], _, _ => ⟨[], rfl, fun f => by simp [wordsFor, fieldWords]⟩
  | _ :: _, [], _ => ⟨[], rfl, fun f => by simp [wordsFor, fieldWords]⟩
  | _ :: _, _ :: _, [] => ⟨[], rfl, fun f => by simp [wordsFor, fieldWords]⟩
  | v :: vs, i :: is, o :: os => by
    obtain ⟨std, h1, h2⟩ := standardize_words (cls := cls) (inlex := inlex) hl vs is os
    refine ⟨{ text := v, inclass := [i], inlex := inlex v, outclass := o, stdtext := standardWord es v i } :: std, ?_, fun f => ?_⟩
    · simp only [List.map_cons, retag, h1, List.cons.injEq, and_true]
      unfold Lexicon.standardize standardWord
      simp only [hl]
      cases standardOf es v i with
      | none => rfl
      | some s => cases s <;> rfl
    · have := h2 f
      unfold wordsFor at this ⊢
      rw [fieldWords, List.filter_cons]
      split <;> rename_i hf
      · rw [if_pos (by simpa using hf), List.map_cons, this]
      · rw [if_neg (by simpa using hf), this]

theorem upToNul_of {s : Str} (h : '\x00' ∉ s) : upToNul s = s := by
  unfold upToNul
  induction s with
  | nil => rfl
  | cons c s ih =>
    rw [List.takeWhile_cons_of_pos (by simpa using fun e : c = '\x00' => h (e ▸ List.mem_cons_self ..)),
      ih fun hs => h (List.mem_cons_of_mem _ hs)]

theorem mem_joined {sep : Str} {c : Char} : ∀ {ps : List Str}, c ∈ joinWith sep ps → (∃ p ∈ ps, c ∈ p) ∨ c ∈ sep
  | [], h => by cases h
  | [p], h => Or.inl ⟨p, by simp, by simpa [joinWith] using h⟩
  | p :: q :: ps, h => by
    rw [joinWith] at h
    rcases List.mem_append.1 h with h | h
    · rcases List.mem_append.1 h with h | h
      · exact Or.inl ⟨p, by simp, h⟩
      · exact Or.inr h
    · rcases mem_joined h with ⟨x, hx, h⟩ | h
      · exact Or.inl ⟨x, List.mem_cons_of_mem _ hx, h⟩
      · exact Or.inr h

/-! ## C107 -/

/-- The address is a plain list of words for the lexicon that the text defines: these are its entries, the words that the filter
leaves, and their classes. -/
def PlainAddress (env : Env F D) (text locale filter address : Str) (es : List LexEntry) (cls : Str → List InType)
    (kept : List Str) : Prop :=
  env.archive text = .notArchive ∧ (∀ e ∈ es, ∀ c ∈ e.word, c ∉ unescaped ∧ env.u.canon c = c) ∧ (∃ e ∈ es, e.word ≠ []) ∧
  ∃ h vs, LexText env.icu text h es ∧ InWords env.u es filter (textFor env locale (headerLocale h) address) vs ∧
    ClassLists env.u es vs cls ∧ kept = vs.filter (fun v => ∀ c ∈ cls v, ¬ FilterNames filter c)

/-- The words of such an address have their lists of classes. -/
theorem C107_classes (env : Env F D) (hread : ReadsPatterns env) (text h : Str) (es : List LexEntry)
    (ha : env.archive text = .notArchive) (ht : LexText env.icu text h es)
    (hp : ∀ e ∈ es, ∀ c ∈ e.word, c ∉ unescaped ∧ env.u.canon c = c) (filter s : Str) (vs : List Str)
    (hw : InWords env.u es filter s vs) : ∃ cls, ClassLists env.u es vs cls := by
  obtain ⟨l, h1, h2, H, C⟩ := loadLexicon_text ha ht
  have hpl : PlainLexicon env.u l := plain_of H hp
  have hx := lexRe_for hread hpl C
  refine ⟨fun v => (wordToken env.u l v).inclass, fun v hv => ?_⟩
  obtain ⟨_, _, hr, hm⟩ := inWords_each hw v hv
  obtain ⟨_, cs, b, q1, q2, q3, q4⟩ := (read_of (x := lexRe env l) hpl hx H hr).2 v hm
  simp only [q4]
  exact ⟨q1, q2, q3⟩

/-- Its rows are the words kept, in one alternative, each with its classes. -/
theorem C107_rows (env : Env F D) (hread : ReadsPatterns env) (text locale filter address : Str) (es : List LexEntry)
    (cls : Str → List InType) (kept : List Str) (h : PlainAddress env text locale filter address es cls kept)
    (ha : env.alloc kept.length = true) (hn : kept.length < 2 ^ 31) :
    ∃ rows, stdParseAddress env address text locale filter = some ⟨some rows, none⟩ ∧
      rows.map (fun r => (r.pat, r.word, r.inclass, r.attached)) =
        kept.map (fun v => (0, upToNul v, joinWith c!"," ((cls v).map InType.asString), [])) ∧
      ∀ (k : Nat) (r : ParseRow), rows[k]? = some r → r.seq = k := by
  obtain ⟨h1, h2, h3, hd, vs, h4, h5, h6, rfl⟩ := h
  obtain ⟨l, k1, _, inlex, k3⟩ := phrases_plain hread h1 h4 h2 h3 h5 h6
  unfold stdParseAddress parseAddr
  rw [k1]
  simp only [k3]
  obtain ⟨rows, r1, r2, r3, r4⟩ := C46_rows env [(vs.filter (fun v => ∀ c ∈ cls v, ¬ FilterNames filter c)).map
    (fun v => ({ text := v, inclass := cls v, inlex := inlex v } : Token))] (by simpa using ha) (by simpa using hn) (by simp)
  refine ⟨rows, r1, ?_, r4⟩
  rw [r2]
  simp only [List.zipIdx_cons, List.zipIdx_nil, List.flatMap_cons, List.flatMap_nil, List.append_nil, List.map_map]
  refine List.map_congr_left fun v hv => ?_
  simp only [Function.comp]
  rw [C02_print_class_list, upToNul_of (s := joinWith c!"," ((cls v).map InType.asString))]
  · rfl
  · intro hm
    obtain ⟨p, hp, hm⟩ | hm := mem_joined hm
    · obtain ⟨c, _, rfl⟩ := List.mem_map.1 hp
      revert hm
      cases c <;> decide
    · revert hm; decide

/-- What is found depends on the classes of the words kept alone: two such addresses whose words have the same classes, one by
one, have the same list of matches, and both are standardized or none is; if they are, the words of both are taken in the same
classes and put into the same fields. The lexicons, too, may differ. -/
theorem C107_alike (env : Env F D) (signs : SignLaws env.fo) (h0 : env.fo.le0 env.fo.zero = true) (hread : ReadsPatterns env)
    (text locale filter address text' locale' filter' address' grammar : Str) (es es' : List LexEntry)
    (cls cls' : Str → List InType) (kept kept' : List Str)
    (h : PlainAddress env text locale filter address es cls kept)
    (h' : PlainAddress env text' locale' filter' address' es' cls' kept') (hsame : kept'.map cls' = kept.map cls) :
    stdMatchAddress env address' grammar text' locale' filter' = stdMatchAddress env address grammar text locale filter ∧
    (stdStandardize env address' grammar text' locale' filter' = stdStandardize env address grammar text locale filter ∨
    ∃ a a' is os, stdStandardize env address grammar text locale filter = some ⟨some a, none⟩ ∧
      stdStandardize env address' grammar text' locale' filter' = some ⟨some a', none⟩ ∧
      Picks is (kept.map cls) ∧ os.length = kept.length ∧ a'.pattern = a.pattern ∧
      ∀ f, a.get f = asField (fieldWords es f kept is os) ∧ a'.get f = asField (fieldWords es' f kept' is os)) := by
  obtain ⟨h1, h2, h3, hd, vs, h4, h5, h6, rfl⟩ := h
  obtain ⟨l, k1, k2, inlex, k3⟩ := phrases_plain hread h1 h4 h2 h3 h5 h6
  obtain ⟨h1', h2', h3', hd', vs', h4', h5', h6', rfl⟩ := h'
  obtain ⟨l', k1', k2', inlex', k3'⟩ := phrases_plain hread h1' h4' h2' h3' h5' h6'
  generalize vs.filter (fun v => ∀ c ∈ cls v, ¬ FilterNames filter c) = kept at *
  generalize vs'.filter (fun v => ∀ c ∈ cls' v, ¬ FilterNames filter' c) = kept' at *
  have hcl : (kept'.map (fun v => ({ text := v, inclass := cls' v, inlex := inlex' v } : Token))).map (·.inclass) =
      (kept.map (fun v => ({ text := v, inclass := cls v, inlex := inlex v } : Token))).map (·.inclass) := by
    rw [List.map_map, List.map_map]
    exact hsame
  have hcl0 : (kept.map (fun v => ({ text := v, inclass := cls v, inlex := inlex v } : Token))).map (·.inclass) = kept.map cls := by
    rw [List.map_map]; rfl
  unfold stdMatchAddress stdStandardize
  rw [k1, k1']
  cases hg : loadGrammar env grammar with
  | undefined => exact ⟨rfl, Or.inl rfl⟩
  | throws m => exact ⟨rfl, Or.inl rfl⟩
  | ok g =>
  have hinit : Grammar.initialize env.u.toCharTables env.fo grammar = .ok g := by
    unfold loadGrammar at hg
    split at hg
    · next g' e => cases hg; exact e
    · cases hg
  obtain ⟨wf, hb, _⟩ := C29_constructed_wf _ env.fo h0 grammar g hinit
  simp only
  constructor
  · unfold matchAddr
    rw [k3, k3']
    unfold matchAddrWith searchAndReclassAll
    have e : rowsOfAll g env.dops env.widen [kept'.map (fun v => ({ text := v, inclass := cls' v, inlex := inlex' v } : Token))] =
        rowsOfAll g env.dops env.widen [kept.map (fun v => ({ text := v, inclass := cls v, inlex := inlex v } : Token))] := by
      simp only [rowsOfAll, search_classes g _ hcl]
      cases hs : search g c!"ADDRESS" (kept.map (fun v => ({ text := v, inclass := cls v, inlex := inlex v } : Token))) with
      | undefined => rfl
      | throws m => rfl
      | ok results => simp only [rowsOf_classes wf hb env.dops env.widen hcl hs results fun _ h => h]
    simp only [e]
  · unfold standardizeAddr
    rw [k3, k3']
    unfold standardizeAddrWith searchAndReclassBestOf
    simp only [bestPhrases]
    rcases best_classes wf hb env.fo hcl with ⟨e1, e2⟩ | ⟨m, e1, e2⟩ | ⟨r, r', e1, e2, e3, e4, e5⟩
    · rw [e1, e2]; exact Or.inl rfl
    · rw [e1, e2]; exact Or.inl rfl
    · rw [e1, e2]
      simp only [e3, e4]
      split
      · simp only
        split
        · next hge =>
          rcases e5 with ⟨_, _, e5⟩ | ⟨is, os, p1, p2, p3, p4, p5⟩
          · rw [e5, signs.neg_ge] at hge; cases hge
          · obtain ⟨std, s1, s2⟩ := standardize_words (cls := cls) (inlex := inlex) k2 kept is os
            obtain ⟨std', s1', s2'⟩ := standardize_words (cls := cls') (inlex := inlex') k2' kept' is os
            rw [← p3] at s1
            rw [← p4] at s1'
            obtain ⟨x, hx, hf⟩ := collect_fields l r.tokens std (r.matched.getD []) s1
            obtain ⟨x', hx', hf'⟩ := collect_fields l' r'.tokens std' (r.matched.getD []) s1'
            rw [hx, hx']
            simp only
            split
            · refine Or.inr ⟨_, _, is, os, rfl, rfl, hcl0 ▸ p1, by simpa using p2, rfl, fun f => ⟨?_, ?_⟩⟩
              · rw [Option.getD_some, hf f, s2]; rfl
              · rw [Option.getD_some, hf' f, s2']; rfl
            · exact Or.inl rfl
        · exact Or.inl rfl
      · simp only [signs.neg_ge]
        exact Or.inl rfl

/-- Such an address that is returned is a reading of the words kept: a derivation of the grammar, none with a better average score
among those within the nesting limit, takes each word in one of its classes; each field has the standard words of the words put
into it. -/
theorem C107_fields (env : Env F D) (laws : LtLaws env.fo) (signs : SignLaws env.fo)
    (htot : ∀ a b c, env.fo.lt env.fo.zero b = true → env.fo.lt a c = true → env.fo.lt a b = true ∨ env.fo.lt b c = true)
    (h0 : env.fo.le0 env.fo.zero = true) (hread : ReadsPatterns env) (text locale filter address grammar : Str)
    (es : List LexEntry) (cls : Str → List InType) (kept : List Str) (h : PlainAddress env text locale filter address es cls kept)
    (a : StdAddr) (err : Option Str) (hs : stdStandardize env address grammar text locale filter = some ⟨some a, err⟩) :
    ∃ g rs m, loadGrammar env grammar = .ok g ∧ Derives g [c!"ADDRESS"] rs m ∧ Picks (inputs rs) (kept.map cls) ∧
      (outputs rs).length = kept.length ∧
      (sizeProd (kept.map cls) < 2 ^ 32 → ∀ rs' m', Derives g [c!"ADDRESS"] rs' m' → m' ≤ kept.length + 2 →
        Picks (inputs rs') (kept.map cls) → env.fo.lt env.fo.zero (average env.fo rs') = true →
        env.fo.lt (average env.fo rs) (average env.fo rs') = false) ∧
      (∀ f, a.get f = asField (fieldWords es f kept (inputs rs) (outputs rs))) ∧
      a.pattern = some (joinWith c!" " ((inputs rs).map (·.asString) ++ [c!"->"] ++ (outputs rs).map (·.asString))) := by
  obtain ⟨h1, h2, h3, hd, vs, h4, h5, h6, rfl⟩ := h
  obtain ⟨l, k1, k2, inlex, k3⟩ := phrases_plain hread h1 h4 h2 h3 h5 h6
  generalize vs.filter (fun v => ∀ c ∈ cls v, ¬ FilterNames filter c) = kept at *
  obtain ⟨g, l', phrases, phrase, rs, m, std, e1, e2, e3, e4, e5, e6, e7, e8, e9, e10, e11, e12⟩ :=
    C65_explained env laws signs htot h0 address grammar text locale filter a err hs
  rw [k1] at e2; cases e2
  rw [k3] at e3; cases e3
  cases List.mem_singleton.1 e4
  have hcl0 : (kept.map (fun v => ({ text := v, inclass := cls v, inlex := inlex v } : Token))).map (·.inclass) = kept.map cls := by
    rw [List.map_map]; rfl
  rw [hcl0] at e6
  refine ⟨g, rs, m, e1, e5, e6, by simpa using e7, ?_, fun f => ?_, ?_⟩
  · intro hz rs' m' q1 q2 q3
    refine e8 _ (List.mem_singleton.2 rfl) (by rw [hcl0]; exact hz) rs' m' q1 (by simpa using q2) (by rw [hcl0]; exact q3)
  · obtain ⟨std', s1, s2⟩ := standardize_words (cls := cls) (inlex := inlex) k2 kept (inputs rs) (outputs rs)
    have : std = std' := by
      have := e9.symm.trans s1
      exact List.map_inj_right (fun _ _ h => Option.some.inj h) |>.1 this
    rw [e11 f, this, s2]
    rfl
  · have l1 := picks_length e6
    rw [List.length_map] at l1
    obtain ⟨q1, q2⟩ := patternText_retag (kept.map (fun v => ({ text := v, inclass := cls v, inlex := inlex v } : Token)))
      (inputs rs) (outputs rs) (by simpa using l1) e7
    rw [e12, patternText, q1, q2]

/-- With a grammar that is searched completely such an address is returned iff a derivation takes each word kept in one of its
classes. -/
theorem C107_returned (env : Env F D) (laws : LtLaws env.fo) (signs : SignLaws env.fo) (h0 : env.fo.le0 env.fo.zero = true)
    (ha : env.alloc 1 = true) (hread : ReadsPatterns env) (text locale filter address grammar : Str) (g : Grammar F)
    (hg : loadGrammar env grammar = .ok g) (hc : Complete g)
    (es : List LexEntry) (cls : Str → List InType) (kept : List Str) (h : PlainAddress env text locale filter address es cls kept)
    (hz : sizeProd (kept.map cls) < 2 ^ 32) :
    (∃ a, stdStandardize env address grammar text locale filter = some ⟨some a, none⟩) ↔
      ∃ rs m, Derives g [c!"ADDRESS"] rs m ∧ Picks (inputs rs) (kept.map cls) := by
  obtain ⟨h1, h2, h3, hd, vs, h4, h5, h6, rfl⟩ := h
  obtain ⟨l, k1, k2, inlex, k3⟩ := phrases_plain hread h1 h4 h2 h3 h5 h6
  generalize vs.filter (fun v => ∀ c ∈ cls v, ¬ FilterNames filter c) = kept at *
  have hcl0 : (kept.map (fun v => ({ text := v, inclass := cls v, inlex := inlex v } : Token))).map (·.inclass) = kept.map cls := by
    rw [List.map_map]; rfl
  have := C79_standardized_iff env laws signs h0 ha grammar g hg hc l locale filter address _ k3 (by
    intro phrase hp
    rw [List.mem_singleton.1 hp, hcl0]
    exact hz)
  unfold stdStandardize
  rw [hg, k1]
  simp only
  rw [this]
  simp only [List.mem_singleton, exists_eq_left, hcl0]

/-! ### Words with single spaces between them -/

theorem shape_space {u : UTables} {dflt : InType} (h : u.isWord ' ' = false) : FirstShape (shapes u dflt) c!" " .SPACE := by
  have hd : u.digit ' ' = false := by
    rw [Bool.eq_false_iff]
    intro hd
    rw [u.digit_word _ hd] at h
    cases h
  have hsp : u.isSpace ' ' = true := u.cspace_space _ (by decide)
  have n1 : ¬ IsDecimal u c!" " := by
    rintro ⟨a, x, b, e, h1, _, h2⟩
    have := congrArg List.length e
    have := List.length_pos_iff.2 h1.1
    simp at *
    omega
  have n2 : ¬ IsFraction u c!" " := by
    rintro ⟨a, b, e, h1, h2⟩
    have := congrArg List.length e
    have := List.length_pos_iff.2 h1.1
    simp at *
    omega
  have n3 : ¬ IsPostHead u c!" " := by
    rintro ⟨a, b, c, e, h1, _, h2, _⟩
    have := congrArg List.length e
    simp at this
    omega
  have n4 : ¬ IsPostTail u c!" " := by
    rintro ⟨x, y, z, e, _⟩
    cases e
  simp [shapes, FirstShape, n1, n2, n3, n4, RunOf, hd, h, hsp]

theorem trimmed_spaces {g v : Str} (hg : ∀ c ∈ g, c = ' ') (h : Trimmed g v) : v = c!" " := by
  rcases h with ⟨_, h⟩ | ⟨a, b, e, _, ⟨c, hc, hn⟩, _⟩
  · exact h
  · have : c = ' ' := hg c (by rw [e]; simp [List.mem_of_mem_head? (Option.mem_def.2 hc)])
    rw [this] at hn
    exact absurd (by decide) hn

/-- Spaces are left out if the filter names `SPACE` and the lexicon does not list the space. -/
theorem C107_spaces (u : UTables) (es : List LexEntry) (filter g : Str) (hg : ∀ c ∈ g, c = ' ') (hf : FilterNames filter .SPACE)
    (hw : u.isWord ' ' = false) (he : ∀ e ∈ es, e.word ≠ c!" ") : LeftOut u es filter g := by
  refine ⟨fun hc => absurd (hg _ hc) (by decide), fun v hv => ⟨.SPACE, hf, ?_⟩⟩
  rw [trimmed_spaces hg hv]
  refine Or.inr ⟨fun d => ?_, shape_space hw⟩
  rw [← Option.not_isSome_iff_eq_none, standardOf_some]
  rintro ⟨e, hm, h1, _⟩
  exact he e hm h1

/-- If the filter names `SPACE`, every text of words with single spaces between them, each known, unknown or taken apart, in which no
word of the lexicon that contains a space occurs, is such an address. -/
theorem C107_joined (u : UTables) (es : List LexEntry) (filter : Str) (hf : FilterNames filter .SPACE)
    (hw : u.isWord ' ' = false ∧ u.isWord (u.fold ' ') = false ∧ u.canon ' ' = ' ') (vs : List Str) (parts : Str → List Str)
    (he : ∀ e ∈ es, ' ' ∈ e.word → ¬ e.word <:+: (joinWith c!" " vs).map u.canon)
    (hv : ∀ v ∈ vs, WordRead u es v (parts v) ∧ (∃ c, v.getLast? = some c ∧ ¬ SepChar u c) ∧
      ∀ c ∈ v, lineSeparator c = false) : InWords u es filter (joinWith c!" " vs) (vs.flatMap parts) := by
  have hrun : ∀ v : Str, RunOf (fun c => u.alpha (u.fold c) || u.digit (u.fold c)) v → (∀ c ∈ v, ¬ SepChar u c ∧ c ≠ '/' ∧ c ≠ ',' ∧ c ≠ '.') →
      ∃ c, v.head? = some c ∧ ¬ SepChar u c := by
    intro v h1 h2
    obtain ⟨c, t, e⟩ := List.exists_cons_of_ne_nil h1.1
    exact ⟨c, by rw [e]; rfl, (h2 c (by rw [e]; simp)).1⟩
  have hhead : ∀ v ps, WordRead u es v ps → ∃ c, v.head? = some c ∧ ¬ SepChar u c := by
    intro v ps h
    cases h with
    | whole h =>
      rcases h with h | h
      · exact h.first
      · exact hrun v h.chars h.plain
    | parts h _ => exact hrun v h.chars h.plain
  induction vs with
  | nil => exact .nil
  | cons v vs ih =>
    obtain ⟨h1, h2, h3⟩ := hv v (by simp)
    cases vs with
    | nil => rw [List.flatMap_cons, List.flatMap_nil, List.append_nil]; exact .last h1
    | cons w vs =>
      have hj : joinWith c!" " (v :: w :: vs) = v ++ (c!" " ++ joinWith c!" " (w :: vs)) := by
        rw [joinWith, List.append_assoc]
      rw [hj] at he ⊢
      rw [List.flatMap_cons]
      have ih := ih (fun e hm hs hi => he e hm hs (hi.trans (by
          simp only [List.map_append]
          exact ((List.suffix_append _ _).trans (List.suffix_append _ _)).isInfix)))
        fun w hw => hv w (List.mem_cons_of_mem _ hw)
      have hsp : SepChar u ' ' := Or.inr (Or.inr (Or.inl (u.cspace_space _ (by decide))))
      have hone : ∀ e ∈ es, e.word ≠ c!" " := by
        intro e hm hc
        have k := he e hm (by rw [hc]; simp)
        rw [hc, List.map_append, List.map_append, List.map_singleton, hw.2.2, ← List.append_assoc] at k
        exact k ⟨_, _, rfl⟩
      refine .more h1 ⟨h2, by simp, ?_, ?_, ?_, ?_, ?_⟩ (C107_spaces u es filter _ (by simp) hf hw.1 hone) ih
      · intro c hc
        rw [List.mem_singleton.1 hc]
        exact ⟨hsp, by decide, hw.1, hw.2.1⟩
      · intro c hc
        obtain ⟨h1', _, _⟩ := hv w (by simp)
        obtain ⟨d, hd, hns⟩ := hhead w _ h1'
        have : (joinWith c!" " (w :: vs)).head? = some d := by
          obtain ⟨x, t, e⟩ := List.exists_cons_of_ne_nil (l := w) (by rintro rfl; cases hd)
          subst e
          cases vs with
          | nil => exact hd
          | cons => simp only [joinWith]; exact hd
        rw [this] at hc
        cases hc
        exact hns
      · intro c hc
        rcases List.mem_append.1 hc with hc | hc
        · rcases List.mem_append.1 hc with hc | hc
          · exact h3 c hc
          · rw [List.mem_singleton.1 hc]; decide
        · rcases mem_joined hc with ⟨p, hp, hc⟩ | hc
          · exact (hv p (List.mem_cons_of_mem _ hp)).2.2 c hc
          · rw [List.mem_singleton.1 hc]; decide
      · intro x c d e hx
        simp only [List.cons.injEq, and_true] at e
        subst e
        exact absurd hx (by decide)
      · intro x y z e l1 l2 hm
        obtain ⟨en, hen, hwd⟩ := List.mem_map.1 hm
        have hy : ' ' ∈ y := by
          have hg : (x ++ y ++ z)[v.length]? = some ' ' := by rw [← e]; simp
          rw [List.append_assoc, List.getElem?_append_right (by omega), List.getElem?_append_left (by omega)] at hg
          exact List.mem_of_getElem? hg
        refine he en hen (by rw [hwd]; exact List.mem_map.2 ⟨' ', hy, hw.2.2⟩) ?_
        rw [hwd, ← List.append_assoc, e, List.map_append, List.map_append]
        exact ⟨_, _, rfl⟩

/-! ### Examples -/

/-- The same if no word is taken apart. -/
theorem joined_whole (u : UTables) (es : List LexEntry) (filter : Str) (hf : FilterNames filter .SPACE)
    (hw : u.isWord ' ' = false ∧ u.isWord (u.fold ' ') = false ∧ u.canon ' ' = ' ') (vs : List Str)
    (he : ∀ e ∈ es, ' ' ∈ e.word → ¬ e.word <:+: (joinWith c!" " vs).map u.canon)
    (hv : ∀ v ∈ vs, (Familiar u es v ∨ Unknown u es v) ∧ (∃ c, v.getLast? = some c ∧ ¬ SepChar u c) ∧
      ∀ c ∈ v, lineSeparator c = false) : InWords u es filter (joinWith c!" " vs) vs := by
  have := C107_joined u es filter hf hw vs (fun v => [v]) he fun v h => ⟨.whole (hv v h).1, (hv v h).2⟩
  rwa [show vs.flatMap (fun v => [v]) = vs by simp] at this

/-- The entries without the phrase. -/
def wordText : Str := unlines [c!"LEXICON:\tT\tENG\ten\t2", c!"LEXENTRY:\tSTR\tSTRASSE\tTYPE\t", c!"LEXENTRY:\tSTREET\tSTRASSE\tTYPE\t",
  c!"LEXENTRY:\tYORK\tYORK\tCITY\t"]

def wordEntries : List LexEntry := [eStr, eStreet, eYork]

theorem wordText_means : LexText asciiIcu wordText c!"LEXICON:\tT\tENG\ten\t2" wordEntries := by
  refine ⟨_, _, c!"LEXICON:\tT\tENG\ten\t2", _, rfl, .plain (by decide), ⟨[], rfl, by decide, by decide⟩, by decide, by decide +kernel, ?_⟩
  exact .entry (l := c!"LEXENTRY:\tSTR\tSTRASSE\tTYPE\t") (Or.inl (by decide)) (by decide +kernel)
      (.entry (l := c!"LEXENTRY:\tSTREET\tSTRASSE\tTYPE\t") (Or.inl (by decide)) (by decide +kernel)
        (.entry (l := c!"LEXENTRY:\tYORK\tYORK\tCITY\t") (Or.inl (by decide)) (by decide +kernel) (.blank .nil)))

/-- Their classes. -/
def wordClasses (v : Str) : List InType :=
  if v = c!"12" ∨ v = c!"139" then [.NUMBER] else if v = c!"STR" ∨ v = c!"STREET" then [.TYPE] else if v = c!"YORK" then [.CITY] else [.WORD]

theorem unknown_letters {v : Str} (h : v ≠ [] ∧ (∀ c ∈ v, asciiU.alpha (asciiU.fold c) = true ∧ asciiU.isWord c = true ∧ asciiU.digit c = false ∧
    ¬ SepChar asciiU c ∧ c ≠ '/' ∧ c ≠ ',' ∧ c ≠ '.') ∧ ∀ e ∈ wordEntries, e.word ≠ v ∧ e.word ≠ v.map asciiU.canon) :
    Unknown asciiU wordEntries v := by
  refine (C100_letters asciiU wordEntries v v ?_ (Or.inl rfl)).left
  rintro z (rfl | rfl) <;> exact ⟨h.1, h.2.1, h.2.2, ascii_noPrefix _ (by decide +kernel) _, noSuffix_none _ (by decide +kernel) _⟩

theorem unknown_digits {v : Str} (h : v ≠ [] ∧ (∀ c ∈ v, asciiU.digit c = true ∧ ¬ SepChar asciiU c ∧ c ≠ '/') ∧
    ∀ e ∈ wordEntries, e.word ≠ v ∧ e.word ≠ v.map asciiU.canon) : Unknown asciiU wordEntries v := by
  refine (C100_numbers asciiU wordEntries v v ?_ (Or.inl rfl)).left
  rintro z (rfl | rfl) <;> exact ⟨h.1, h.2.1, h.2.2, ascii_noPrefix _ (by decide +kernel) _, noSuffix_none _ (by decide +kernel) _⟩

theorem word_familiar {v : Str} (h : ∃ c, v.head? = some c ∧ ¬ SepChar asciiU c) (hc : ∃ c, standardOf wordEntries v c ≠ none)
    (hb : ∀ c ∈ v, c ≠ ' ' ∧ c ≠ '\t') : Familiar asciiU wordEntries v := ⟨h, hc, hb⟩

theorem classOf_unknown {v : Str} (h : Unknown asciiU wordEntries v) (c : InType) :
    ClassOf asciiU wordEntries .WORD v c ↔ FirstShape (shapes asciiU .WORD) v c := by
  have h0 : ∀ d, standardOf wordEntries v d = none := by
    intro d
    rw [← Option.not_isSome_iff_eq_none, standardOf_some]
    rintro ⟨e, he, h1, _⟩
    exact (h.unlisted e he).1 h1
  unfold ClassOf
  simp [h0]

theorem classOf_familiar {v : Str} {d : InType} (h : ∀ c, standardOf wordEntries v c ≠ none ↔ c = d) (c : InType) :
    ClassOf asciiU wordEntries .WORD v c ↔ c = d := by
  unfold ClassOf
  rw [h]
  refine ⟨fun k => k.elim id fun k => absurd (k.1 d) ((h d).2 rfl), Or.inl⟩

theorem words_each : ∀ v, v = c!"12" ∨ v = c!"139" ∨ v = c!"MAIN" ∨ v = c!"ELM" ∨ v = c!"STR" ∨ v = c!"STREET" →
    ((Familiar asciiU wordEntries v ∨ Unknown asciiU wordEntries v) ∧ (∃ c, v.getLast? = some c ∧ ¬ SepChar asciiU c) ∧
      ∀ c ∈ v, lineSeparator c = false) ∧ ∀ c, c ∈ wordClasses v ↔ ClassOf asciiU wordEntries .WORD v c := by
  rintro v (rfl | rfl | rfl | rfl | rfl | rfl)
  · have h : Unknown asciiU wordEntries c!"12" := unknown_digits (by decide +kernel)
    refine ⟨⟨Or.inr h, ⟨'2', rfl, by decide⟩, by decide⟩, fun c => ?_⟩
    rw [classOf_unknown h, shape_digits ⟨by decide, by decide⟩]
    cases c <;> decide +kernel
  · have h : Unknown asciiU wordEntries c!"139" := unknown_digits (by decide +kernel)
    refine ⟨⟨Or.inr h, ⟨'9', rfl, by decide⟩, by decide⟩, fun c => ?_⟩
    rw [classOf_unknown h, shape_digits ⟨by decide, by decide⟩]
    cases c <;> decide +kernel
  · have h : Unknown asciiU wordEntries c!"MAIN" := unknown_letters (by decide +kernel)
    refine ⟨⟨Or.inr h, ⟨'N', rfl, by decide⟩, by decide⟩, fun c => ?_⟩
    rw [classOf_unknown h, shape_letters (by decide) (by decide) (by decide)]
    cases c <;> decide +kernel
  · have h : Unknown asciiU wordEntries c!"ELM" := unknown_letters (by decide +kernel)
    refine ⟨⟨Or.inr h, ⟨'M', rfl, by decide⟩, by decide⟩, fun c => ?_⟩
    rw [classOf_unknown h, shape_letters (by decide) (by decide) (by decide)]
    cases c <;> decide +kernel
  · refine ⟨⟨Or.inl (word_familiar ⟨'S', rfl, by decide⟩ ⟨.TYPE, by decide +kernel⟩ (by decide)), ⟨'R', rfl, by decide⟩, by decide⟩, fun c => ?_⟩
    rw [classOf_familiar (d := .TYPE) (by intro c; cases c <;> decide +kernel)]
    cases c <;> decide +kernel
  · refine ⟨⟨Or.inl (word_familiar ⟨'S', rfl, by decide⟩ ⟨.TYPE, by decide +kernel⟩ (by decide)), ⟨'T', rfl, by decide⟩, by decide⟩, fun c => ?_⟩
    rw [classOf_familiar (d := .TYPE) (by intro c; cases c <;> decide +kernel)]
    cases c <;> decide +kernel

theorem plain_example {address : Str} {x y z : Str} (hx : x = c!"12" ∨ x = c!"139") (hy : y = c!"MAIN" ∨ y = c!"ELM")
    (hz : z = c!"STR" ∨ z = c!"STREET")
    (h : textFor readingEnv c!"en" (headerLocale c!"LEXICON:\tT\tENG\ten\t2") address = joinWith c!" " [x, y, z]) :
    PlainAddress readingEnv wordText c!"en" c!"SPACE" address wordEntries wordClasses [x, y, z] := by
  have hall : ∀ v ∈ [x, y, z], v = c!"12" ∨ v = c!"139" ∨ v = c!"MAIN" ∨ v = c!"ELM" ∨ v = c!"STR" ∨ v = c!"STREET" := by
    intro v hv
    simp only [List.mem_cons, List.not_mem_nil, or_false] at hv
    rcases hv with rfl | rfl | rfl
    · rcases hx with h | h <;> simp [h]
    · rcases hy with h | h <;> simp [h]
    · rcases hz with h | h <;> simp [h]
  refine ⟨rfl, by decide +kernel, ⟨eStr, by simp [wordEntries], by decide⟩, _, [x, y, z], wordText_means, ?_, ?_, ?_⟩
  · rw [h]
    exact joined_whole asciiU wordEntries c!"SPACE" (by decide +kernel) (by decide +kernel) _
      (fun e he hs => absurd hs (by revert e; decide +kernel)) fun v hv => (words_each v (hall v hv)).1
  · intro v hv
    refine ⟨?_, ?_, (words_each v (hall v hv)).2⟩
    all_goals (rcases hall v hv with rfl | rfl | rfl | rfl | rfl | rfl <;> decide +kernel)
  · rcases hx with rfl | rfl <;> rcases hy with rfl | rfl <;> rcases hz with rfl | rfl <;> decide +kernel

/-- Two such addresses; their words have the same classes. -/
example : ReadsPatterns readingEnv ∧
    PlainAddress readingEnv wordText c!"en" c!"SPACE" c!"12 Main Str" wordEntries wordClasses [c!"12", c!"MAIN", c!"STR"] ∧
    PlainAddress readingEnv wordText c!"en" c!"SPACE" c!"139 elm street" wordEntries wordClasses [c!"139", c!"ELM", c!"STREET"] ∧
    [c!"139", c!"ELM", c!"STREET"].map wordClasses = [c!"12", c!"MAIN", c!"STR"].map wordClasses ∧
    sizeProd ([c!"12", c!"MAIN", c!"STR"].map wordClasses) < 2 ^ 32 :=
  ⟨readingEnv_reads, plain_example (Or.inl rfl) (Or.inl rfl) (Or.inl rfl) rfl, plain_example (Or.inr rfl) (Or.inr rfl) (Or.inr rfl) rfl,
    by decide +kernel, by decide +kernel⟩

/-- What they have in the fields when read as house number, street and type. -/
example : let os := [OutType.HOUSE, .STREET, .SUFTYP]
    let is := [InType.NUMBER, .WORD, .TYPE]
    fieldWords wordEntries .name [c!"139", c!"ELM", c!"STREET"] is os = [c!"ELM"] ∧
    fieldWords wordEntries .suftype [c!"139", c!"ELM", c!"STREET"] is os = [c!"STRASSE"] ∧
    asField (fieldWords wordEntries .city [c!"139", c!"ELM", c!"STREET"] is os) = none := by decide +kernel

/-- A house number with a letter is read as two words. -/
theorem mixed_read : WordRead asciiU wordEntries c!"12B" [c!"12", c!"B"] := by
  have h : FirstShape (shapes asciiU .WORD) c!"12B" .MIXED :=
    ((C13_by_shape asciiU ({} : Lexicon) { text := c!"12B" } .WORD rfl (by decide +kernel)).1 .MIXED).1 (by decide +kernel)
  exact .parts ⟨⟨by decide, by decide⟩, by decide, by decide +kernel⟩
    (.letterBehind (ds := c!"12") (c := 'B') h (by decide) rfl ⟨by decide, by decide⟩ (by decide))

example : InWords asciiU wordEntries c!"SPACE" c!"12B MAIN STR" [c!"12", c!"B", c!"MAIN", c!"STR"] := by
  refine C107_joined asciiU wordEntries c!"SPACE" (by decide +kernel) (by decide +kernel) [c!"12B", c!"MAIN", c!"STR"]
    (fun v => if v = c!"12B" then [c!"12", c!"B"] else [v]) (fun e he hs => absurd hs (by revert e; decide +kernel)) fun v hv => ?_
  simp only [List.mem_cons, List.not_mem_nil, or_false] at hv
  rcases hv with rfl | rfl | rfl
  · exact ⟨mixed_read, ⟨'B', rfl, by decide⟩, by decide⟩
  · exact ⟨.whole (words_each c!"MAIN" (by simp)).1.1, (words_each c!"MAIN" (by simp)).1.2⟩
  · exact ⟨.whole (words_each c!"STR" (by simp)).1.1, (words_each c!"STR" (by simp)).1.2⟩

end AS.Props
