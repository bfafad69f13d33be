import Verif.Lemmas.Elision
/-
The same results with lexicons that differ only in words that end in a mark.
-/
namespace AS
open Tokenizer

variable {u : UTables} {q : Char}

theorem ite_or {p : Prop} [Decidable p] {a b : Token} {x y : Str} (ha : a.text = x ∨ a.text = y) (hb : b.text = x ∨ b.text = y) :
    (if p then a else b).text = x ∨ (if p then a else b).text = y := by
  split
  · exact ha
  · exact hb

theorem byShape_or (u : UTables) (t : Token) : (Lexicon.byShape u t).text = t.text ∨ (Lexicon.byShape u t).text = firstComma t.text := by
  have hadd : ∀ {t' : Token} (c : InType), (t'.text = t.text ∨ t'.text = firstComma t.text) →
      ((t'.addClass c).text = t.text ∨ (t'.addClass c).text = firstComma t.text) := fun _ h => h
  unfold Lexicon.byShape
  refine ite_or (Or.inr rfl) ?_
  repeat' first
    | exact Or.inl rfl
    | refine hadd _ ?_
    | refine ite_or ?_ ?_

theorem classify_or (u : UTables) (l : Lexicon) (t : Token) (d : InType) :
    (l.classify u t d).text = t.text ∨ (l.classify u t d).text = firstComma t.text := by
  have h1 : (Lexicon.addTypes (l.find t.text) t).text = t.text := (addTypes_keeps _ _).1
  unfold Lexicon.classify
  simp only
  split
  · exact Or.inl h1
  · have h2 := byShape_or u { Lexicon.addTypes (l.find t.text) t with inlex := false }
    change (Lexicon.byShape u { Lexicon.addTypes (l.find t.text) t with inlex := false }).text =
        (Lexicon.addTypes (l.find t.text) t).text ∨ (Lexicon.byShape u { Lexicon.addTypes (l.find t.text) t with inlex := false }).text =
        firstComma (Lexicon.addTypes (l.find t.text) t).text at h2
    generalize Lexicon.byShape u { Lexicon.addTypes (l.find t.text) t with inlex := false } = b at h2 ⊢
    rw [h1] at h2
    split
    · exact h2
    · exact h2

/-- A word with a class in the lexicon. -/
theorem classify_inlex (u : UTables) (l : Lexicon) (t : Token) (d : InType) (h : ∃ e ∈ l.find t.text, e.type ≠ []) :
    (l.classify u t d).inlex = true ∧ (l.classify u t d).text = t.text := by
  have hne : (Lexicon.addTypes (l.find t.text) t).inclass ≠ [] := by
    obtain ⟨e, he, h0⟩ := h
    obtain ⟨c, hc⟩ := List.exists_mem_of_ne_nil _ h0
    intro hn
    have := (mem_addTypes c (l.find t.text) t).2 (Or.inr ⟨e, he, hc⟩)
    rw [hn] at this
    cases this
  unfold Lexicon.classify
  simp only
  rw [if_pos (by simpa using hne)]
  exact ⟨rfl, (addTypes_keeps _ _).1⟩

/-- Not a word that ends in the mark. -/
def Good (u : UTables) (q : Char) (s : Str) : Prop := ¬ Elided u q s

variable {l l' : Lexicon} {x x' : LexRe}

theorem wordToken_good (hf : FindsSame (Good u q) l l') {w : Str} (ht : '\t' ∉ w) (hw : ¬ Elided u q w) :
    wordToken u l w = wordToken u l' w :=
  classify_same hf u (by rw [Props.ofText_text ht]; exact hw) (ofText_isSet _) _

theorem wordToken_texts (hq : Mark u q) (l : Lexicon) {w : Str} (ht : '\t' ∉ w) (hw : ¬ Elided u q w) :
    ¬ Elided u q (wordToken u l w).text := by
  have h := classify_or u l (Token.ofText w) .WORD
  rw [Props.ofText_text ht] at h
  unfold wordToken
  rcases h with h | h
  · rw [h]; exact hw
  · rw [h]; exact firstComma_not_elided hq hw

/-- Without the mark, or one blank. -/
def NoMark (q : Char) (s : Str) : Prop := q ∉ s ∨ s = [' ']

theorem noMark_closed (hq : Mark u q) : TextClosed (NoMark q) where
  nil := Or.inl (by simp)
  blank := Or.inr rfl
  sub := by
    rintro a b c (h | h)
    · exact Or.inl fun hb => h (by simp [hb])
    · cases b with
      | nil => exact Or.inl (by simp)
      | cons d b =>
        right
        cases a with
        | cons e a =>
          have := congrArg List.length h
          simp at this
        | nil =>
          simp only [List.nil_append, List.cons_append, List.cons.injEq, List.append_eq_nil_iff] at h
          rw [h.1, h.2.1]
  comma := by
    rintro s (h | rfl)
    · left
      intro hm
      exact firstComma_of (P := fun c => c ≠ q) (fun e => hq.plain.2.2 e.symm) (s := s) (fun c hc e => h (e ▸ hc)) q hm rfl
    · right; decide

theorem outer_blank (u : UTables) : Outer u [' '] := fun c hc => by
  rw [List.mem_singleton.1 hc]; exact Or.inl (sepChar_blank u)

theorem NoMark.not_elided {s : Str} (h : NoMark q s) : ¬ Elided u q s := by
  rcases h with h | rfl
  · exact not_elided_of_no_mark h
  · exact not_elided_of_outer (outer_blank u)

theorem NoMark.fine {s : Str} (ht : '\t' ∉ s) (h : NoMark q s) : Fine u q s := by
  rcases h with h | rfl
  · exact fine_of_no_mark ht h
  · exact fine_of_outer ht (outer_blank u)

theorem noTab_closed : TextClosed (fun s => '\t' ∉ s) where
  nil := by simp
  blank := by decide
  sub := fun a b c h hb => h (by simp [hb])
  comma := by
    intro s h hm
    exact firstComma_of (P := fun c => c ≠ '\t') (by decide) (s := s) (fun c hc e => h (e ▸ hc)) _ hm rfl

/-- What two lexicons that differ only in words with the mark at the end must have in common. -/
structure SameBut (u : UTables) (q : Char) (l l' : Lexicon) (x x' : LexRe) : Prop where
  finds : FindsSame (Good u q) l l'
  matches_ : MatchSame (NoMark q) u x x'
  words : AgreeBut u q (lexWords l) (lexWords l')
  classed : ∀ w ∈ lexWords l, ∃ e ∈ l.find w, e.type ≠ []

/-- The tokens of a round. -/
theorem round_same (hq : Mark u q) (h : SameBut u q l l' x x') {r : Round} {xx rest y : Str} {k : Kind} {c d : Option Char}
    (htab : '\t' ∉ xx ++ r.word ++ r.sep ++ rest) (hcanon : ∀ c ∈ xx ++ r.word ++ r.sep ++ rest, u.canon c = c)
    (hs : Elides u q (xx ++ r.word ++ r.sep ++ rest)) (hk : Kind.Is u (lexWords l) k c r.word d)
    (hsep : IsSeparator u r.sep ∨ (r.sep = [] ∧ LineEnd y rest)) :
    roundTokens u l x r = roundTokens u l' x' r ∧ ∀ t ∈ roundTokens u l x r, Fine u q t.text := by
  have tw : '\t' ∉ r.word := fun hm => htab (by simp [hm])
  have ts : '\t' ∉ r.sep := fun hm => htab (by simp [hm])
  have hout : Outer u r.sep := by
    rcases hsep with h | ⟨h, _⟩
    · exact fun c hc => Or.inl ((separator_char h).2 c hc)
    · rw [h]; exact fun c hc => by cases hc
  have hst : Outer u ((Token.ofText r.sep).trim 3).text := trim_text (outer_closed u) (ofText_text (outer_closed u) hout) 3
  have hsame : l.classify u ((Token.ofText r.sep).trim 3) .PUNCT = l'.classify u ((Token.ofText r.sep).trim 3) .PUNCT :=
    classify_same h.finds u (not_elided_of_outer hst) (trim_isSet _ _) _
  have hstab : '\t' ∉ (l.classify u ((Token.ofText r.sep).trim 3) .PUNCT).text :=
    classify_text noTab_closed u l (trim_text noTab_closed (ofText_text noTab_closed ts) 3) _
  have hsfine : Fine u q (l.classify u ((Token.ofText r.sep).trim 3) .PUNCT).text :=
    fine_of_outer hstab (classify_text (outer_closed u) u l hst _)
  by_cases hm : q ∈ r.word
  · have hkp : k = .phrase := Classical.byContradiction fun hne => kind_no_mark hq hk hne hm
    subst hkp
    have hw0 : r.word ≠ [] := List.ne_nil_of_mem hm
    have hmap : r.word.map u.canon = r.word := by
      conv => rhs; rw [← List.map_id r.word]
      exact List.map_congr_left fun c hc => hcanon c (by simp [hc])
    have hin : r.word ∈ lexWords l := by
      rcases hk with ⟨_, h2⟩ | ⟨_, h2⟩
      · rw [hmap] at h2; exact h2
      · exact absurd h2 hw0
    have hlast := read_not_elided hs hsep
    have hgood : ¬ Elided u q r.word := fun he => hlast he.1
    have hwt := wordToken_good h.finds tw hgood
    have hcl := classify_inlex u l (Token.ofText r.word) .WORD (by rw [Props.ofText_text tw]; exact h.classed _ hin)
    rw [Props.ofText_text tw] at hcl
    have hE : Elides u q r.word := by
      intro a b e
      obtain ⟨c, h1, h2⟩ := hs (xx ++ a) (b ++ r.sep ++ rest) (by rw [e]; simp)
      cases b with
      | nil => exact absurd (by rw [e]; simp) hlast
      | cons z b => exact ⟨c, by simpa using h1, h2⟩
    have hfine : Fine u q (wordToken u l r.word).text := by
      unfold wordToken
      rw [hcl.2]
      exact fine_of_elides tw hE
    have hinl : (wordToken u l r.word).inlex = true := hcl.1
    have hinl' : (wordToken u l' r.word).inlex = true := by rw [← hwt]; exact hinl
    unfold roundTokens
    simp only [if_pos hw0, hinl, hinl', if_true]
    refine ⟨by rw [hwt, hsame], fun t ht => ?_⟩
    rcases List.mem_append.1 ht with ht | ht
    · rw [List.mem_singleton.1 ht]; exact hfine
    · split at ht
      · rw [List.mem_singleton.1 ht]; exact hsfine
      · cases ht
  · have hS := noMark_closed hq
    have hf : FindsSame (NoMark q) l l' := fun w hw => h.finds w hw.not_elided
    have hm : NoMark q r.word := Or.inl hm
    constructor
    · unfold roundTokens
      simp only
      rw [← wordToken_same hS hf u hm, ← splitToken_same hS hf h.matches_ (wordToken_text hS u l hm), ← hsame]
    · intro t ht
      unfold roundTokens at ht
      rcases List.mem_append.1 ht with ht | ht
      · split at ht
        · simp only at ht
          have h1 := wordToken_text hS u l hm
          have h2 := wordToken_text noTab_closed u l tw
          split at ht
          · rw [List.mem_singleton.1 ht]; exact NoMark.fine h2 h1
          · split at ht
            · exact NoMark.fine (splitToken_texts noTab_closed u l x h2 t ht) (splitToken_texts hS u l x h1 t ht)
            · rw [List.mem_singleton.1 ht]; exact NoMark.fine h2 h1
        · cases ht
      · split at ht
        · rw [List.mem_singleton.1 ht]; exact hsfine
        · cases ht

theorem tokens_same (hq : Mark u q) (h : SameBut u q l l' x x') (hl : PlainLexicon u l) (hl' : PlainLexicon u l')
    (hx : x.For u l) (hx' : x'.For u l') (hne : ∃ w ∈ lexWords l, w ≠ []) (hne' : ∃ w ∈ lexWords l', w ≠ [])
    (hloc : l.locale = l'.locale) {icu : Icu} {f : List InType} {str : Str} (htab : '\t' ∉ prepare icu l str)
    (hcanon : ∀ c ∈ prepare icu l str, u.canon c = c) (hs : Elides u q (prepare icu l str)) :
    getTokens icu u l x f str = getTokens icu u l' x' f str ∧
      ∀ ts, getTokens icu u l x f str = some ts → ∀ t ∈ ts, Fine u q t.text := by
  obtain ⟨qs, last, h1, h2⟩ := getTokens_spec icu u l x f str
  obtain ⟨qs', last', h1', h2'⟩ := getTokens_spec icu u l' x' f str
  have hp : prepare icu l' str = prepare icu l str := by unfold prepare; rw [hloc]
  rw [hp] at h1'
  have g1 := rounds_splits hl hx h1
  have g2 := splits_agree hq h.words.symm hne' hne hs (rounds_splits hl' hx' h1')
  obtain ⟨rfl, rfl⟩ := splitsInto_unique g1 g2
  have key : ∀ r ∈ qs, roundTokens u l x r = roundTokens u l' x' r ∧ ∀ t ∈ roundTokens u l x r, Fine u q t.text := by
    intro r hr
    obtain ⟨xx, rest, k, c, d, y, e, hk, hsep⟩ := splits_rounds g1 r hr
    rw [e] at htab hcanon hs
    exact round_same hq h htab hcanon hs hk hsep
  rw [h2, h2', flatMap_congr' (fun r hr => (key r hr).1)]
  refine ⟨rfl, fun ts hts t ht => ?_⟩
  rw [Option.some.injEq] at hts
  subst hts
  obtain ⟨r, hr, hr'⟩ := List.mem_flatMap.1 (applyFilter_sub _ _ _ ht)
  rw [← (key r hr).1] at hr'
  exact (key r hr).2 t hr'

theorem altOne_good (hq : Mark u q) (h : FindsSame (Good u q) l l') (i : Nat) :
    ∀ (ts : List Token) (n : Nat), (∀ t ∈ ts, Fine u q t.text) →
    altOne u l i n (ts.map (fun t => (t, splitBlanks false [] t.text))) =
      altOne u l' i n (ts.map (fun t => (t, splitBlanks false [] t.text))) ∧
    ∀ r, altOne u l i n (ts.map (fun t => (t, splitBlanks false [] t.text))) = some r → ∀ t ∈ r, ¬ Elided u q t.text
  | [], n, _ => ⟨rfl, fun r hr => by
      simp only [List.map_nil, altOne, Option.some.injEq] at hr
      subst hr; intro t ht; cases ht⟩
  | t :: ts, n, hall => by
    obtain ⟨ht0, ht1, ht2⟩ := hall t (List.mem_cons_self ..)
    have ih := fun n => altOne_good hq h i ts n (fun x hx => hall x (List.mem_cons_of_mem _ hx))
    have htab : ∀ w ∈ splitBlanks false [] t.text, '\t' ∉ w := by
      intro w hw hm
      obtain ⟨_, a, b, e⟩ := wordsOf_parts hw
      exact ht0 (by rw [e]; simp [hm])
    have hm : (splitBlanks false [] t.text).map (wordToken u l) = (splitBlanks false [] t.text).map (wordToken u l') :=
      List.map_congr_left fun w hw => wordToken_good h (htab w hw) (ht2 w hw)
    constructor
    · rw [List.map_cons, altOne, altOne, (ih n).1, (ih (n + 1)).1, hm]
    · have keep : ∀ m r, (altOne u l i m (ts.map (fun t => (t, splitBlanks false [] t.text)))).map (t :: ·) = some r →
          ∀ t ∈ r, ¬ Elided u q t.text := by
        intro m r hr
        obtain ⟨r', hr', rfl⟩ := Option.map_eq_some_iff.1 hr
        intro x hx
        rcases List.mem_cons.1 hx with rfl | hx
        · exact ht1
        · exact (ih m).2 r' hr' x hx
      intro r hr
      rw [List.map_cons, altOne] at hr
      split at hr
      · exact keep _ _ hr
      · split at hr
        · cases hr
        · split at hr
          · exact keep _ _ hr
          · obtain ⟨r', hr', rfl⟩ := Option.map_eq_some_iff.1 hr
            intro x hx
            rcases List.mem_append.1 hx with hx | hx
            · obtain ⟨w, hw, rfl⟩ := List.mem_map.1 hx
              exact wordToken_texts hq l (htab w hw) (ht2 w hw)
            · exact (ih _).2 r' hr' x hx

theorem altTokens_good (hq : Mark u q) (h : FindsSame (Good u q) l l') {ts : List Token} (hts : ∀ t ∈ ts, Fine u q t.text) :
    getAltTokens u l ts = getAltTokens u l' ts ∧
      ∀ alts, getAltTokens u l ts = some alts → ∀ a ∈ alts, ∀ t ∈ a, ¬ Elided u q t.text := by
  constructor
  · unfold getAltTokens
    simp only
    rw [mapM_congr' (fun i => (altOne_good hq h i ts 0 hts).1)]
  · intro alts ha
    unfold getAltTokens at ha
    simp only at ha
    split at ha
    · injection ha with ha; subst ha; intro a h; cases h
    · split at ha
      · cases ha
      · intro a hm
        obtain ⟨i, _, e⟩ := mapM_some ha a hm
        exact (altOne_good hq h i ts 0 hts).2 a e

variable {F D : Type}

/-- Functions that are given a lexicon: the same token lists, and the same entries for their texts. -/
theorem address_same_of {S : Str → Prop} {env : Wrapper.Env F D} {l l' : Lexicon} (h : FindsSame S l l') {locale filter address : Str}
    (e : Wrapper.phrasesOf env l locale filter address = Wrapper.phrasesOf env l' locale filter address)
    (ht : ∀ phrases, Wrapper.phrasesOf env l locale filter address = .ok phrases → ∀ phrase ∈ phrases, ∀ t ∈ phrase, S t.text)
    (g : Grammar F) :
    Wrapper.standardizeAddr env g l locale filter address = Wrapper.standardizeAddr env g l' locale filter address ∧
    Wrapper.parseAddr env l locale filter address = Wrapper.parseAddr env l' locale filter address ∧
    Wrapper.matchAddr env g l locale filter address = Wrapper.matchAddr env g l' locale filter address := by
  refine ⟨?_, ?_, ?_⟩
  · unfold Wrapper.standardizeAddr Wrapper.standardizeAddrWith
    rw [← e]
    split
    · rfl
    · rfl
    · next phrases hp =>
      split
      · rfl
      · rfl
      · next b hb =>
        have ht : ∀ t ∈ b.tokens, S t.text := bestOf_of (Q := fun t => S t.text) (fun _ _ _ h => h) (ht phrases hp) hb
        rw [collect_same h b.tokens _ ht]
  · unfold Wrapper.parseAddr
    rw [e]
  · unfold Wrapper.matchAddr
    rw [e]

theorem phrases_good {env : Wrapper.Env F D} (hq : Mark env.u q)
    (h : SameBut env.u q l l' (Wrapper.lexRe env l) (Wrapper.lexRe env l')) (hl : PlainLexicon env.u l) (hl' : PlainLexicon env.u l')
    (hx : (Wrapper.lexRe env l).For env.u l) (hx' : (Wrapper.lexRe env l').For env.u l') (hne : ∃ w ∈ lexWords l, w ≠ [])
    (hne' : ∃ w ∈ lexWords l', w ≠ []) (hloc : l.locale = l'.locale) {locale filter address : Str}
    (htab : '\t' ∉ textOf env l locale address) (hcanon : ∀ c ∈ textOf env l locale address, env.u.canon c = c)
    (hs : Elides env.u q (textOf env l locale address)) :
    Wrapper.phrasesOf env l locale filter address = Wrapper.phrasesOf env l' locale filter address ∧
      ∀ phrases, Wrapper.phrasesOf env l locale filter address = .ok phrases → ∀ phrase ∈ phrases, ∀ t ∈ phrase,
        ¬ Elided env.u q t.text := by
  obtain ⟨h1, h2⟩ := tokens_same hq h hl hl' hx hx' hne hne' hloc (icu := env.icu) (f := InType.asType filter)
    (str := env.icu.upper locale (env.icu.norm address)) htab hcanon hs
  unfold Wrapper.phrasesOf
  simp only
  rw [← h1]
  split
  · exact ⟨rfl, fun _ hp => by cases hp⟩
  · next ts hts =>
    obtain ⟨h3, h4⟩ := altTokens_good hq h.finds (h2 ts hts)
    rw [← h3]
    refine ⟨rfl, fun phrases hp => ?_⟩
    split at hp
    · cases hp
    · next alts halts =>
      injection hp with hp
      subst hp
      intro phrase hm
      rcases List.mem_cons.1 hm with rfl | hm
      · exact fun t ht => (h2 _ hts t ht).2.1
      · exact h4 alts halts phrase hm

end AS
