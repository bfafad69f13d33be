import Verif.Lemmas.Alts
import Verif.Lemmas.TokenizerLoop
/-
Properties C08, C10, C11, C12: the tokenizer.
-/
namespace AS.Props
open AS.Tokenizer

/-! ## C08 -/

/-- The filter keeps, in order, the tokens none of whose classes is in it. -/
theorem C08_keeps (filter : List InType) (ts : List Token) :
    applyFilter filter ts = ts.filter (fun t => ∀ c ∈ t.inclass, c ∉ filter) := by
  have hany : ∀ (t : Token) (f : List InType), t.isInAnyClass f = true ↔ ∃ c ∈ t.inclass, c ∈ f := by
    intro t f
    induction f with
    | nil => simp [Token.isInAnyClass]
    | cons c f ih =>
      rw [Token.isInAnyClass]
      by_cases h : t.inclass.contains c = true
      · rw [if_pos h]
        simp only [true_iff]
        exact ⟨c, by simpa using h, List.mem_cons_self ..⟩
      · rw [if_neg h, ih]
        constructor
        · rintro ⟨d, h1, h2⟩; exact ⟨d, h1, List.mem_cons_of_mem _ h2⟩
        · rintro ⟨d, h1, h2⟩
          rcases List.mem_cons.1 h2 with rfl | h2
          · exact absurd (by simpa using h1) h
          · exact ⟨d, h1, h2⟩
  induction ts with
  | nil => rfl
  | cons t ts ih =>
    rw [applyFilter, List.filter_cons, ih]
    by_cases h : t.isInAnyClass filter = true
    · have : ¬ ∀ c ∈ t.inclass, c ∉ filter := by
        obtain ⟨c, h1, h2⟩ := (hany t filter).1 h
        exact fun hall => hall c h1 h2
      simp [h, this]
    · have : ∀ c ∈ t.inclass, c ∉ filter := fun c h1 h2 => h ((hany t filter).2 ⟨c, h1, h2⟩)
      have hn : t.isInAnyClass filter = false := by simpa using h
      have hd := decide_eq_true this
      rw [hn, if_pos hd]; rfl

/-- Filtering twice is filtering once. -/
theorem C08_idempotent (filter : List InType) (ts : List Token) :
    applyFilter filter (applyFilter filter ts) = applyFilter filter ts := by
  rw [C08_keeps, C08_keeps, List.filter_filter]; simp

/-- A bigger filter leaves fewer tokens. -/
theorem C08_monotone (f g : List InType) (ts : List Token) (h : ∀ c ∈ f, c ∈ g) :
    (applyFilter g ts).Sublist (applyFilter f ts) := by
  rw [C08_keeps, C08_keeps]
  have : ts.filter (fun t => ∀ c ∈ t.inclass, c ∉ g) =
      (ts.filter (fun t => ∀ c ∈ t.inclass, c ∉ f)).filter (fun t => ∀ c ∈ t.inclass, c ∉ g) := by
    rw [List.filter_filter]
    congr 1
    funext t
    rw [← Bool.decide_and]
    apply decide_eq_decide.2
    exact ⟨fun hg => ⟨hg, fun c hc hf => hg c hc (h c hf)⟩, fun hg => hg.1⟩
  rw [this]
  exact List.filter_sublist

/-- Filtering by a union is filtering successively; only what is in the filter matters. -/
theorem C08_union (f g fg : List InType) (ts : List Token) (h : ∀ c, c ∈ fg ↔ c ∈ f ∨ c ∈ g) :
    applyFilter fg ts = applyFilter g (applyFilter f ts) := by
  rw [C08_keeps, C08_keeps, C08_keeps, List.filter_filter]
  congr 1
  funext t
  rw [← Bool.decide_and]
  apply decide_eq_decide.2
  constructor
  · exact fun hall => ⟨fun c hc hg => hall c hc ((h c).2 (Or.inr hg)), fun c hc hf => hall c hc ((h c).2 (Or.inl hf))⟩
  · exact fun ⟨h1, h2⟩ c hc hfg => ((h c).1 hfg).elim (h2 c hc) (h1 c hc)

/-- Adding a class to the filter drops its tokens too; removing it stops that. -/
theorem C08_change (filter : List InType) (c : InType) (ts : List Token) :
    applyFilter (addFilter filter c) ts = applyFilter [c] (applyFilter filter ts) ∧
    (∀ d, d ∈ removeFilter filter c ↔ d ∈ filter ∧ d ≠ c) ∧
    applyFilter (addFilter (removeFilter filter c) c) ts = applyFilter (addFilter filter c) ts := by
  have hadd : ∀ f d, d ∈ addFilter f c ↔ d ∈ f ∨ d ∈ [c] := by
    intro f d
    rw [addFilter, mem_setInsert _ code_inj, List.mem_singleton]
    exact Or.comm
  refine ⟨C08_union _ _ _ _ (hadd filter), by simp [removeFilter], ?_⟩
  rw [C08_keeps, C08_keeps]
  congr 1
  funext t
  apply decide_eq_decide.2
  simp only [hadd, removeFilter, List.mem_filter, List.mem_singleton, decide_eq_true_eq]
  constructor
  · intro h d hd hf
    exact h d hd (by by_cases e : d = c <;> simp_all)
  · intro h d hd hf
    exact h d hd (hf.elim (fun h => Or.inl h.1) Or.inr)

example : applyFilter [.PUNCT, .SPACE] [{ text := c!"A", inclass := [.WORD] }, { text := c!" ", inclass := [.SPACE] },
    { text := c!"-", inclass := [.DASH, .PUNCT] }, { text := c!"1", inclass := [.NUMBER] }] =
    [{ text := c!"A", inclass := [.WORD] }, { text := c!"1", inclass := [.NUMBER] }] := by decide

example : (∀ c ∈ [InType.SPACE], c ∈ [InType.PUNCT, .SPACE]) ∧
    ∀ c, c ∈ [InType.PUNCT, .SPACE] ↔ c ∈ [InType.SPACE] ∨ c ∈ [InType.PUNCT] := by
  refine ⟨by decide, fun c => ?_⟩
  simp only [List.mem_cons, List.not_mem_nil, or_false]
  exact Or.comm

/-! ## C10 -/

/-- The number of tokens with several words. -/
def multiWord (ts : List Token) : Nat := (ts.filter (fun t => ' ' ∈ t.text)).length

theorem bitsOf_nodup (k : Nat) : ∀ l : List Nat, l.Nodup → (∀ i ∈ l, i < 2 ^ k) → (l.map (bitsOf k)).Nodup
  | [], _, _ => List.nodup_nil
  | i :: l, h, hb => by
    rw [List.nodup_cons] at h
    rw [List.map_cons, List.nodup_cons]
    refine ⟨?_, bitsOf_nodup k l h.2 (fun j hj => hb j (List.mem_cons_of_mem _ hj))⟩
    rw [List.mem_map]
    rintro ⟨j, hj, e⟩
    have h1 := ofBits_bitsOf k j (hb j (List.mem_cons_of_mem _ hj))
    have h2 := ofBits_bitsOf k i (hb i (List.mem_cons_self ..))
    rw [e, h2] at h1
    exact h.1 (h1 ▸ hj)

/-- With fewer than 32 multi-word tokens: for every choice of at least one of them there is exactly one
list, in which the chosen ones are broken into words and all else is as it was. -/
theorem C10_alternatives (u : UTables) (l : Lexicon) (ts : List Token) (h : multiWord ts < 32) :
    ∃ choices : List (List Bool), choices.Nodup ∧
      (∀ c, c ∈ choices ↔ c.length = multiWord ts ∧ true ∈ c) ∧
      choices.length = 2 ^ multiWord ts - 1 ∧
      getAltTokens u l ts = some (choices.map (fun c => broken (wordToken u l) c ts)) := by
  have hm : multi ts = multiWord ts := rfl
  have hpos : 0 < 2 ^ multiWord ts := Nat.pow_pos (by omega)
  have hcnt : countAlts 1 (ts.map (fun t => (t, splitBlanks false [] t.text))) = 2 ^ multiWord ts := by
    have := countAlts_eq ts 0 (by rw [hm]; omega)
    rw [hm] at this
    simpa using this
  refine ⟨(List.range' 1 (2 ^ multiWord ts - 1)).map (bitsOf (multiWord ts)), ?_, ?_, by simp, ?_⟩
  · apply bitsOf_nodup _ _ List.nodup_range'
    intro i hi
    rw [List.mem_range'_1] at hi
    omega
  · intro c
    rw [List.mem_map]
    constructor
    · rintro ⟨i, hi, rfl⟩
      rw [List.mem_range'_1] at hi
      refine ⟨bitsOf_length _ _, ?_⟩
      rw [← ofBits_pos, ofBits_bitsOf _ _ (by omega)]
      omega
    · rintro ⟨h1, h2⟩
      refine ⟨ofBits c, ?_, by rw [← h1]; exact bitsOf_ofBits c⟩
      rw [← ofBits_pos] at h2
      have := ofBits_lt c
      rw [h1] at this
      rw [List.mem_range'_1]
      omega
  · rw [getAltTokens]
    simp only [hcnt]
    by_cases h1 : 2 ^ multiWord ts = 1
    · rw [if_pos h1, h1]; rfl
    · rw [if_neg h1, if_neg (by omega), List.map_map]
      have hall : ∀ L : List Nat, L.mapM (fun i => altOne u l i 0 (ts.map (fun t => (t, splitBlanks false [] t.text)))) =
          some (L.map ((fun c => broken (wordToken u l) c ts) ∘ bitsOf (multiWord ts))) := by
        intro L
        induction L with
        | nil => rfl
        | cons i L ih =>
          have := altOne_eq u l i ts 0 (by rw [hm]; omega)
          rw [hm, Nat.pow_zero, Nat.div_one] at this
          rw [List.mapM_cons, this, ih]
          rfl
      exact hall _

/-- Without multi-word tokens there is no alternative. -/
theorem C10_none (u : UTables) (l : Lexicon) (ts : List Token) (h : ∀ t ∈ ts, ' ' ∉ t.text) :
    getAltTokens u l ts = some [] := by
  have h0 : multiWord ts = 0 := by
    rw [multiWord, List.length_eq_zero_iff, List.filter_eq_nil_iff]
    intro t ht; simpa using h t ht
  obtain ⟨cs, _, _, h3, h4⟩ := C10_alternatives u l ts (by omega)
  rw [h0] at h3
  rw [h4, List.length_eq_zero_iff.1 h3]; rfl

/-- The words of a broken phrase: joined by single blanks they are the phrase, when it has only single
blanks inside it. -/
theorem C10_words (s : Str) (h : ∀ p ∈ splitOn ' ' s, p ≠ []) : wordsOf s = splitOn ' ' s := by
  cases hs : splitOn ' ' s with
  | nil => exact absurd hs (splitOn_ne_nil _ _)
  | cons p ps =>
    rw [hs] at h
    rw [wordsOf]
    cases ps with
    | nil => simp [hs]
    | cons q ps =>
      simp only [hs, List.cons_append, List.cons.injEq, true_and]
      have : (q :: ps).dropLast.filter (fun x => decide (x ≠ [])) = (q :: ps).dropLast := by
        rw [List.filter_eq_self]
        intro a ha
        simpa using h a (List.mem_cons_of_mem _ (List.dropLast_subset _ ha))
      rw [this, List.dropLast_concat_getLast]

example : multiWord [{ text := c!"SAINT JOHN" }, { text := c!"X" }, { text := c!"NEW YORK" }] < 32 ∧
    getAltTokens asciiU {} [{ text := c!"A B" }, { text := c!"X" }] =
      some [[wordToken asciiU {} c!"A", wordToken asciiU {} c!"B", { text := c!"X" }]] ∧
    (∀ t ∈ [({ text := c!"X" } : Token)], ' ' ∉ t.text) ∧ (∀ p ∈ splitOn ' ' c!"NEW YORK", p ≠ []) := by decide +kernel

/-! ## C11 -/

/-- Tokenizing ends; the rounds account for a beginning of the text, in order; every round takes
something; only what ends with a line separator can be skipped; there is a separator after every word
except at the end. -/
theorem C11_consecutive (icu : Icu) (u : UTables) (l : Lexicon) (x : LexRe) (filter : List InType) (str : Str) :
    ∃ (rs : List Round) (dropped : Str),
      getTokens icu u l x filter str = some (applyFilter filter (rs.flatMap (roundTokens u l x))) ∧
      icu.upper l.locale (icu.norm str) = rs.flatMap Round.text ++ dropped ∧
      (∀ r ∈ rs, r.text ≠ [] ∧ (∀ c ∈ r.blanks, u.isSpace c = true) ∧
        (r.skipped = [] ∨ ∃ c, r.skipped.getLast? = some c ∧ lineSeparator c = true) ∧
        (IsSeparator u r.sep ∨ (r.sep = [] ∧ dropped = [] ∧ rs.getLast? = some r))) := by
  obtain ⟨qs, last, h, e⟩ := getTokens_spec icu u l x filter str
  refine ⟨qs, last, e, h.text, ?_⟩
  intro r hr
  obtain ⟨pre, post, rfl⟩ := List.append_of_mem hr
  obtain ⟨ok, _, _⟩ := h.at pre r post rfl
  refine ⟨ok.nonempty, ok.blank, ok.skip, ?_⟩
  rcases ok.sep with hs | ⟨h1, h2⟩
  · exact Or.inl hs
  · right
    obtain ⟨h2, h3⟩ := List.append_eq_nil_iff.1 h2
    refine ⟨h1, h3, ?_⟩
    cases post with
    | nil => simp
    | cons q post =>
      exfalso
      obtain ⟨ok', _, _⟩ := h.at (pre ++ [r]) q post (by simp)
      rw [List.flatMap_cons] at h2
      exact ok'.nonempty (List.append_eq_nil_iff.1 h2).1

/-- On one line nothing is skipped: blanks, words and separators are a beginning of the text. -/
theorem C11_one_line (icu : Icu) (u : UTables) (l : Lexicon) (x : LexRe) (filter : List InType) (str : Str)
    (hline : ∀ c ∈ icu.upper l.locale (icu.norm str), lineSeparator c = false) :
    ∃ (rs : List Round) (dropped : Str),
      getTokens icu u l x filter str = some (applyFilter filter (rs.flatMap (roundTokens u l x))) ∧
      icu.upper l.locale (icu.norm str) = rs.flatMap (fun r => r.blanks ++ r.word ++ r.sep) ++ dropped ∧
      ∀ r ∈ rs, r.blanks ++ r.word ++ r.sep ≠ [] := by
  obtain ⟨rs, dropped, h1, h2, h3⟩ := C11_consecutive icu u l x filter str
  have hskip : ∀ r ∈ rs, r.skipped = [] := by
    intro r hr
    rcases (h3 r hr).2.2.1 with h | ⟨c, h, hc⟩
    · exact h
    · have hmem : c ∈ icu.upper l.locale (icu.norm str) := by
        rw [h2]
        apply List.mem_append_left
        rw [List.mem_flatMap]
        exact ⟨r, hr, by simp [Round.text, List.mem_of_getLast? h]⟩
      rw [hline c hmem] at hc; cases hc
  have htext : ∀ r ∈ rs, Round.text r = r.blanks ++ r.word ++ r.sep := by
    intro r hr; rw [Round.text, hskip r hr]; rfl
  refine ⟨rs, dropped, h1, ?_, fun r hr => htext r hr ▸ (h3 r hr).1⟩
  rw [h2]
  congr 1
  clear h1 h2 h3 hskip
  induction rs with
  | nil => rfl
  | cons r rs ih =>
    rw [List.flatMap_cons, List.flatMap_cons, htext r (List.mem_cons_self ..),
      ih (fun q hq => htext q (List.mem_cons_of_mem _ hq))]

/-- What is taken for a word is a phrase of the lexicon, a number, a word or letters and digits, where
it stands; and nothing could be taken before what was skipped ended. -/
theorem C11_recognised (icu : Icu) (u : UTables) (l : Lexicon) (x : LexRe) (filter : List InType) (str : Str)
    (hl : PlainLexicon u l) (hx : x.For u l) :
    ∃ (rs : List Round) (dropped : Str),
      getTokens icu u l x filter str = some (applyFilter filter (rs.flatMap (roundTokens u l x))) ∧
      icu.upper l.locale (icu.norm str) = rs.flatMap Round.text ++ dropped ∧
      ∀ pre r post, rs = pre ++ r :: post →
        IsToken u (lexWords l) (r.skipped ++ r.blanks).getLast? r.word
          (r.sep ++ (post.flatMap Round.text ++ dropped)).head? ∧
        r.word.head? ≠ some '—' ∧
        (∀ a b, r.text ++ (post.flatMap Round.text ++ dropped) = a ++ b → a.length < r.skipped.length →
          ¬ CanGoOn u (lexWords l) a b) := by
  obtain ⟨qs, last, h, e⟩ := getTokens_spec icu u l x filter str
  refine ⟨qs, last, e, h.text, ?_⟩
  intro pre r post hq
  obtain ⟨ok, ⟨m, hm, h1, h2, h3⟩, hb⟩ := h.at pre r post hq
  obtain ⟨_, b, w, p, rest, ⟨hs, _, hd, ht, _⟩, e1, e2, e3⟩ := match_parts hl hx hm
  rw [h1] at e1; rw [h2] at e2; rw [h3] at e3
  subst e1 e2 e3
  have hb' : r.blanks = b := by
    have := hs
    simp only [List.append_assoc] at this
    exact List.append_cancel_right this
  subst hb'
  refine ⟨ht, ?_, ?_⟩
  · intro hw
    apply hd
    cases hr : r.word with
    | nil => rw [hr] at hw; cases hw
    | cons c cs => rw [hr] at hw; simpa using hw
  · intro a' b' e' hlen hc
    exact (canGoOn_iff hl hx a' b').2 hc (hb a' b' e' hlen)

/-! ## C12 -/

/-- Tokenizing stops where the text cannot go on, on this line or on a later one, and what is left there
is dropped. -/
theorem C12_dropped (icu : Icu) (u : UTables) (l : Lexicon) (x : LexRe) (filter : List InType) (str : Str)
    (hl : PlainLexicon u l) (hx : x.For u l) :
    ∃ (rs : List Round) (dropped : Str),
      getTokens icu u l x filter str = some (applyFilter filter (rs.flatMap (roundTokens u l x))) ∧
      icu.upper l.locale (icu.norm str) = rs.flatMap Round.text ++ dropped ∧
      (dropped = [] ∨ ∀ a b, dropped = a ++ b → ¬ CanGoOn u (lexWords l) a b) ∧
      (∀ pre r post, rs = pre ++ r :: post →
        CanGoOn u (lexWords l) r.skipped (r.blanks ++ r.word ++ r.sep ++ (post.flatMap Round.text ++ dropped))) := by
  obtain ⟨qs, last, h, e⟩ := getTokens_spec icu u l x filter str
  refine ⟨qs, last, e, h.text, ?_, ?_⟩
  · rcases h.last_stop with hs | hs
    · right
      intro a b hab hc
      have := searchFrom_none.1 hs a b hab
      rw [List.append_nil] at this
      exact (canGoOn_iff hl hx a b).2 hc this
    · exact Or.inl hs
  · intro pre r post hq
    obtain ⟨_, ⟨m, hm, _⟩, _⟩ := h.at pre r post hq
    exact (canGoOn_iff hl hx _ _).1 (List.ne_nil_of_mem hm)

theorem getTokens_nothing {icu : Icu} {u : UTables} {l : Lexicon} {x : LexRe} (filter : List InType) {str : Str}
    (hl : PlainLexicon u l) (hx : x.For u l)
    (h : ∀ a b, icu.upper l.locale (icu.norm str) = a ++ b → ¬ CanGoOn u (lexWords l) a b) :
    getTokens icu u l x filter str = some [] := by
  have hs : searchFrom (tokenRx u x) [] (prepare icu l str) = none := by
    rw [searchFrom_none]
    intro a b hab
    rw [List.append_nil]
    exact Classical.byContradiction fun hne => h a b hab ((canGoOn_iff hl hx a b).1 hne)
  rw [getTokens]
  simp only [rounds, hs]
  rfl

/-- A text that cannot be gone on with at the beginning of any of its lines has no tokens at all. -/
theorem C12_nothing (icu : Icu) (u : UTables) (l : Lexicon) (x : LexRe) (filter : List InType) (str : Str)
    (hl : PlainLexicon u l) (hx : x.For u l)
    (h : ∀ a b, icu.upper l.locale (icu.norm str) = a ++ b → ¬ CanGoOn u (lexWords l) a b) :
    getTokens icu u l x filter str = some [] := getTokens_nothing filter hl hx h

/-- In particular a line that starts with a character that is not a blank, a letter or a digit and that
no word of the lexicon starts with, when the lexicon has words. -/
theorem C12_starts_with_punctuation (icu : Icu) (u : UTables) (l : Lexicon) (x : LexRe) (filter : List InType)
    (str : Str) (c : Char) (s : Str) (hl : PlainLexicon u l) (hx : x.For u l)
    (hwords : ∃ w ∈ lexWords l, w ≠ []) (hstr : icu.upper l.locale (icu.norm str) = c :: s)
    (hline : ∀ d ∈ c :: s, lineSeparator d = false) (hblank : u.isSpace c = false)
    (hkind : u.digit (u.fold c) = false ∧ u.alpha (u.fold c) = false ∧ u.letter (u.fold c) = false ∧
      u.nd (u.fold c) = false)
    (hlex : ∀ w ∈ lexWords l, w.head? ≠ some (u.canon c)) :
    getTokens icu u l x filter str = some [] := by
  apply getTokens_nothing filter hl hx
  rintro a b hab ⟨hstart, bl, w, p, r, hs, hbl, _, htok, _⟩
  rw [hstr] at hab
  have ha : a = [] := by
    rcases hstart with h | ⟨d, h1, h2, _⟩
    · exact h
    · have := hline d (by rw [hab]; exact List.mem_append_left _ (List.mem_of_getLast? h1))
      exact absurd (this.symm.trans h2) Bool.false_ne_true
  subst ha
  rw [List.nil_append, hs] at hab
  have hb : bl = [] := by
    cases bl with
    | nil => rfl
    | cons d bl =>
      simp only [List.cons_append, List.cons.injEq] at hab
      rw [hab.1, hbl d (by simp)] at hblank; cases hblank
  subst hb
  obtain ⟨h1, h2, h3, h4⟩ := hkind
  have hhead : ∀ q : Char → Bool, q c = false → ¬ RunOf q w := by
    intro q hq hr
    cases w with
    | nil => exact hr.1 rfl
    | cons d w =>
      simp only [List.nil_append, List.cons_append, List.cons.injEq] at hab
      have := hr.2 d (by simp)
      rw [← hab.1, hq] at this; cases this
  rcases htok with (⟨h0, hw⟩ | ⟨h0, _⟩) | ⟨y, z, t, e, hy, _⟩ | h | ⟨h, _⟩ | h | h
  · cases w with
    | nil => exact h0 rfl
    | cons d w =>
      simp only [List.nil_append, List.cons_append, List.cons.injEq] at hab
      exact hlex _ hw (by rw [hab.1]; rfl)
  · obtain ⟨v, hv, hv0⟩ := hwords
    exact hv0 (h0 v hv)
  · cases y with
    | nil => exact hy.1 rfl
    | cons d y =>
      rw [e] at hab
      simp only [List.nil_append, List.cons_append, List.cons.injEq] at hab
      have := hy.2 d (by simp)
      simp only [hab.1] at this h1
      rw [h1] at this; cases this
  · exact hhead _ h1 h
  · exact hhead _ h2 h
  · exact hhead _ (by simp [h3, h4]) h
  · exact hhead _ (by simp [h1, h2]) h

/-! ### A lexicon for examples -/

/-- The expression a pattern is read as, for examples. -/
def readOf (p : Str) : Re := ((readAlt 60 p).map (·.1)).getD .eps

theorem reads_readOf {p : Str} (h : (readAlt 60 p).map (·.2) = some []) : Reads p (readOf p) := by
  refine ⟨60, ?_⟩
  rw [readOf]
  cases hr : readAlt 60 p with
  | none => rw [hr] at h; cases h
  | some q =>
    rw [hr] at h
    simp only [Option.map_some, Option.some.injEq] at h
    simp [← h]

/-- Words with and without attachments. -/
def townLexicon : Lexicon :=
  { lex := [(c!"NEW YORK", [⟨c!"NEW YORK", c!"NY", [.CITY], []⟩]),
            (c!"O", [⟨c!"O", [], [.WORD], [.ATT_PRE]⟩]),
            (c!"STR", [⟨c!"STR", c!"STRASSE", [.TYPE], [.ATT_SUF, .DET_SUF]⟩])] }

def townRe : LexRe :=
  { all := readOf ((trieOf (townLexicon.lex.map (·.1))).getRegexp.map asciiU.canon)
    pre := readOf (trieOf (Lexicon.attachedWords LexEntry.isPrefixAttached townLexicon.lex)).getRegexp
    suf := readOf (trieOf (Lexicon.attachedWords LexEntry.isSuffixAttached townLexicon.lex)).getRegexp }

theorem townRe_for : townRe.For asciiU townLexicon :=
  ⟨reads_readOf (by decide +kernel), reads_readOf (by decide +kernel), reads_readOf (by decide +kernel)⟩

theorem townPlain : PlainLexicon asciiU townLexicon := by unfold PlainLexicon; decide +kernel

example : PlainLexicon asciiU townLexicon ∧ townRe.For asciiU townLexicon ∧
    (∀ c ∈ prepare asciiIcu townLexicon c!"12 new york, x; (rest", lineSeparator c = false) ∧
    (getTokens asciiIcu asciiU townLexicon townRe [.SPACE] c!"12 new york, x; )rest").map (·.map (·.text)) =
      some [c!"12", c!"NEW YORK", c!",", c!"X", c!"; )", c!"REST"] ∧
    (getTokens asciiIcu asciiU townLexicon townRe [] c!"one $ two").map (·.map (·.text)) =
      some [c!"O", c!"NE", c!" "] :=
  ⟨townPlain, townRe_for, by decide +kernel, by decide +kernel, by decide +kernel⟩

/-- A text for `C12_starts_with_punctuation`. -/
example : (∃ w ∈ lexWords townLexicon, w ≠ []) ∧ prepare asciiIcu townLexicon c!"#12 Main" = '#' :: c!"12 MAIN" ∧
    (∀ d ∈ '#' :: c!"12 MAIN", lineSeparator d = false) ∧ asciiU.isSpace '#' = false ∧
    (asciiU.digit (asciiU.fold '#') = false ∧ asciiU.alpha (asciiU.fold '#') = false ∧
      asciiU.letter (asciiU.fold '#') = false ∧ asciiU.nd (asciiU.fold '#') = false) ∧
    (∀ w ∈ lexWords townLexicon, w.head? ≠ some (asciiU.canon '#')) := by decide +kernel

/-- With a lexicon without words the pattern for a token may be empty, and such a text has tokens. -/
theorem C12_empty_lexicon : ∃ x : LexRe, x.For asciiU {} ∧
    (getTokens asciiIcu asciiU {} x [] c!"#12 Main").map (·.map (·.text)) = some [c!"#", c!"12", c!" ", c!"MAIN"] := by
  have h : Reads (trieOf []).getRegexp (readOf (trieOf []).getRegexp) := reads_readOf (by decide +kernel)
  have e : (trieOf []).getRegexp.map asciiU.canon = (trieOf []).getRegexp := by decide +kernel
  refine ⟨⟨readOf (trieOf []).getRegexp, readOf (trieOf []).getRegexp, readOf (trieOf []).getRegexp⟩,
    ⟨?_, h, h⟩, by decide +kernel⟩
  show Reads ((trieOf []).getRegexp.map asciiU.canon) _
  rw [e]; exact h

end AS.Props
