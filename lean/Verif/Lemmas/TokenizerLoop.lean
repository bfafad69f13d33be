import Verif.Lemmas.Tokenizer
import Verif.Lemmas.TriePattern
import Verif.Props.Trie
/-
Facts about the loop of `getTokens`: what it recognises, that it goes on.
-/
namespace AS
namespace Tokenizer

theorem head?_append_left {a b : Str} (h : a ≠ []) : (a ++ b).head? = a.head? := by
  cases a with
  | nil => exact absurd rfl h
  | cons c a => rfl

theorem getLast?_append_right {a b : Str} (h : b ≠ []) : (a ++ b).getLast? = b.getLast? := by
  rw [← List.head?_reverse, List.reverse_append, head?_append_left (by simpa using h), List.head?_reverse]

theorem mem_wordEnds {words : List Str} {text rest : Str} :
    rest ∈ wordEnds words text ↔ ∃ w ∈ words, w ≠ [] ∧ text = w ++ rest := by
  simp only [wordEnds, List.mem_map, List.mem_filter, List.mem_reverse, List.mem_range, decide_eq_true_eq, Nat.lt_succ_iff]
  constructor
  · rintro ⟨n, ⟨hn, h0, hw⟩, rfl⟩
    refine ⟨_, hw, ?_, (List.take_append_drop n text).symm⟩
    intro h
    rcases List.take_eq_nil_iff.1 h with h | h
    · exact h0 h
    · subst h; simp at hn; exact h0 hn
  · rintro ⟨w, hw, h0, rfl⟩
    exact ⟨w.length, ⟨by simp, by simpa using h0, by simpa using hw⟩, by simp⟩

theorem canon_syntax (u : UTables) : ∀ c ∈ patternSyntax, u.canon c = c := by
  intro c hc
  apply u.canon_ascii
  · revert c; decide
  · revert c; decide

/-- The runs of the pattern of a list of words. -/
theorem reads_words {words : List Str} {r : Re} (hp : ∀ w ∈ words, ∀ c ∈ w, c ∉ unescaped)
    (h : Reads (trieOf words).getRegexp r) (text rest : Str) : rest ∈ r.run text ↔
    (∃ w ∈ words, w ≠ [] ∧ text = w ++ rest) ∨ ((∀ w ∈ words, w = []) ∧ rest = text) := by
  by_cases hne : ∃ w ∈ words, w ≠ []
  · obtain ⟨r', _, hu, hrun⟩ := Props.C21_word_pattern words hp hne
    rw [hu r h, hrun, mem_wordEnds]
    obtain ⟨w, hw, h0⟩ := hne
    exact ⟨Or.inl, fun h => h.elim id (fun h => absurd (h.1 w hw) h0)⟩
  · have hall : ∀ w ∈ words, w = [] := fun w hw => Classical.byContradiction fun h0 => hne ⟨w, hw, h0⟩
    obtain ⟨_, r', hr', hrun⟩ := Props.C21_no_words words hall
    rw [reads_unique h hr', hrun, List.mem_singleton]
    constructor
    · exact fun h => Or.inr ⟨hall, h⟩
    · rintro (⟨w, hw, h0, _⟩ | ⟨_, h⟩)
      · exact absurd (hall w hw) h0
      · exact h

/-- The lexicon's alternative matches the phrases of the lexicon. -/
theorem phrase_iff {u : UTables} {l : Lexicon} {x : LexRe} (hl : PlainLexicon u l) (hx : x.For u l)
    {m m' : M} {w : Str} (e : Eats m w m') :
    m'.rest.map u.canon ∈ x.all.run (m.rest.map u.canon) ↔ IsPhrase u (lexWords l) w := by
  have h : Reads ((trieOf (lexWords l)).getRegexp.map u.canon) x.all := hx.1
  rw [pattern_map (canon_syntax u) (fun w hw c hc => (hl w hw c hc).2)] at h
  rw [reads_words (fun w hw c hc => (hl w hw c hc).1) h, e.1, List.map_append, IsPhrase]
  constructor
  · rintro (⟨v, hv, h0, h⟩ | ⟨h, h'⟩)
    · have := List.append_cancel_right h
      rw [this]
      exact Or.inl ⟨by rintro rfl; exact h0 this.symm, hv⟩
    · refine Or.inr ⟨h, ?_⟩
      have := congrArg List.length h'
      simp only [List.length_append, List.length_map] at this
      exact List.eq_nil_of_length_eq_zero (by omega)
  · rintro (⟨h0, hv⟩ | ⟨h, rfl⟩)
    · exact Or.inl ⟨_, hv, by simpa using h0, rfl⟩
    · exact Or.inr ⟨h, rfl⟩

/-- The parts of a match. -/
theorem match_parts {u : UTables} {l : Lexicon} {x : LexRe} (hl : PlainLexicon u l) (hx : x.For u l)
    {before s : Str} {m : M} (h : m ∈ (tokenRx u x).run ⟨before.reverse, s, []⟩) :
    LineStart before s ∧ ∃ b w p r, (s = b ++ w ++ p ++ r ∧ (∀ c ∈ b, u.isSpace c = true) ∧
    (w ++ p ++ r).head? ≠ some '—' ∧ IsToken u (lexWords l) (before ++ b).getLast? w (p ++ r).head? ∧
    (IsSeparator u p ∨ (p = [] ∧ LineEnd (before ++ b ++ w) r))) ∧ m.cap 1 = w ∧ m.cap 2 = p ∧ m.rest = r := by
  simp only [mem_tokenRx, atBol_iff] at h
  obtain ⟨m1, m2, m3, b, w, p, h1, hb, e1, c1, h2, hw, e2, hp, e3, rfl⟩ := h
  have hcap2 := noCaps_caps _ _ _ (wordRx_noCaps u x) hw
  have hcap3 := noCaps_caps _ _ _ (sepRx_noCaps u) hp
  refine ⟨h1, b, w, p, m3.rest, ⟨?_, hb, ?_, ?_, ?_⟩, by simp [M.cap, capOf, hcap3], by simp [M.cap, capOf], rfl⟩
  · exact ((e1.trans e2).trans e3).1
  · rw [(e2.trans e3).1] at h2; exact h2
  · obtain ⟨_, hw⟩ := (mem_wordRx e2).1 hw
    rw [phrase_iff hl hx e2] at hw
    rw [IsToken]
    rcases hw with h | h | h | ⟨h, h', h''⟩ | h | h
    · exact Or.inl h
    · exact Or.inr (Or.inl h)
    · exact Or.inr (Or.inr (Or.inl h))
    · refine Or.inr (Or.inr (Or.inr (Or.inl ⟨h, ?_, ?_⟩)))
      · rw [e1.2, e2.1] at h'
        rw [← List.head?_reverse, List.reverse_append]
        rw [head?_append_left h.1] at h'
        exact h'
      · rw [e2.2, e3.1, head?_append_left (a := w.reverse) (by simpa using h.1), List.head?_reverse] at h''
        exact h''
    · exact Or.inr (Or.inr (Or.inr (Or.inr (Or.inl h))))
    · exact Or.inr (Or.inr (Or.inr (Or.inr (Or.inr h))))
  · rcases ((mem_sepRx (m := { m2 with caps := (1, w) :: m2.caps }) e3).1 hp).2 with h | ⟨h, h'⟩
    · exact Or.inl h
    · right
      refine ⟨h, ?_⟩
      have hr : m2.rest = m3.rest := by rw [e3.1, h]; rfl
      rw [← hr, ← atEol_iff (c := (1, w) :: m2.caps)]
      have : m2.prev = (before ++ b ++ w).reverse := by rw [e2.2, e1.2]; simp
      rw [← this]; exact h'

/-- There is a match at a position iff the text can go on there. -/
theorem canGoOn_iff {u : UTables} {l : Lexicon} {x : LexRe} (hl : PlainLexicon u l) (hx : x.For u l)
    (before s : Str) : (tokenRx u x).run ⟨before.reverse, s, []⟩ ≠ [] ↔ CanGoOn u (lexWords l) before s := by
  have hne : (tokenRx u x).run ⟨before.reverse, s, []⟩ ≠ [] ↔ ∃ m, m ∈ (tokenRx u x).run ⟨before.reverse, s, []⟩ := by
    exact ⟨List.exists_mem_of_ne_nil _, fun ⟨m, h⟩ => List.ne_nil_of_mem h⟩
  rw [hne, CanGoOn]
  constructor
  · rintro ⟨m, h⟩
    obtain ⟨h1, b, w, p, r, h, _⟩ := match_parts hl hx h
    exact ⟨h1, b, w, p, r, h⟩
  simp only [mem_tokenRx, atBol_iff]
  · rintro ⟨h1, b, w, p, r, rfl, hb, h2, hw, hp⟩
    refine ⟨⟨(before ++ b ++ w ++ p).reverse, r, [(2, p), (1, w)]⟩, ⟨(before ++ b).reverse, w ++ p ++ r, []⟩, ⟨(before ++ b ++ w).reverse, p ++ r, []⟩,
      ⟨(before ++ b ++ w ++ p).reverse, r, [(1, w)]⟩, b, w, p, h1, hb, ⟨by simp, by simp⟩, rfl, h2, ?_, ⟨by simp, by simp⟩, ?_, ⟨rfl, by simp⟩, rfl⟩
    · have e : Eats ⟨(before ++ b).reverse, w ++ p ++ r, []⟩ w ⟨(before ++ b ++ w).reverse, p ++ r, []⟩ := ⟨by simp, by simp⟩
      rw [mem_wordRx e, phrase_iff hl hx e]
      refine ⟨rfl, ?_⟩
      rw [IsToken] at hw
      rcases hw with h | h | h | ⟨h, h', h''⟩ | h | h
      · exact Or.inl h
      · exact Or.inr (Or.inl h)
      · exact Or.inr (Or.inr (Or.inl h))
      · refine Or.inr (Or.inr (Or.inr (Or.inl ⟨h, ?_, ?_⟩)))
        · rw [List.head?_reverse, List.append_assoc, head?_append_left h.1]; exact h'
        · rw [List.head?_reverse, getLast?_append_right h.1]; exact h''
      · exact Or.inr (Or.inr (Or.inr (Or.inr (Or.inl h))))
      · exact Or.inr (Or.inr (Or.inr (Or.inr (Or.inr h))))
    · have e : Eats ⟨(before ++ b ++ w).reverse, p ++ r, [(1, w)]⟩ p ⟨(before ++ b ++ w ++ p).reverse, r, [(1, w)]⟩ := ⟨rfl, by simp⟩
      rw [mem_sepRx e, atEol_iff]
      refine ⟨rfl, ?_⟩
      rcases hp with h | ⟨rfl, h⟩
      · exact Or.inl h
      · exact Or.inr ⟨rfl, h⟩

/-! ### The loop -/

/-- What a match says about the round made of it. -/
theorem match_round {u : UTables} {x : LexRe} {s : Str} {m0 m : M}
    (h : searchFrom (tokenRx u x) [] s = some (m0, m)) :
    ∃ a b w p, s = a ++ b ++ w ++ p ++ m.rest ∧ m0.prev.reverse = a ∧ m.cap 1 = w ∧ m.cap 2 = p ∧
      m0.rest = b ++ w ++ p ++ m.rest ∧ ((tokenRx u x).run ⟨a.reverse, m0.rest, []⟩).head? = some m ∧
      (a = [] ∨ ∃ c, a.getLast? = some c ∧ isSep c = true) ∧ (∀ c ∈ b, u.isSpace c = true) ∧
      (IsSeparator u p ∨ (p = [] ∧ m.rest = [])) ∧
      (∀ a' b', s = a' ++ b' → a'.length < a.length → (tokenRx u x).run ⟨a'.reverse, b', []⟩ = []) := by
  obtain ⟨a, t, rfl, rfl, hm, hbefore⟩ := searchFrom_some h
  have hm0 := hm
  rw [tokenRx] at hm
  simp only [Rx.seqs] at hm
  obtain ⟨n0, hn0, hm⟩ := head_seq hm
  obtain ⟨n1, hn1, hm⟩ := head_seq hm
  obtain ⟨n2, hn2, hm⟩ := head_seq hm
  obtain ⟨n3, hn3, hm⟩ := head_seq hm
  rw [mem_bol] at hn0
  obtain ⟨hbol, rfl⟩ := hn0
  obtain ⟨b, hb, e1, c1⟩ := mem_star.1 hn1
  obtain ⟨_, rfl⟩ := mem_notAhead.1 hn2
  obtain ⟨m2, w, hw, e2, rfl⟩ := mem_cap.1 hn3
  have hmem : m ∈ (Rx.cap 2 (sepRx u)).run { m2 with caps := (1, w) :: m2.caps } := List.mem_of_mem_head? hm
  obtain ⟨m3, p, hp, e3, rfl⟩ := mem_cap.1 hmem
  have hcap2 := noCaps_caps _ _ _ (wordRx_noCaps u x) hw
  have hcap3 := noCaps_caps _ _ _ (sepRx_noCaps u) hp
  have e3' : Eats m2 p m3 := e3
  have etot := (e1.trans e2).trans e3'
  refine ⟨a, b, w, p, ?_, by simp, ?_, by simp [M.cap, capOf], etot.1,
    by simpa using hm0, ?_, ?_, ?_, ?_⟩
  · have := etot.1
    simp only at this
    rw [this]; simp
  · simp [M.cap, capOf, hcap3]
  · have hbol' : atBol ⟨a.reverse, t, []⟩ = true := by simpa using hbol
    rcases atBol_iff.1 hbol' with h | ⟨c, h1, h2, _⟩
    · exact Or.inl h
    · exact Or.inr ⟨c, h1, h2⟩
  · intro c hc
    have := hb c hc
    rwa [u.space_fold] at this
  · rcases ((mem_sepRx e3).1 hp).2 with h | ⟨rfl, heol⟩
    · exact Or.inl h
    · right
      refine ⟨rfl, ?_⟩
      have hr : m2.rest = m3.rest := by rw [e3'.1]; rfl
      show m3.rest = []
      rw [← hr]
      -- if there were more text it would start with a blank, and the first alternative would have taken it
      cases hrest : m2.rest with
      | nil => rfl
      | cons d r =>
        exfalso
        have hd : isSep d = true := by
          have h' := heol
          rw [atEol] at h'
          simp only [hrest] at h'
          cases hp2 : m2.prev with
          | nil => simpa [hp2] using h'
          | cons q qs => rw [hp2] at h'; simp at h'; exact h'.1
        have hblank := u.sep_space d hd
        simp only [Rx.run, List.head?_map, sepRx, Rx.alts, hrest, u.space_fold, hblank, Bool.or_true, Bool.true_or, if_true] at hm
        have hstar : ∃ y ys, starRun (fun c => decide (c = '-') || decide (c = '&') || u.isSpace c || decide (c = '|') || u.punct (u.fold c))
            ((1, w) :: m2.caps) (d :: m2.prev) r = y :: ys ∧ y.rest.length ≤ r.length := by
          have hmem : (⟨d :: m2.prev, r, (1, w) :: m2.caps⟩ : M) ∈ starRun (fun c => decide (c = '-') || decide (c = '&') || u.isSpace c || decide (c = '|') || u.punct (u.fold c))
            ((1, w) :: m2.caps) (d :: m2.prev) r := mem_starRun.2 ⟨[], by simp, Eats.refl _, rfl⟩
          cases hl : starRun (fun c => decide (c = '-') || decide (c = '&') || u.isSpace c || decide (c = '|') || u.punct (u.fold c))
            ((1, w) :: m2.caps) (d :: m2.prev) r with
          | nil => rw [hl] at hmem; cases hmem
          | cons y ys =>
            refine ⟨y, ys, rfl, ?_⟩
            obtain ⟨z, _, ⟨hz, _⟩, _⟩ := mem_starRun.1 (show y ∈ starRun _ _ _ _ by rw [hl]; exact List.mem_cons_self ..)
            simp only at hz
            rw [hz]; simp
        obtain ⟨y, ys, hy, hlen⟩ := hstar
        rw [hy] at hm
        simp only [List.cons_append, List.head?_cons, Option.map_some, Option.some.injEq] at hm
        have := congrArg M.rest hm
        simp only at this
        rw [this, ← hr, hrest] at hlen
        simp only [List.length_cons] at hlen
        omega
  · intro a' b' e hl
    have := hbefore a' b' e hl
    simpa using this

/-- What a round says: at the beginning of a line, after text that cannot be matched, it takes blanks, a
word and a separator; the separator is only empty at the end. -/
structure RoundOk (u : UTables) (s : Str) (r : Round) (rest : Str) : Prop where
  text : s = r.text ++ rest
  nonempty : r.text ≠ []
  skip : r.skipped = [] ∨ ∃ c, r.skipped.getLast? = some c ∧ isSep c = true
  blank : ∀ c ∈ r.blanks, u.isSpace c = true
  sep : IsSeparator u r.sep ∨ (r.sep = [] ∧ rest = [])

/-- The rounds that took text, one after the other. -/
inductive Rounds (u : UTables) (x : LexRe) : Str → List Round → Str → Prop
  | stop {s : Str} : searchFrom (tokenRx u x) [] s = none ∨ s = [] → Rounds u x s [] s
  | round {s rest last : Str} {r : Round} {rs : List Round} : RoundOk u s r rest →
      (∃ m, ((tokenRx u x).run ⟨r.skipped.reverse, r.blanks ++ r.word ++ r.sep ++ rest, []⟩).head? = some m ∧
        m.cap 1 = r.word ∧ m.cap 2 = r.sep ∧ m.rest = rest) →
      (∀ a' b', s = a' ++ b' → a'.length < r.skipped.length → (tokenRx u x).run ⟨a'.reverse, b', []⟩ = []) →
      Rounds u x rest rs last → Rounds u x s (r :: rs) last

theorem rounds_spec (u : UTables) (x : LexRe) : ∀ (n : Nat) (s : Str), s.length + 1 ≤ n →
    ∃ rs rest qs, rounds (tokenRx u x) n s = some (rs, rest) ∧ Rounds u x s qs rest ∧
      ∀ f : Round → List Token, f ⟨[], [], [], []⟩ = [] → rs.flatMap f = qs.flatMap f
  | 0, s, h => by omega
  | n + 1, s, h => by
    rw [rounds]
    cases hs : searchFrom (tokenRx u x) [] s with
    | none => exact ⟨[], s, [], rfl, .stop (Or.inl hs), fun _ _ => rfl⟩
    | some mm =>
      obtain ⟨m0, m⟩ := mm
      obtain ⟨a, b, w, p, hs1, ha, hw, hp, hr, hmem, hskip, hb, hsep, hbefore⟩ := match_round hs
      have hblanks : m0.rest.take (m0.rest.length - m.rest.length - (m.cap 1).length - (m.cap 2).length) = b := by
        rw [hr, hw, hp]
        have : (b ++ w ++ p ++ m.rest).length - m.rest.length - w.length - p.length = b.length := by
          simp only [List.length_append]; omega
        rw [this]
        simp
      simp only []
      rw [hblanks, ha, hw, hp]
      by_cases h0 : s = []
      · rw [if_pos h0]
        subst h0
        have hnil := hs1.symm
        simp only [List.append_eq_nil_iff] at hnil
        obtain ⟨⟨⟨⟨rfl, rfl⟩, rfl⟩, rfl⟩, _⟩ := hnil
        refine ⟨_, _, [], rfl, .stop (Or.inr rfl), ?_⟩
        intro f hf
        simp [hf]
      · rw [if_neg h0]
        have htext : a ++ b ++ w ++ p ≠ [] := by
          rcases hsep with h | ⟨_, h⟩
          · intro e
            have hp0 : p = [] := (List.append_eq_nil_iff.1 e).2
            rcases h with h | h
            · exact h.1 hp0
            · rw [hp0] at h; cases h
          · rw [h, List.append_nil] at hs1
            rw [← hs1]; exact h0
        have hlen : m.rest.length + 1 ≤ n := by
          have h1 := congrArg List.length hs1
          rw [List.length_append] at h1
          have h2 : 0 < (a ++ b ++ w ++ p).length := List.length_pos_iff.2 htext
          omega
        obtain ⟨rs, rest, qs, e1, e2, e3⟩ := rounds_spec u x n m.rest hlen
        rw [e1]
        refine ⟨_, rest, ⟨a, b, w, p⟩ :: qs, rfl, .round ⟨hs1, htext, hskip, hb, hsep⟩ ⟨m, ?_, hw, hp, rfl⟩ hbefore e2, ?_⟩
        · rw [hr] at hmem; exact hmem
        · intro f hf
          rw [List.flatMap_cons, List.flatMap_cons, e3 f hf]

/-- The rounds and what is left give back the text. -/
theorem Rounds.text {u : UTables} {x : LexRe} {s last : Str} {qs : List Round} (h : Rounds u x s qs last) :
    s = qs.flatMap Round.text ++ last := by
  induction h with
  | stop _ => rfl
  | round ok _ _ _ ih => rw [ok.text, List.flatMap_cons, List.append_assoc, ← ih]

/-- Every round in its place. -/
theorem Rounds.at {u : UTables} {x : LexRe} {s last : Str} {qs : List Round} (h : Rounds u x s qs last) :
    ∀ pre r post, qs = pre ++ r :: post → RoundOk u (r.text ++ (post.flatMap Round.text ++ last)) r
        (post.flatMap Round.text ++ last) ∧
      (∃ m ∈ (tokenRx u x).run ⟨r.skipped.reverse, r.blanks ++ r.word ++ r.sep ++ (post.flatMap Round.text ++ last), []⟩,
        m.cap 1 = r.word ∧ m.cap 2 = r.sep ∧ m.rest = post.flatMap Round.text ++ last) ∧
      ∀ a' b', r.text ++ (post.flatMap Round.text ++ last) = a' ++ b' → a'.length < r.skipped.length →
        (tokenRx u x).run ⟨a'.reverse, b', []⟩ = [] := by
  induction h with
  | stop _ => intro pre r post e; cases pre <;> cases e
  | round ok hm hb hr ih =>
    intro pre r post e
    cases pre with
    | nil =>
      simp only [List.nil_append, List.cons.injEq] at e
      obtain ⟨rfl, rfl⟩ := e
      rw [← hr.text]
      rw [ok.text] at hb ok
      obtain ⟨m, hm, h⟩ := hm
      exact ⟨ok, ⟨m, List.mem_of_mem_head? hm, h⟩, hb⟩
    | cons p pre =>
      simp only [List.cons_append, List.cons.injEq] at e
      exact ih pre r post e.2

/-- After the last round nothing can be found, or nothing is left. -/
theorem Rounds.last_stop {u : UTables} {x : LexRe} {s last : Str} {qs : List Round} (h : Rounds u x s qs last) :
    searchFrom (tokenRx u x) [] last = none ∨ last = [] := by
  induction h with
  | stop h => exact h
  | round _ _ _ _ ih => exact ih

theorem roundTokens_empty (u : UTables) (l : Lexicon) (x : LexRe) : roundTokens u l x ⟨[], [], [], []⟩ = [] := by
  simp [roundTokens]

theorem getTokens_spec (icu : Icu) (u : UTables) (l : Lexicon) (x : LexRe) (filter : List InType) (str : Str) :
    ∃ qs last, Rounds u x (prepare icu l str) qs last ∧
      getTokens icu u l x filter str = some (applyFilter filter (qs.flatMap (roundTokens u l x))) := by
  obtain ⟨rs, last, qs, h1, h2, h3⟩ := rounds_spec u x ((prepare icu l str).length + 2) (prepare icu l str) (by omega)
  refine ⟨qs, last, h2, ?_⟩
  rw [getTokens]
  simp only [h1]
  rw [h3 _ (roundTokens_empty u l x)]

end Tokenizer
end AS
