import Verif.Spec.Choice
import Verif.Lemmas.TokenizerLoop
/-
Facts about the order in which matches are tried.
-/
namespace AS

/-- The first result of a concatenation over an ordered list comes from the best element that has a result. -/
theorem head_best {α β : Type} {f : α → List β} {y : β} {R : α → α → Prop} : ∀ {l : List α}, l.Pairwise R →
    (l.flatMap f).head? = some y → ∃ x ∈ l, (f x).head? = some y ∧ ∀ z ∈ l, f z ≠ [] → z = x ∨ R x z
  | [], _, h => by simp at h
  | x :: l, hl, h => by
    rw [List.flatMap_cons] at h
    rw [List.pairwise_cons] at hl
    cases hf : f x with
    | nil =>
      rw [hf, List.nil_append] at h
      obtain ⟨w, hw, h1, h2⟩ := head_best hl.2 h
      refine ⟨w, List.mem_cons_of_mem _ hw, h1, ?_⟩
      intro z hz hne
      rcases List.mem_cons.1 hz with rfl | hz
      · exact absurd hf hne
      · exact h2 z hz hne
    | cons b bs =>
      rw [hf] at h
      refine ⟨x, List.mem_cons_self .., by rw [hf]; simpa using h, ?_⟩
      intro z hz _
      rcases List.mem_cons.1 hz with rfl | hz
      · exact Or.inl rfl
      · exact Or.inr (hl.1 z hz)

/-- More text is taken by `m` than by `m'`. -/
def Longer (m m' : M) : Prop := m.rest.length < m'.rest.length

theorem starRun_sorted (p : Char → Bool) (caps : List (Nat × Str)) : ∀ (rest prev : Str),
    (starRun p caps prev rest).Pairwise Longer
  | [], prev => by simp [starRun]
  | c :: s, prev => by
    rw [starRun]
    split
    · rw [List.pairwise_append]
      refine ⟨starRun_sorted p caps s (c :: prev), by simp, ?_⟩
      intro x hx y hy
      obtain ⟨a, _, ⟨h, _⟩, _⟩ := mem_starRun.1 hx
      simp only [List.mem_singleton] at hy
      subst hy
      simp only [Longer, List.length_cons]
      have := congrArg List.length h
      simp only [List.length_append] at this
      omega
    · simp

theorem star_sorted (p : Char → Bool) (m : M) : ((Rx.star p).run m).Pairwise Longer := by
  rw [Rx.run]; exact starRun_sorted _ _ _ _

theorem plus_sorted (p : Char → Bool) (m : M) : ((Rx.plus p).run m).Pairwise Longer := by
  rw [Rx.run]
  split
  · exact List.Pairwise.nil
  · split
    · exact starRun_sorted _ _ _ _
    · exact List.Pairwise.nil

theorem wordEnds_sorted (words : List Str) (text : Str) :
    (wordEnds words text).Pairwise (fun a b => a.length < b.length) := by
  rw [wordEnds, List.pairwise_map]
  apply List.Pairwise.filter
  rw [List.pairwise_reverse]
  have h : (List.range (text.length + 1)).Pairwise (fun a b => a < b) := List.pairwise_lt_range
  refine h.imp_of_mem ?_
  intro a b ha hb hab
  simp only [List.mem_range] at ha hb
  simp only [List.length_drop]
  omega

/-- States after the same text with the same groups are the same. -/
theorem eats_eq {m x y : M} {a b : Str} (hx : Eats m a x) (hy : Eats m b y) (hc : x.caps = y.caps)
    (h : a.length = b.length) : x = y := by
  obtain ⟨x1, x2, x3⟩ := x
  obtain ⟨y1, y2, y3⟩ := y
  obtain ⟨h1, h2⟩ := hx
  obtain ⟨h3, h4⟩ := hy
  simp only at h1 h2 h3 h4 hc
  obtain ⟨rfl, rfl⟩ := List.append_inj (h1.symm.trans h3) h
  rw [h2, h4, hc]

theorem longer_length {m x y : M} {a b : Str} (hx : Eats m a x) (hy : Eats m b y) (h : Longer x y) : b.length < a.length := by
  have h1 := congrArg List.length hx.1
  have h2 := congrArg List.length hy.1
  rw [List.length_append] at h1 h2
  rw [Longer] at h
  omega

namespace Tokenizer

/-- The alternative for a kind of token. -/
def kindRx (u : UTables) (x : LexRe) : Kind → Rx
  | .phrase => .gen u.canon x.all
  | .decimal => .seqs [.plus (Shape.dI u), .cls (fun c => c = '/' || c = ',' || c = '.'), .plus (Shape.dI u)]
  | .number => .plus (Shape.dI u)
  | .word => .seqs [.wordStart u.isWord, .plus (fun c => u.alpha (u.fold c)), .wordEnd u.isWord]
  | .letters => .plus (fun c => u.letter (u.fold c) || u.nd (u.fold c))
  | .mixed => .plus (fun c => u.alpha (u.fold c) || Shape.dI u c)

/-- All kinds, in order. -/
def kinds : List Kind := [.phrase, .decimal, .number, .word, .letters, .mixed]

theorem mem_kinds (k : Kind) : k ∈ kinds := by cases k <;> decide

theorem kinds_sorted : kinds.Pairwise (fun j k => j.rank < k.rank) := by decide

theorem wordRx_run (u : UTables) (x : LexRe) (m : M) :
    (wordRx u x).run m = kinds.flatMap (fun k => (kindRx u x k).run m) := by
  simp [wordRx, kinds, kindRx, Rx.alts, Rx.run]

theorem kindRx_noCaps (u : UTables) (x : LexRe) (k : Kind) : (kindRx u x k).noCaps = true := by
  cases k <;> rfl

theorem slash_digit (u : UTables) : u.digit '/' = false := by
  cases h : u.digit '/' with
  | false => rfl
  | true => have := u.digit_word _ h; rw [u.word_slash] at this; cases this

theorem gen_sorted {u : UTables} {l : Lexicon} {x : LexRe} (hl : PlainLexicon u l) (hx : x.For u l) (m : M) :
    ((kindRx u x .phrase).run m).Pairwise Longer := by
  have h : Reads ((trieOf (lexWords l)).getRegexp.map u.canon) x.all := hx.1
  rw [pattern_map (canon_syntax u) (fun w hw c hc => (hl w hw c hc).2)] at h
  have hs : (x.all.run (m.rest.map u.canon)).Pairwise (fun a b => a.length < b.length) := by
    by_cases hne : ∃ w ∈ lexWords l, w ≠ []
    · obtain ⟨r', _, hu, hrun⟩ := Props.C21_word_pattern (lexWords l) (fun w hw c hc => (hl w hw c hc).1) hne
      rw [hu _ h, hrun]
      exact wordEnds_sorted _ _
    · have hall : ∀ w ∈ lexWords l, w = [] := fun w hw => Classical.byContradiction fun h0 => hne ⟨w, hw, h0⟩
      obtain ⟨_, r', hr', hrun⟩ := Props.C21_no_words (lexWords l) hall
      rw [reads_unique h hr', hrun]
      exact List.pairwise_singleton _ _
  rw [kindRx, Rx.run, List.pairwise_map]
  refine hs.imp_of_mem ?_
  intro a b ha hb hab
  have h1 := run_length _ _ _ ha
  have h2 := run_length _ _ _ hb
  rw [List.length_map] at h1 h2
  simp only [Longer, M.advance, List.length_drop]
  omega

theorem decimal_sorted (u : UTables) (x : LexRe) (m : M) : ((kindRx u x .decimal).run m).Pairwise Longer := by
  simp only [kindRx, Rx.seqs]
  rw [Rx.run, List.pairwise_flatMap]
  constructor
  · intro y _
    rw [Rx.run, List.pairwise_flatMap]
    refine ⟨fun _ _ => plus_sorted _ _, ?_⟩
    rw [Rx.run]
    split
    · exact List.Pairwise.nil
    · split
      · exact List.pairwise_singleton _ _
      · exact List.Pairwise.nil
  · refine (plus_sorted _ _).imp_of_mem ?_
    intro a b ha hb hab y hy z hz
    exfalso
    obtain ⟨v, _, hv, ev, _⟩ := mem_plus.1 ha
    obtain ⟨w, _, hw, ew, _⟩ := mem_plus.1 hb
    obtain ⟨z', hz', _⟩ := mem_seq.1 hz
    obtain ⟨c, hc, ec, _⟩ := mem_cls.1 hz'
    have hlen := longer_length ev ew hab
    -- the character after `w` is one of `v`
    have h1 : v ++ a.rest = w ++ (c :: z'.rest) := by
      rw [← ev.1, ew.1, ec.1]; rfl
    have hcv : c ∈ v := by
      have e : v[w.length]? = some c := by
        have h2 := congrArg (fun t => t[w.length]?) h1
        simp only [List.getElem?_append_right (Nat.le_refl w.length), Nat.sub_self, List.getElem?_cons_zero] at h2
        rwa [List.getElem?_append_left hlen] at h2
      exact List.mem_of_getElem? e
    have hd := hv c hcv
    rw [Shape.dI, u.digit_fold] at hd
    simp only [Bool.or_eq_true, decide_eq_true_eq] at hc
    rcases hc with (rfl | rfl) | rfl
    · rw [slash_digit] at hd; cases hd
    · rw [u.digit_comma] at hd; cases hd
    · rw [u.digit_point] at hd; cases hd

theorem word_sorted (u : UTables) (x : LexRe) (m : M) : ((kindRx u x .word).run m).Pairwise Longer := by
  simp only [kindRx, Rx.seqs]
  rw [Rx.run, List.pairwise_flatMap]
  constructor
  · intro y _
    rw [Rx.run, List.pairwise_flatMap]
    constructor
    · intro z _
      rw [Rx.run]
      split
      · exact List.pairwise_singleton _ _
      · exact List.Pairwise.nil
    · refine (plus_sorted _ _).imp_of_mem ?_
      intro a b _ _ hab y hy z hz
      obtain ⟨_, rfl⟩ := mem_wordEnd.1 hy
      obtain ⟨_, rfl⟩ := mem_wordEnd.1 hz
      exact hab
  · rw [Rx.run]
    split
    · exact List.pairwise_singleton _ _
    · exact List.Pairwise.nil

theorem kindRx_sorted {u : UTables} {l : Lexicon} {x : LexRe} (hl : PlainLexicon u l) (hx : x.For u l) (k : Kind) (m : M) :
    ((kindRx u x k).run m).Pairwise Longer := by
  cases k with
  | phrase => exact gen_sorted hl hx m
  | decimal => exact decimal_sorted u x m
  | number => exact plus_sorted _ _
  | word => exact word_sorted u x m
  | letters => exact plus_sorted _ _
  | mixed => exact plus_sorted _ _

/-- What an alternative matches. -/
theorem mem_kindRx {u : UTables} {l : Lexicon} {x : LexRe} (hl : PlainLexicon u l) (hx : x.For u l) {k : Kind} {m m' : M}
    {w : Str} (e : Eats m w m') : m' ∈ (kindRx u x k).run m ↔
      m'.caps = m.caps ∧ k.Is u (lexWords l) m.prev.head? w m'.rest.head? := by
  have hplus : ∀ p : Char → Bool, m' ∈ (Rx.plus p).run m ↔ m'.caps = m.caps ∧ RunOf p w := by
    intro p
    rw [mem_plus, RunOf]
    constructor
    · rintro ⟨a, h0, h1, e', hc⟩; rw [e'.unique e] at h0 h1; exact ⟨hc, h0, h1⟩
    · rintro ⟨hc, h0, h1⟩; exact ⟨w, h0, h1, e, hc⟩
  cases k with
  | phrase =>
    simp only [kindRx, Kind.Is]
    rw [← phrase_iff hl hx e, mem_gen]
    exact ⟨fun ⟨_, _, h, hc⟩ => ⟨hc, h⟩, fun ⟨hc, h⟩ => ⟨w, e, h, hc⟩⟩
  | decimal =>
    simp only [kindRx, Kind.Is, Rx.seqs, mem_seq, mem_plus, mem_cls, Shape.dI]
    constructor
    · rintro ⟨m1, ⟨a, ha0, ha, e1, c1⟩, m2, ⟨y, hy, e2, c2⟩, b, hb0, hb, e3, c3⟩
      refine ⟨by rw [c3, c2, c1], a, y, b, e.unique ((e1.trans e2).trans e3), ⟨ha0, ha⟩, ?_, ⟨hb0, hb⟩⟩
      simpa [or_assoc] using hy
    · rintro ⟨hc, a, y, b, rfl, ⟨ha0, ha⟩, hy, ⟨hb0, hb⟩⟩
      obtain ⟨pv, rs, cp⟩ := m
      obtain ⟨pv', rs', cp'⟩ := m'
      obtain ⟨e1, e2⟩ := e
      simp only at e1 e2 hc
      subst e1 e2 hc
      exact ⟨⟨a.reverse ++ pv, [y] ++ b ++ rs', cp'⟩, ⟨a, ha0, ha, ⟨by simp, by simp⟩, rfl⟩,
        ⟨(a ++ [y]).reverse ++ pv, b ++ rs', cp'⟩, ⟨y, by simpa [or_assoc] using hy, ⟨by simp, by simp⟩, rfl⟩,
        b, hb0, hb, ⟨by simp, by simp⟩, rfl⟩
  | number => exact hplus _
  | word =>
    simp only [kindRx, Kind.Is, Rx.seqs, mem_seq, mem_plus, mem_wordStart, mem_wordEnd, atWordStart_iff, atWordEnd_iff]
    have hhead : w ≠ [] → m.rest.head? = w.head? := fun h => by rw [e.1, head?_append_left h]
    have hlast : w ≠ [] → m'.prev.head? = w.getLast? := fun h => by
      rw [e.2, head?_append_left (a := w.reverse) (by simpa using h), List.head?_reverse]
    constructor
    · rintro ⟨_, ⟨h, rfl⟩, m1, ⟨a, h0, h1, e', hc⟩, h', rfl⟩
      rw [e'.unique e] at h0 h1
      rw [hhead h0] at h
      rw [hlast h0] at h'
      exact ⟨hc, ⟨h0, h1⟩, h, h'⟩
    · rintro ⟨hc, ⟨h0, h1⟩, h, h'⟩
      rw [← hhead h0] at h
      rw [← hlast h0] at h'
      exact ⟨m, ⟨h, rfl⟩, m', ⟨w, h0, h1, e, hc⟩, h', rfl⟩
  | letters => exact hplus _
  | mixed => exact hplus _

theorem sepRx_sorted (u : UTables) (m : M) : ((sepRx u).run m).Pairwise (fun a b => a.rest.length ≤ b.rest.length) := by
  simp only [sepRx, Rx.alts]
  rw [Rx.run, List.pairwise_append]
  refine ⟨(plus_sorted _ _).imp (fun h => Nat.le_of_lt h), ?_, ?_⟩
  · rw [Rx.run, List.pairwise_append]
    refine ⟨?_, ?_, ?_⟩
    · rw [Rx.run]
      split
      · exact List.Pairwise.nil
      · split
        · exact List.pairwise_singleton _ _
        · exact List.Pairwise.nil
    · rw [Rx.run]
      split
      · exact List.pairwise_singleton _ _
      · exact List.Pairwise.nil
    · intro a ha b hb
      obtain ⟨c, _, ⟨h, _⟩, _⟩ := mem_cls.1 ha
      obtain ⟨_, rfl⟩ := mem_eol.1 hb
      rw [h]; simp
  · intro a ha b hb
    obtain ⟨v, h0, _, ⟨h, _⟩, _⟩ := mem_plus.1 ha
    have hv : 0 < v.length := List.length_pos_iff.2 h0
    rcases mem_alt.1 hb with hb | hb
    · obtain ⟨c, _, ⟨h', _⟩, _⟩ := mem_cls.1 hb
      have := congrArg List.length (h.symm.trans h')
      simp only [List.length_append, List.length_singleton] at this
      omega
    · obtain ⟨_, rfl⟩ := mem_eol.1 hb
      rw [h, List.length_append]; omega

/-- The two groups after the blanks. -/
def kindGroups (u : UTables) (x : LexRe) (k : Kind) (m : M) : List M :=
  ((kindRx u x k).run m).flatMap (fun m' =>
    (Rx.cap 2 (sepRx u)).run { m' with caps := (1, m.rest.take (m.rest.length - m'.rest.length)) :: m'.caps })

theorem kindGroups_run (u : UTables) (x : LexRe) (m : M) :
    (Rx.seq (.cap 1 (wordRx u x)) (.cap 2 (sepRx u))).run m = kinds.flatMap (fun k => kindGroups u x k m) := by
  rw [Rx.run, Rx.run, wordRx_run, List.flatMap_map, List.flatMap_assoc]
  rfl

theorem sep_iff {u : UTables} {m m' : M} {p : Str} (e : Eats m p m') :
    m' ∈ (sepRx u).run m ↔ m'.caps = m.caps ∧ (IsSeparator u p ∨ (p = [] ∧ LineEnd m.prev.reverse m'.rest)) := by
  rw [mem_sepRx e]
  have : p = [] → (atEol m = true ↔ LineEnd m.prev.reverse m'.rest) := by
    rintro rfl
    have hr : m.rest = m'.rest := e.1
    rw [← hr, ← atEol_iff (c := m.caps), List.reverse_reverse]
  constructor
  · rintro ⟨hc, h | ⟨h, h'⟩⟩
    · exact ⟨hc, Or.inl h⟩
    · exact ⟨hc, Or.inr ⟨h, (this h).1 h'⟩⟩
  · rintro ⟨hc, h | ⟨h, h'⟩⟩
    · exact ⟨hc, Or.inl h⟩
    · exact ⟨hc, Or.inr ⟨h, (this h).2 h'⟩⟩

theorem take_eats {m m' : M} {w : Str} (e : Eats m w m') : m.rest.take (m.rest.length - m'.rest.length) = w := by
  rw [e.1]; simp

/-- The first match is the best reading. -/
theorem head_tokenRx {u : UTables} {l : Lexicon} {x : LexRe} (hl : PlainLexicon u l) (hx : x.For u l)
    {before s : Str} {m : M} (h : ((tokenRx u x).run ⟨before.reverse, s, []⟩).head? = some m) :
    ∃ b, BestAt u (lexWords l) before s b (m.cap 1) (m.cap 2) m.rest := by
  have hdash : ∀ m1 : M, (Rx.notAhead (.plus (fun c => c = '—'))).run m1 = if m1.rest.head? = some '—' then [] else [m1] := by
    intro m1
    obtain ⟨pv, rs, cp⟩ := m1
    cases rs with
    | nil => simp [Rx.run]
    | cons c s =>
      simp only [Rx.run, decide_eq_true_eq, List.head?_cons, Option.some.injEq]
      by_cases hc : c = '—'
      · rw [if_pos hc, if_pos hc, if_neg]
        intro e
        have hm : (⟨c :: pv, s, cp⟩ : M) ∈ starRun (fun c => decide (c = '—')) cp (c :: pv) s :=
          mem_starRun.2 ⟨[], by simp, Eats.refl _, rfl⟩
        rw [List.isEmpty_iff.1 e] at hm; cases hm
      · rw [if_neg hc, if_neg hc]; rfl
  simp only [tokenRx, Rx.seqs] at h
  obtain ⟨n0, hn0, h⟩ := head_seq h
  obtain ⟨hbol, rfl⟩ := mem_bol.1 hn0
  have hstart := atBol_iff.1 hbol
  rw [Rx.run] at h
  obtain ⟨m1, hm1, h, hbest1⟩ := head_best (star_sorted _ _) h
  obtain ⟨b, hb, e1, c1⟩ := mem_star.1 hm1
  simp only [u.space_fold] at hb
  rw [Rx.run, hdash] at h
  have hd1 : m1.rest.head? ≠ some '—' := by
    intro e; rw [if_pos e] at h; simp at h
  rw [if_neg hd1, List.flatMap_singleton, kindGroups_run] at h
  obtain ⟨k, _, h, hbest2⟩ := head_best kinds_sorted h
  rw [kindGroups] at h
  obtain ⟨m2, hm2, h, hbest3⟩ := head_best (kindRx_sorted hl hx k m1) h
  obtain ⟨w, e2⟩ := run_eats _ _ _ hm2
  rw [take_eats e2, Rx.run, List.head?_map, Option.map_eq_some_iff] at h
  obtain ⟨m3, h3, rfl⟩ := h
  have hm3 := List.mem_of_mem_head? h3
  obtain ⟨p, e3⟩ := run_eats _ _ _ hm3
  have hcap2 := noCaps_caps _ _ _ (kindRx_noCaps u x k) hm2
  have hcap3 := noCaps_caps _ _ _ (sepRx_noCaps u) hm3
  have hp := ((sep_iff e3).1 hm3).2
  have hk := ((mem_kindRx hl hx e2).1 hm2).2
  have e3' : Eats m2 p m3 := e3
  have hw1 : M.cap { m3 with caps := (2, m2.rest.take (m2.rest.length - m3.rest.length)) :: m3.caps } 1 = w := by
    simp [M.cap, capOf, hcap3]
  have hp1 : M.cap { m3 with caps := (2, m2.rest.take (m2.rest.length - m3.rest.length)) :: m3.caps } 2 = p := by
    simp [M.cap, capOf, take_eats e3']
  refine ⟨b, k, ?_, ?_⟩
  · rw [hw1, hp1]
    refine ⟨hstart, ((e1.trans e2).trans e3').1, hb, ?_, ?_, ?_⟩
    · rw [(e2.trans e3').1] at hd1; exact hd1
    · rw [e1.2, e3'.1, ← List.reverse_append, List.head?_reverse] at hk
      exact hk
    · have : m2.prev.reverse = before ++ b ++ w := by rw [e2.2, e1.2]; simp
      rcases hp with h | ⟨h, h'⟩
      · exact Or.inl h
      · refine Or.inr ⟨h, ?_⟩
        rw [← this]; exact h'
  · rw [hw1, hp1]
    intro b' k' w' p' r' hr
    -- the states the other reading goes through
    have f1 : Eats ⟨before.reverse, s, []⟩ b' ⟨(before ++ b').reverse, w' ++ p' ++ r', []⟩ :=
      ⟨by simp [hr.text], by simp⟩
    have g1 : (⟨(before ++ b').reverse, w' ++ p' ++ r', []⟩ : M) ∈ (Rx.star (fun c => u.isSpace (u.fold c))).run ⟨before.reverse, s, []⟩ := by
      refine mem_star.2 ⟨b', fun c hc => ?_, f1, rfl⟩
      rw [u.space_fold]; exact hr.blanks c hc
    have f2 : Eats ⟨(before ++ b').reverse, w' ++ p' ++ r', []⟩ w' ⟨(before ++ b' ++ w').reverse, p' ++ r', []⟩ :=
      ⟨by simp, by simp⟩
    have g2 : (⟨(before ++ b' ++ w').reverse, p' ++ r', []⟩ : M) ∈ (kindRx u x k').run ⟨(before ++ b').reverse, w' ++ p' ++ r', []⟩ := by
      rw [mem_kindRx hl hx f2]
      refine ⟨rfl, ?_⟩
      rw [List.head?_reverse]; exact hr.kind
    have f3 : Eats ⟨(before ++ b' ++ w').reverse, p' ++ r', [(1, w')]⟩ p' ⟨(before ++ b' ++ w' ++ p').reverse, r', [(1, w')]⟩ :=
      ⟨rfl, by simp⟩
    have g3 : (⟨(before ++ b' ++ w' ++ p').reverse, r', [(1, w')]⟩ : M) ∈ (sepRx u).run ⟨(before ++ b' ++ w').reverse, p' ++ r', [(1, w')]⟩ := by
      rw [sep_iff f3]
      refine ⟨rfl, ?_⟩
      rw [List.reverse_reverse]; exact hr.sep
    have g3' : (Rx.cap 2 (sepRx u)).run ⟨(before ++ b' ++ w').reverse, p' ++ r', [(1, w')]⟩ ≠ [] := by
      rw [Rx.run]
      intro e
      rw [List.map_eq_nil_iff] at e
      rw [e] at g3; cases g3
    have g2' : kindGroups u x k' ⟨(before ++ b').reverse, w' ++ p' ++ r', []⟩ ≠ [] := by
      intro e
      rw [kindGroups, List.flatMap_eq_nil_iff] at e
      have := e _ g2
      rw [take_eats f2] at this
      exact g3' this
    have g1' : (Rx.seq (.notAhead (.plus (fun c => c = '—'))) (.seq (.cap 1 (wordRx u x)) (.cap 2 (sepRx u)))).run
        ⟨(before ++ b').reverse, w' ++ p' ++ r', []⟩ ≠ [] := by
      rw [Rx.run, hdash, if_neg hr.dash, List.flatMap_singleton, kindGroups_run]
      intro e
      rw [List.flatMap_eq_nil_iff] at e
      exact g2' (e k' (mem_kinds k'))
    rw [NotWorse]
    rcases hbest1 _ g1 g1' with e | hlt
    · subst e
      have hbb : b' = b := f1.unique e1
      subst hbb
      refine Or.inr ⟨rfl, ?_⟩
      rcases hbest2 k' (mem_kinds k') g2' with rfl | hlt
      · refine Or.inr ⟨rfl, ?_⟩
        rcases hbest3 _ g2 (by rw [take_eats f2]; exact g3') with e | hlt
        · subst e
          have hww : w' = w := f2.unique e2
          subst hww
          refine Or.inr ⟨rfl, ?_⟩
          have hle : m3.rest.length ≤ r'.length := by
            have hs := sepRx_sorted u ⟨(before ++ b' ++ w').reverse, p' ++ r', [(1, w')]⟩
            have h3' : ((sepRx u).run ⟨(before ++ b' ++ w').reverse, p' ++ r', [(1, w')]⟩).head? = some m3 := h3
            revert h3' g3 hs
            generalize (sepRx u).run ⟨(before ++ b' ++ w').reverse, p' ++ r', [(1, w')]⟩ = L
            intro hmem hs h3'
            cases L with
            | nil => cases h3'
            | cons y ys =>
              simp only [List.head?_cons, Option.some.injEq] at h3'
              subst h3'
              rcases List.mem_cons.1 hmem with e | hmem
              · rw [← e]; exact Nat.le_refl _
              · exact (List.pairwise_cons.1 hs).1 _ hmem
          have h1 := congrArg List.length e3'.1
          simp only [List.length_append] at h1
          omega
        · exact Or.inl (longer_length e2 f2 hlt)
      · exact Or.inl hlt
    · exact Or.inl (longer_length e1 f1 hlt)

theorem isToken_iff {u : UTables} {words : List Str} {a c : Option Char} {w : Str} :
    IsToken u words a w c ↔ ∃ k : Kind, k.Is u words a w c := by
  rw [IsToken]
  constructor
  · rintro (h | h | h | h | h | h)
    · exact ⟨.phrase, h⟩
    · exact ⟨.decimal, h⟩
    · exact ⟨.number, h⟩
    · exact ⟨.word, h⟩
    · exact ⟨.letters, h⟩
    · exact ⟨.mixed, h⟩
  · rintro ⟨k, h⟩
    cases k with
    | phrase => exact Or.inl h
    | decimal => exact Or.inr (Or.inl h)
    | number => exact Or.inr (Or.inr (Or.inl h))
    | word => exact Or.inr (Or.inr (Or.inr (Or.inl h)))
    | letters => exact Or.inr (Or.inr (Or.inr (Or.inr (Or.inl h))))
    | mixed => exact Or.inr (Or.inr (Or.inr (Or.inr (Or.inr h))))

theorem readable_iff {u : UTables} {words : List Str} {a b : Str} : Readable u words a b ↔ CanGoOn u words a b := by
  rw [CanGoOn]
  constructor
  · rintro ⟨bl, k, w, p, r, h⟩
    exact ⟨h.start, bl, w, p, r, h.text, h.blanks, h.dash, isToken_iff.2 ⟨k, h.kind⟩, h.sep⟩
  · rintro ⟨h1, bl, w, p, r, h2, h3, h4, h5, h6⟩
    obtain ⟨k, hk⟩ := isToken_iff.1 h5
    exact ⟨bl, k, w, p, r, h1, h2, h3, h4, hk, h6⟩

/-- The best reading is one reading. -/
theorem bestAt_unique {u : UTables} {words : List Str} {before s b w p r b' w' p' r' : Str}
    (h : BestAt u words before s b w p r) (h' : BestAt u words before s b' w' p' r') :
    b = b' ∧ w = w' ∧ p = p' ∧ r = r' := by
  obtain ⟨k, h1, h2⟩ := h
  obtain ⟨k', h1', h2'⟩ := h'
  have a1 := h2 _ _ _ _ _ h1'
  have a2 := h2' _ _ _ _ _ h1
  rw [NotWorse] at a1 a2
  have hb : b.length = b'.length := by omega
  have hw : w.length = w'.length := by omega
  have hp : p.length = p'.length := by omega
  have e := h1.text.symm.trans h1'.text
  obtain ⟨e, er⟩ := List.append_inj e (by simp only [List.length_append]; omega)
  obtain ⟨e, ep⟩ := List.append_inj e (by simp only [List.length_append]; omega)
  obtain ⟨eb, ew⟩ := List.append_inj e hb
  exact ⟨eb, ew, ep, er⟩

theorem bestAt_readable {u : UTables} {words : List Str} {before s b w p r : Str}
    (h : BestAt u words before s b w p r) : Readable u words before s := by
  obtain ⟨k, h, _⟩ := h; exact ⟨_, _, _, _, _, h⟩

/-- A text splits in one way. -/
theorem splitsInto_unique {u : UTables} {words : List Str} {s last last' : Str} {rs rs' : List Round}
    (h : SplitsInto u words s rs last) (h' : SplitsInto u words s rs' last') : rs = rs' ∧ last = last' := by
  induction h generalizing rs' last' with
  | @stop s0 hs =>
    generalize hq : s0 = s' at h'
    cases h' with
    | stop _ => exact ⟨rfl, rfl⟩
    | round hne _ hbest _ =>
      exfalso
      rcases hs with hs | hs
      · exact hne (hq.symm.trans hs)
      · exact hs _ _ hq (bestAt_readable hbest)
  | @round a t b w p r last rs hne hbefore hbest hrest ih =>
    generalize hq : a ++ t = s' at h'
    cases h' with
    | stop hs =>
      exfalso
      subst hq
      rcases hs with hs | hs
      · exact hne hs
      · exact hs _ _ rfl (bestAt_readable hbest)
    | @round a' t' b' w' p' r' _ _ _ hbefore' hbest' hrest' =>
      have h1 : ¬ a'.length < a.length := fun hlt => hbefore _ _ hq hlt (bestAt_readable hbest')
      have h2 : ¬ a.length < a'.length := fun hlt => hbefore' _ _ hq.symm hlt (bestAt_readable hbest)
      obtain ⟨rfl, rfl⟩ := List.append_inj hq (by omega)
      obtain ⟨rfl, rfl, rfl, rfl⟩ := bestAt_unique hbest hbest'
      obtain ⟨rfl, rfl⟩ := ih hrest'
      exact ⟨rfl, rfl⟩

/-- The rounds of the loop split the text. -/
theorem rounds_splits {u : UTables} {l : Lexicon} {x : LexRe} (hl : PlainLexicon u l) (hx : x.For u l) {s last : Str}
    {qs : List Round} (h : Rounds u x s qs last) : SplitsInto u (lexWords l) s qs last := by
  induction h with
  | @stop s hs =>
    apply SplitsInto.stop
    rcases hs with hs | hs
    · right
      intro a b e hr
      have := searchFrom_none.1 hs a b e
      rw [List.append_nil] at this
      exact (canGoOn_iff hl hx a b).2 (readable_iff.1 hr) this
    · exact Or.inl hs
  | @round s rest last r rs ok hm hb _ ih =>
    obtain ⟨m, hm, h1, h2, h3⟩ := hm
    obtain ⟨b, hbest⟩ := head_tokenRx hl hx hm
    rw [h1, h2, h3] at hbest
    have hbb : b = r.blanks := by
      obtain ⟨_, hbest, _⟩ := hbest
      have := hbest.text
      exact (List.append_cancel_right (List.append_cancel_right (List.append_cancel_right this))).symm
    subst hbb
    have hs : s = r.skipped ++ (r.blanks ++ r.word ++ r.sep ++ rest) := by
      rw [ok.text, Round.text]; simp
    have hne : s ≠ [] := by
      intro e; rw [ok.text] at e; exact ok.nonempty (List.append_eq_nil_iff.1 e).1
    rw [hs]
    refine SplitsInto.round (by rw [← hs]; exact hne) ?_ hbest ih
    intro a' b' e hlt hr
    exact (canGoOn_iff hl hx a' b').2 (readable_iff.1 hr) (hb a' b' (hs.trans e) hlt)

end Tokenizer
end AS
