import Verif.Spec.Tokenizer
import Verif.Lemmas.RxSearch
import Verif.Lemmas.Classify
/-
Facts about the loop of `getTokens`.
-/
namespace AS
namespace Tokenizer

theorem wordRx_noCaps (u : UTables) (x : LexRe) : (wordRx u x).noCaps = true := rfl
theorem sepRx_noCaps (u : UTables) : (sepRx u).noCaps = true := rfl

/-- The steps of a match. -/
theorem mem_tokenRx {u : UTables} {x : LexRe} {m0 m : M} : m ∈ (tokenRx u x).run m0 ↔
    ∃ m1 m2 m3 b w p, atBol m0 = true ∧ (∀ c ∈ b, u.isSpace c = true) ∧ Eats m0 b m1 ∧ m1.caps = m0.caps ∧
      m1.rest.head? ≠ some '—' ∧ m2 ∈ (wordRx u x).run m1 ∧ Eats m1 w m2 ∧
      m3 ∈ (sepRx u).run { m2 with caps := (1, w) :: m2.caps } ∧ Eats m2 p m3 ∧
      m = { m3 with caps := (2, p) :: m3.caps } := by
  have hdash : ∀ m1 : M, (Rx.plus (fun c => c = '—')).run m1 = [] ↔ m1.rest.head? ≠ some '—' := by
    intro m1
    obtain ⟨pv, rs, cp⟩ := m1
    cases rs with
    | nil => simp [Rx.run]
    | cons c s =>
      simp only [Rx.run, decide_eq_true_eq, List.head?_cons, ne_eq, Option.some.injEq]
      split
      · rename_i h
        simp only [h, not_true_eq_false, iff_false]
        intro e
        have hm : (⟨c :: pv, s, cp⟩ : M) ∈ starRun (fun c => decide (c = '—')) cp (c :: pv) s :=
          mem_starRun.2 ⟨[], by simp, Eats.refl _, rfl⟩
        rw [h] at hm
        rw [e] at hm; cases hm
      · rename_i h; simp [h]
  simp only [tokenRx, Rx.seqs, mem_seq, mem_bol, mem_star, mem_notAhead, mem_cap, hdash, u.space_fold]
  constructor
  · rintro ⟨_, ⟨h1, rfl⟩, m1, ⟨b, hb, e1, c1⟩, y, ⟨h2, hy⟩, _, ⟨m2, w, hw, e2, rfl⟩, m3, p, hp, e3, rfl⟩
    subst hy
    exact ⟨_, m2, m3, b, w, p, h1, hb, e1, c1, h2, hw, e2, hp, e3, rfl⟩
  · rintro ⟨m1, m2, m3, b, w, p, h1, hb, e1, c1, h2, hw, e2, hp, e3, rfl⟩
    exact ⟨m0, ⟨h1, rfl⟩, m1, ⟨b, hb, e1, c1⟩, m1, ⟨h2, rfl⟩, _, ⟨m2, w, hw, e2, rfl⟩, m3, p, hp, e3, rfl⟩

theorem mem_sepRx {u : UTables} {m m' : M} {p : Str} (e : Eats m p m') : m' ∈ (sepRx u).run m ↔
    m'.caps = m.caps ∧ (IsSeparator u p ∨ (p = [] ∧ atEol m = true)) := by
  simp only [sepRx, Rx.alts, mem_alt, mem_plus, mem_cls, mem_eol, u.space_fold, IsSeparator, RunOf, decide_eq_true_eq]
  constructor
  · rintro (⟨a, h0, h1, e', hc⟩ | ⟨c, rfl, e', hc⟩ | ⟨h, rfl⟩)
    · rw [e'.unique e] at h0 h1; exact ⟨hc, Or.inl (Or.inl ⟨h0, h1⟩)⟩
    · exact ⟨hc, Or.inl (Or.inr (e.unique e'))⟩
    · exact ⟨rfl, Or.inr ⟨e.unique (Eats.refl _), h⟩⟩
  · rintro ⟨hc, ((⟨h0, h1⟩ | rfl) | ⟨rfl, h⟩)⟩
    · exact Or.inl ⟨p, h0, h1, e, hc⟩
    · exact Or.inr (Or.inl ⟨_, rfl, e, hc⟩)
    · right; right
      refine ⟨h, ?_⟩
      obtain ⟨h1, h2⟩ := e
      obtain ⟨p1, r1, c1⟩ := m
      obtain ⟨p2, r2, c2⟩ := m'
      simp at h1 h2 hc
      simp [h1, h2, hc]

theorem atWordStart_iff {u : UTables} {m : M} : atWordStart u.isWord m = true ↔ Opens u m.prev.head? m.rest.head? := by
  obtain ⟨p, r, c⟩ := m
  cases r with
  | nil => simp [atWordStart, Opens]
  | cons d r =>
    cases p with
    | nil => simp [atWordStart, Opens]
    | cons a p => simp [atWordStart, Opens, and_comm]

theorem atWordEnd_iff {u : UTables} {m : M} : atWordEnd u.isWord m = true ↔ Opens u m.rest.head? m.prev.head? := by
  obtain ⟨p, r, c⟩ := m
  cases p with
  | nil => simp [atWordEnd, Opens]
  | cons a p =>
    cases r with
    | nil => simp [atWordEnd, Opens]
    | cons d r => simp [atWordEnd, Opens, and_comm]

theorem atBol_iff {before s : Str} {c : List (Nat × Str)} : atBol ⟨before.reverse, s, c⟩ = true ↔ LineStart before s := by
  rw [LineStart, ← List.head?_reverse, ← List.reverse_eq_nil_iff]
  generalize before.reverse = q
  cases q with
  | nil => simp [atBol]
  | cons a q =>
    cases s with
    | nil => simp [atBol, isSep, lineSeparator]
    | cons d s =>
      simp only [atBol, Bool.and_eq_true, Bool.not_eq_true', Bool.and_eq_false_iff, decide_eq_false_iff_not,
        List.head?_cons, Option.some.injEq, reduceCtorEq, false_or, not_and, exists_eq_left']
      constructor
      · rintro ⟨h, h'⟩; exact ⟨h, fun e => h'.elim (fun h' => absurd e h') id⟩
      · rintro ⟨h, h'⟩
        refine ⟨h, ?_⟩
        by_cases e : a = '\r'
        · exact Or.inr (h' e)
        · exact Or.inl e

theorem atEol_iff {before s : Str} {c : List (Nat × Str)} : atEol ⟨before.reverse, s, c⟩ = true ↔ LineEnd before s := by
  rw [LineEnd, ← List.head?_reverse]
  generalize before.reverse = q
  cases s with
  | nil => cases q <;> simp [atEol]
  | cons d s =>
    cases q with
    | nil => simp [atEol, isSep, lineSeparator]
    | cons a q =>
      simp only [atEol, Bool.and_eq_true, Bool.not_eq_true', Bool.and_eq_false_iff, decide_eq_false_iff_not,
        List.head?_cons, Option.some.injEq, reduceCtorEq, false_or, not_and, exists_eq_left']
      constructor
      · rintro ⟨h, h'⟩; exact ⟨h, fun e => h'.elim id (fun h' => absurd e h')⟩
      · rintro ⟨h, h'⟩
        refine ⟨h, ?_⟩
        by_cases e : d = '\n'
        · exact Or.inl (h' e)
        · exact Or.inr e

/-- The alternatives for a token, with the lexicon's pattern left as it is. -/
theorem mem_wordRx {u : UTables} {x : LexRe} {m m' : M} {w : Str} (e : Eats m w m') : m' ∈ (wordRx u x).run m ↔
    m'.caps = m.caps ∧
    (m'.rest.map u.canon ∈ x.all.run (m.rest.map u.canon) ∨
    (∃ a y b, w = a ++ [y] ++ b ∧ RunOf (fun c => u.digit (u.fold c)) a ∧ (y = '/' ∨ y = ',' ∨ y = '.') ∧
      RunOf (fun c => u.digit (u.fold c)) b) ∨
    RunOf (fun c => u.digit (u.fold c)) w ∨
    (RunOf (fun c => u.alpha (u.fold c)) w ∧ Opens u m.prev.head? m.rest.head? ∧ Opens u m'.rest.head? m'.prev.head?) ∨
    RunOf (fun c => u.letter (u.fold c) || u.nd (u.fold c)) w ∨
    RunOf (fun c => u.alpha (u.fold c) || u.digit (u.fold c)) w) := by
  simp only [wordRx, Rx.alts, Rx.seqs, mem_alt, mem_seq, mem_plus, mem_cls, mem_gen, mem_wordStart, mem_wordEnd,
    atWordStart_iff, atWordEnd_iff, Shape.dI]
  constructor
  · rintro (⟨a, e', h, hc⟩ | ⟨m1, ⟨a, ha0, ha, e1, c1⟩, m2, ⟨y, hy, e2, c2⟩, b, hb0, hb, e3, c3⟩ | ⟨a, h0, h1, e', hc⟩ |
      ⟨_, ⟨h, rfl⟩, m1, ⟨a, h0, h1, e', hc⟩, h', rfl⟩ | ⟨a, h0, h1, e', hc⟩ | ⟨a, h0, h1, e', hc⟩)
    · exact ⟨hc, Or.inl h⟩
    · refine ⟨by rw [c3, c2, c1], Or.inr (Or.inl ⟨a, y, b, e.unique ((e1.trans e2).trans e3), ⟨ha0, ha⟩, ?_, ⟨hb0, hb⟩⟩)⟩
      simpa [or_assoc] using hy
    · rw [e'.unique e] at h0 h1; exact ⟨hc, Or.inr (Or.inr (Or.inl ⟨h0, h1⟩))⟩
    · rw [e'.unique e] at h0 h1; exact ⟨hc, Or.inr (Or.inr (Or.inr (Or.inl ⟨⟨h0, h1⟩, h, h'⟩)))⟩
    · rw [e'.unique e] at h0 h1; exact ⟨hc, Or.inr (Or.inr (Or.inr (Or.inr (Or.inl ⟨h0, h1⟩))))⟩
    · rw [e'.unique e] at h0 h1; exact ⟨hc, Or.inr (Or.inr (Or.inr (Or.inr (Or.inr ⟨h0, h1⟩))))⟩
  · rintro ⟨hc, (h | ⟨a, y, b, rfl, ⟨ha0, ha⟩, hy, ⟨hb0, hb⟩⟩ | ⟨h0, h1⟩ | ⟨⟨h0, h1⟩, h, h'⟩ | ⟨h0, h1⟩ | ⟨h0, h1⟩)⟩
    · exact Or.inl ⟨w, e, h, hc⟩
    · right; left
      obtain ⟨pv, rs, cp⟩ := m
      obtain ⟨pv', rs', cp'⟩ := m'
      obtain ⟨e1, e2⟩ := e
      simp only at e1 e2 hc
      subst e1 e2 hc
      refine ⟨⟨a.reverse ++ pv, [y] ++ b ++ rs', cp'⟩, ⟨a, ha0, ha, ⟨by simp, by simp⟩, rfl⟩,
        ⟨(a ++ [y]).reverse ++ pv, b ++ rs', cp'⟩, ⟨y, by simpa [or_assoc] using hy, ⟨by simp, by simp⟩, rfl⟩,
        b, hb0, hb, ⟨by simp, by simp⟩, rfl⟩
    · exact Or.inr (Or.inr (Or.inl ⟨w, h0, h1, e, hc⟩))
    · exact Or.inr (Or.inr (Or.inr (Or.inl ⟨m, ⟨h, rfl⟩, m', ⟨w, h0, h1, e, hc⟩, h', rfl⟩)))
    · exact Or.inr (Or.inr (Or.inr (Or.inr (Or.inl ⟨w, h0, h1, e, hc⟩))))
    · exact Or.inr (Or.inr (Or.inr (Or.inr (Or.inr ⟨w, h0, h1, e, hc⟩))))

end Tokenizer
end AS
