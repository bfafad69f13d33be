import Verif.Model.Rx
/-
Facts about regular expressions with captures.
-/
namespace AS

/-- `m'` is `m` moved over `a`. -/
def Eats (m : M) (a : Str) (m' : M) : Prop := m.rest = a ++ m'.rest ∧ m'.prev = a.reverse ++ m.prev

theorem Eats.refl (m : M) : Eats m [] m := ⟨rfl, rfl⟩

theorem Eats.trans {m m' m'' : M} {a b : Str} (h : Eats m a m') (h' : Eats m' b m'') : Eats m (a ++ b) m'' := by
  obtain ⟨h1, h2⟩ := h; obtain ⟨h3, h4⟩ := h'
  exact ⟨by rw [h1, h3, List.append_assoc], by rw [h4, h2]; simp⟩

theorem Eats.unique {m m' : M} {a b : Str} (h : Eats m a m') (h' : Eats m b m') : a = b :=
  List.append_cancel_right (h.1.symm.trans h'.1)

theorem mem_starRun {p : Char → Bool} {caps : List (Nat × Str)} {m' : M} : ∀ {rest prev : Str},
    m' ∈ starRun p caps prev rest ↔
      ∃ a, (∀ c ∈ a, p c = true) ∧ Eats ⟨prev, rest, caps⟩ a m' ∧ m'.caps = caps
  | [], prev => by
    simp only [starRun, List.mem_singleton, Eats]
    constructor
    · rintro rfl; exact ⟨[], by simp, ⟨rfl, rfl⟩, rfl⟩
    · rintro ⟨a, _, ⟨h1, h2⟩, h3⟩
      have h1' := List.append_eq_nil_iff.1 h1.symm
      obtain ⟨pv, rs, cp⟩ := m'
      simp only at h1' h2 h3
      obtain ⟨rfl, rfl⟩ := h1'
      subst h3; simp at h2; subst h2; rfl
  | c :: s, prev => by
    have key : ∀ (a : Str), (∀ d ∈ a, p d = true) ∧ Eats ⟨prev, c :: s, caps⟩ a m' ∧ m'.caps = caps ↔
        (a = [] ∧ m' = ⟨prev, c :: s, caps⟩) ∨
        ∃ b, a = c :: b ∧ p c = true ∧ (∀ d ∈ b, p d = true) ∧ Eats ⟨c :: prev, s, caps⟩ b m' ∧ m'.caps = caps := by
      intro a
      obtain ⟨pv, rs, cp⟩ := m'
      cases a with
      | nil =>
        simp only [Eats]
        constructor
        · rintro ⟨_, ⟨h1, h2⟩, h3⟩
          simp at h1 h2 h3
          subst h1 h2 h3; exact Or.inl (by simp)
        · rintro (⟨_, h⟩ | ⟨b, h, _⟩)
          · injection h with h1 h2 h3; subst h1 h2 h3; simp
          · cases h
      | cons d b =>
        simp only [Eats]
        constructor
        · rintro ⟨h0, ⟨h1, h2⟩, h3⟩
          simp only [List.cons_append, List.cons.injEq] at h1
          obtain ⟨rfl, h1⟩ := h1
          refine Or.inr ⟨b, rfl, h0 _ (List.mem_cons_self ..), fun d hd => h0 d (List.mem_cons_of_mem _ hd), ⟨h1, ?_⟩, h3⟩
          simpa using h2
        · rintro (⟨h, _⟩ | ⟨b', h, hp, h0, ⟨h1, h2⟩, h3⟩)
          · cases h
          · injection h with e1 e2; subst e1 e2
            refine ⟨?_, ⟨by simpa using h1, by simpa using h2⟩, h3⟩
            intro x hx; rcases List.mem_cons.1 hx with rfl | hx
            · exact hp
            · exact h0 _ hx
    simp only [key]
    rw [starRun]
    split
    · rename_i hp
      rw [List.mem_append, mem_starRun, List.mem_singleton]
      constructor
      · rintro (⟨b, h⟩ | h)
        · exact ⟨c :: b, Or.inr ⟨b, rfl, hp, h⟩⟩
        · exact ⟨[], Or.inl ⟨rfl, h⟩⟩
      · rintro ⟨a, ⟨_, h⟩ | ⟨b, _, _, h⟩⟩
        · exact Or.inr h
        · exact Or.inl ⟨b, h⟩
    · rename_i hp
      rw [List.mem_singleton]
      constructor
      · intro h; exact ⟨[], Or.inl ⟨rfl, h⟩⟩
      · rintro ⟨a, ⟨_, h⟩ | ⟨b, _, h, _⟩⟩
        · exact h
        · exact absurd h hp

theorem mem_star {p : Char → Bool} {m m' : M} : m' ∈ (Rx.star p).run m ↔
    ∃ a, (∀ c ∈ a, p c = true) ∧ Eats m a m' ∧ m'.caps = m.caps := by
  rw [Rx.run, mem_starRun]

theorem mem_cls {p : Char → Bool} {m m' : M} : m' ∈ (Rx.cls p).run m ↔
    ∃ c, p c = true ∧ Eats m [c] m' ∧ m'.caps = m.caps := by
  obtain ⟨pv, rs, cp⟩ := m
  obtain ⟨pv', rs', cp'⟩ := m'
  rw [Rx.run]
  cases rs with
  | nil => simp [Eats]
  | cons c s =>
    simp only [Eats]
    split
    · rename_i hp
      simp only [List.mem_singleton, M.mk.injEq, List.cons_append, List.nil_append, List.cons.injEq]
      constructor
      · rintro ⟨rfl, rfl, rfl⟩; exact ⟨c, hp, by simp, rfl⟩
      · rintro ⟨d, _, ⟨⟨rfl, rfl⟩, h⟩, rfl⟩; simp at h; subst h; simp
    · rename_i hp
      simp only [List.not_mem_nil, false_iff]
      rintro ⟨d, hd, ⟨h, _⟩, _⟩
      simp at h
      exact hp (h.1 ▸ hd)

theorem mem_plus {p : Char → Bool} {m m' : M} : m' ∈ (Rx.plus p).run m ↔
    ∃ a, a ≠ [] ∧ (∀ c ∈ a, p c = true) ∧ Eats m a m' ∧ m'.caps = m.caps := by
  obtain ⟨pv, rs, cp⟩ := m
  rw [Rx.run]
  cases rs with
  | nil =>
    simp only [List.not_mem_nil, false_iff]
    rintro ⟨a, h0, _, ⟨h1, _⟩, _⟩
    have := List.append_eq_nil_iff.1 h1.symm
    exact h0 this.1
  | cons c s =>
    simp only
    split
    · rename_i hp
      rw [mem_starRun]
      constructor
      · rintro ⟨a, h0, ⟨h1, h2⟩, h3⟩
        refine ⟨c :: a, by simp, ?_, ⟨by simpa using h1, by simpa using h2⟩, h3⟩
        intro x hx; rcases List.mem_cons.1 hx with rfl | hx
        · exact hp
        · exact h0 _ hx
      · rintro ⟨a, hne, h0, ⟨h1, h2⟩, h3⟩
        obtain ⟨d, a, rfl⟩ := List.exists_cons_of_ne_nil hne
        simp only [List.cons_append, List.cons.injEq] at h1
        obtain ⟨rfl, h1⟩ := h1
        exact ⟨a, fun x hx => h0 x (List.mem_cons_of_mem _ hx), ⟨h1, by simpa using h2⟩, h3⟩
    · rename_i hp
      simp only [List.not_mem_nil, false_iff]
      rintro ⟨a, hne, h0, ⟨h1, _⟩, _⟩
      obtain ⟨d, a, rfl⟩ := List.exists_cons_of_ne_nil hne
      simp only [List.cons_append, List.cons.injEq] at h1
      exact hp (h1.1 ▸ h0 d (List.mem_cons_self ..))

theorem mem_seq {a b : Rx} {m m' : M} : m' ∈ (Rx.seq a b).run m ↔ ∃ x ∈ a.run m, m' ∈ b.run x := by
  rw [Rx.run, List.mem_flatMap]

theorem mem_alt {a b : Rx} {m m' : M} : m' ∈ (Rx.alt a b).run m ↔ m' ∈ a.run m ∨ m' ∈ b.run m := by
  rw [Rx.run, List.mem_append]

theorem mem_opt {a : Rx} {m m' : M} : m' ∈ (Rx.opt a).run m ↔ m' ∈ a.run m ∨ m' = m := by
  rw [Rx.run, List.mem_append, List.mem_singleton]

theorem mem_bol {m m' : M} : m' ∈ Rx.bol.run m ↔ atBol m = true ∧ m' = m := by
  rw [Rx.run]; split <;> simp [*]

theorem mem_eol {m m' : M} : m' ∈ Rx.eol.run m ↔ atEol m = true ∧ m' = m := by
  rw [Rx.run]; split <;> simp [*]

theorem full_iff {r : Rx} {s : Str} : r.full s = true ↔ ∃ m ∈ r.run ⟨[], s, []⟩, m.rest = [] := by
  simp [Rx.full, List.any_eq_true]

theorem run_length : ∀ (r : Re) (s s' : Str), s' ∈ r.run s → s'.length ≤ s.length
  | .eps, s, s', h => by simp [Re.run] at h; simp [h]
  | .one p, s, s', h => by
    cases s with
    | nil => simp [Re.run] at h
    | cons c s =>
      simp only [Re.run] at h
      split at h <;> simp at h
      subst h; simp
  | .seq a b, s, s', h => by
    simp only [Re.run, List.mem_flatMap] at h
    obtain ⟨x, h1, h2⟩ := h
    exact Nat.le_trans (run_length b _ _ h2) (run_length a _ _ h1)
  | .alt a b, s, s', h => by
    simp only [Re.run, List.mem_append] at h
    rcases h with h | h
    · exact run_length a _ _ h
    · exact run_length b _ _ h
  | .opt a, s, s', h => by
    simp only [Re.run, List.mem_append, List.mem_singleton] at h
    rcases h with h | h
    · exact run_length a _ _ h
    · simp [h]

theorem eats_advance (m : M) (n : Nat) : Eats m (m.rest.take n) (m.advance n) := by
  simp [Eats, M.advance]

/-- A match moves forward. -/
theorem run_eats : ∀ (r : Rx) (m m' : M), m' ∈ r.run m → ∃ a, Eats m a m'
  | .eps, m, m', h => by simp [Rx.run] at h; subst h; exact ⟨[], Eats.refl _⟩
  | .cls p, m, m', h => by obtain ⟨c, _, h, _⟩ := mem_cls.1 h; exact ⟨_, h⟩
  | .star p, m, m', h => by obtain ⟨a, _, h, _⟩ := mem_star.1 h; exact ⟨_, h⟩
  | .plus p, m, m', h => by obtain ⟨a, _, _, h, _⟩ := mem_plus.1 h; exact ⟨_, h⟩
  | .seq a b, m, m', h => by
    obtain ⟨x, h1, h2⟩ := mem_seq.1 h
    obtain ⟨s, h1⟩ := run_eats a _ _ h1
    obtain ⟨t, h2⟩ := run_eats b _ _ h2
    exact ⟨_, h1.trans h2⟩
  | .alt a b, m, m', h => by
    rcases mem_alt.1 h with h | h
    · exact run_eats a _ _ h
    · exact run_eats b _ _ h
  | .opt a, m, m', h => by
    rcases mem_opt.1 h with h | rfl
    · exact run_eats a _ _ h
    · exact ⟨[], Eats.refl _⟩
  | .cap k a, m, m', h => by
    simp only [Rx.run, List.mem_map] at h
    obtain ⟨x, h, rfl⟩ := h
    obtain ⟨s, h⟩ := run_eats a _ _ h
    exact ⟨s, h⟩
  | .gen f r, m, m', h => by
    simp only [Rx.run, List.mem_map] at h
    obtain ⟨x, h, rfl⟩ := h
    exact ⟨_, eats_advance _ _⟩
  | .bol, m, m', h => by obtain ⟨_, rfl⟩ := mem_bol.1 h; exact ⟨[], Eats.refl _⟩
  | .eol, m, m', h => by obtain ⟨_, rfl⟩ := mem_eol.1 h; exact ⟨[], Eats.refl _⟩
  | .wordStart w, m, m', h => by
    simp only [Rx.run] at h; split at h <;> simp at h; subst h; exact ⟨[], Eats.refl _⟩
  | .wordEnd w, m, m', h => by
    simp only [Rx.run] at h; split at h <;> simp at h; subst h; exact ⟨[], Eats.refl _⟩
  | .within w, m, m', h => by
    simp only [Rx.run] at h; split at h <;> simp at h; subst h; exact ⟨[], Eats.refl _⟩
  | .notAhead a, m, m', h => by
    simp only [Rx.run] at h; split at h <;> simp at h; subst h; exact ⟨[], Eats.refl _⟩

/-- A group captures the text between the positions before and after it. -/
theorem mem_cap {k : Nat} {a : Rx} {m m' : M} : m' ∈ (Rx.cap k a).run m ↔
    ∃ x s, x ∈ a.run m ∧ Eats m s x ∧ m' = { x with caps := (k, s) :: x.caps } := by
  simp only [Rx.run, List.mem_map]
  have aux : ∀ x s, Eats m s x → m.rest.take (m.rest.length - x.rest.length) = s := by
    intro x s h
    rw [h.1]; simp
  constructor
  · rintro ⟨x, h, rfl⟩
    obtain ⟨s, hs⟩ := run_eats a _ _ h
    exact ⟨x, s, h, hs, by rw [aux x s hs]⟩
  · rintro ⟨x, s, h, hs, rfl⟩
    exact ⟨x, h, by rw [aux x s hs]⟩

end AS
