import Verif.Lemmas.Rx
/-
Facts about generated patterns inside expressions, about the first match, and about searching.
-/
namespace AS

/-- What is left after a match is an end of the text. -/
theorem run_suffix : ∀ (r : Re) (s s' : Str), s' ∈ r.run s → s' <:+ s
  | .eps, s, s', h => by simp [Re.run] at h; simp [h]
  | .one p, s, s', h => by
    cases s with
    | nil => simp [Re.run] at h
    | cons c s =>
      simp only [Re.run] at h
      split at h <;> simp at h
      subst h; exact List.suffix_cons c _
  | .seq a b, s, s', h => by
    simp only [Re.run, List.mem_flatMap] at h
    obtain ⟨x, h1, h2⟩ := h
    exact (run_suffix b _ _ h2).trans (run_suffix a _ _ h1)
  | .alt a b, s, s', h => by
    simp only [Re.run, List.mem_append] at h
    rcases h with h | h
    · exact run_suffix a _ _ h
    · exact run_suffix b _ _ h
  | .opt a, s, s', h => by
    simp only [Re.run, List.mem_append, List.mem_singleton] at h
    rcases h with h | h
    · exact run_suffix a _ _ h
    · simp [h]

theorem mem_gen {f : Char → Char} {r : Re} {m m' : M} : m' ∈ (Rx.gen f r).run m ↔
    ∃ a, Eats m a m' ∧ m'.rest.map f ∈ r.run (m.rest.map f) ∧ m'.caps = m.caps := by
  simp only [Rx.run, List.mem_map]
  constructor
  · rintro ⟨s, hs, rfl⟩
    refine ⟨_, eats_advance _ _, ?_, rfl⟩
    obtain ⟨t, ht⟩ := run_suffix _ _ _ hs
    have e : (m.advance (m.rest.length - s.length)).rest.map f = s := by
      simp only [M.advance, List.map_drop, ← ht]
      have : m.rest.length - s.length = t.length := by
        have := congrArg List.length ht
        simp at this; omega
      rw [this, List.drop_left]
    rw [e]; exact hs
  · rintro ⟨a, ⟨h1, h2⟩, h3, h4⟩
    refine ⟨_, h3, ?_⟩
    obtain ⟨p, rs, c⟩ := m
    obtain ⟨p', rs', c'⟩ := m'
    simp only at h1 h2 h3 h4
    subst h1 h2 h4
    simp [M.advance]

/-- The first element of a concatenation is the first element of one of the parts. -/
theorem head_flatMap {α β : Type} {f : α → List β} {y : β} : ∀ {l : List α},
    (l.flatMap f).head? = some y → ∃ x ∈ l, (f x).head? = some y
  | [], h => by simp at h
  | x :: l, h => by
    rw [List.flatMap_cons] at h
    cases hf : f x with
    | nil =>
      rw [hf, List.nil_append] at h
      obtain ⟨z, hz, h⟩ := head_flatMap h
      exact ⟨z, List.mem_cons_of_mem _ hz, h⟩
    | cons b bs =>
      rw [hf] at h
      exact ⟨x, List.mem_cons_self .., by rw [hf]; simpa using h⟩

theorem head_seq {a b : Rx} {m m' : M} (h : ((Rx.seq a b).run m).head? = some m') :
    ∃ x ∈ a.run m, (b.run x).head? = some m' := by
  rw [Rx.run] at h; exact head_flatMap h

/-- A successful search: the match is the first one at a position, and there is none at any
position before. -/
theorem searchFrom_some {r : Rx} {m0 m : M} : ∀ {s prev : Str}, searchFrom r prev s = some (m0, m) →
    ∃ a b, s = a ++ b ∧ m0 = ⟨a.reverse ++ prev, b, []⟩ ∧ (r.run m0).head? = some m ∧
      ∀ a' b', s = a' ++ b' → a'.length < a.length → r.run ⟨a'.reverse ++ prev, b', []⟩ = []
  | [], prev, h => by
    rw [searchFrom] at h
    split at h
    · rename_i x xs hx
      simp only [Option.some.injEq, Prod.mk.injEq] at h
      obtain ⟨rfl, rfl⟩ := h
      exact ⟨[], [], rfl, rfl, by rw [hx]; rfl, fun _ _ _ h => absurd h (by simp)⟩
    · cases h
  | c :: s, prev, h => by
    rw [searchFrom] at h
    split at h
    · rename_i x xs hx
      simp only [Option.some.injEq, Prod.mk.injEq] at h
      obtain ⟨rfl, rfl⟩ := h
      exact ⟨[], c :: s, rfl, rfl, by rw [hx]; rfl, fun _ _ _ h => absurd h (by simp)⟩
    · rename_i hx
      obtain ⟨a, b, rfl, rfl, h1, h2⟩ := searchFrom_some h
      refine ⟨c :: a, b, rfl, by simp, by simpa using h1, ?_⟩
      intro a' b' e hl
      cases a' with
      | nil => simp only [List.nil_append] at e; subst e; exact hx
      | cons d a' =>
        simp only [List.cons_append, List.cons.injEq] at e
        obtain ⟨rfl, e⟩ := e
        have := h2 a' b' e (by simpa using hl)
        simpa using this

theorem searchFrom_none {r : Rx} : ∀ {s prev : Str}, searchFrom r prev s = none ↔
    ∀ a b, s = a ++ b → r.run ⟨a.reverse ++ prev, b, []⟩ = []
  | [], prev => by
    rw [searchFrom]
    constructor
    · intro h a b e
      have := List.append_eq_nil_iff.1 e.symm
      obtain ⟨rfl, rfl⟩ := this
      split at h
      · cases h
      · assumption
    · intro h
      have := h [] [] rfl
      simp only [List.reverse_nil, List.nil_append] at this
      rw [this]
  | c :: s, prev => by
    rw [searchFrom]
    constructor
    · intro h a b e
      split at h
      · cases h
      · rename_i hx
        cases a with
        | nil => simp only [List.nil_append] at e; subst e; exact hx
        | cons d a =>
          simp only [List.cons_append, List.cons.injEq] at e
          obtain ⟨rfl, e⟩ := e
          have := searchFrom_none.1 h a b e
          simpa using this
    · intro h
      have := h [] (c :: s) rfl
      simp only [List.reverse_nil, List.nil_append] at this
      rw [this]
      rw [searchFrom_none]
      intro a b e
      have := h (c :: a) b (by rw [e]; rfl)
      simpa using this

/-- Expressions without groups leave the captures alone. -/
def Rx.noCaps : Rx → Bool
  | .cap _ _ => false
  | .seq a b => a.noCaps && b.noCaps
  | .alt a b => a.noCaps && b.noCaps
  | .opt a => a.noCaps
  | _ => true

theorem noCaps_caps : ∀ (r : Rx) (m m' : M), r.noCaps = true → m' ∈ r.run m → m'.caps = m.caps
  | .eps, m, m', _, h => by simp [Rx.run] at h; rw [h]
  | .cls p, m, m', _, h => by obtain ⟨_, _, _, h⟩ := mem_cls.1 h; exact h
  | .star p, m, m', _, h => by obtain ⟨_, _, _, h⟩ := mem_star.1 h; exact h
  | .plus p, m, m', _, h => by obtain ⟨_, _, _, _, h⟩ := mem_plus.1 h; exact h
  | .seq a b, m, m', hn, h => by
    simp only [Rx.noCaps, Bool.and_eq_true] at hn
    obtain ⟨x, h1, h2⟩ := mem_seq.1 h
    rw [noCaps_caps b _ _ hn.2 h2, noCaps_caps a _ _ hn.1 h1]
  | .alt a b, m, m', hn, h => by
    simp only [Rx.noCaps, Bool.and_eq_true] at hn
    rcases mem_alt.1 h with h | h
    · exact noCaps_caps a _ _ hn.1 h
    · exact noCaps_caps b _ _ hn.2 h
  | .opt a, m, m', hn, h => by
    rcases mem_opt.1 h with h | rfl
    · exact noCaps_caps a _ _ hn h
    · rfl
  | .cap k a, m, m', hn, h => by simp [Rx.noCaps] at hn
  | .gen f r, m, m', _, h => by obtain ⟨_, _, _, h⟩ := mem_gen.1 h; exact h
  | .bol, m, m', _, h => by obtain ⟨_, rfl⟩ := mem_bol.1 h; rfl
  | .eol, m, m', _, h => by obtain ⟨_, rfl⟩ := mem_eol.1 h; rfl
  | .wordStart w, m, m', _, h => by simp only [Rx.run] at h; split at h <;> simp at h; rw [h]
  | .wordEnd w, m, m', _, h => by simp only [Rx.run] at h; split at h <;> simp at h; rw [h]
  | .within w, m, m', _, h => by simp only [Rx.run] at h; split at h <;> simp at h; rw [h]
  | .notAhead a, m, m', _, h => by simp only [Rx.run] at h; split at h <;> simp at h; rw [h]

theorem mem_wordStart {w : Char → Bool} {m m' : M} : m' ∈ (Rx.wordStart w).run m ↔ atWordStart w m = true ∧ m' = m := by
  rw [Rx.run]; split <;> simp [*]

theorem mem_wordEnd {w : Char → Bool} {m m' : M} : m' ∈ (Rx.wordEnd w).run m ↔ atWordEnd w m = true ∧ m' = m := by
  rw [Rx.run]; split <;> simp [*]

theorem mem_within {w : Char → Bool} {m m' : M} : m' ∈ (Rx.within w).run m ↔ atWithin w m = true ∧ m' = m := by
  rw [Rx.run]; split <;> simp [*]

theorem mem_notAhead {a : Rx} {m m' : M} : m' ∈ (Rx.notAhead a).run m ↔ a.run m = [] ∧ m' = m := by
  rw [Rx.run]; split <;> simp_all [List.isEmpty_iff]

end AS
