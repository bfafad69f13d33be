import Verif.Model.Str
import Verif.Model.InClass
/-
Lemmas about strings, streams, sets and `trimboth`.
-/
namespace AS

theorem cutAt_append (d : Char) (p r : Str) (h : d ∉ p) : cutAt d (p ++ d :: r) = (p, some r) := by
  induction p with
  | nil => simp [cutAt]
  | cons c cs ih =>
    simp only [List.mem_cons, not_or] at h
    have hc : ¬ c = d := fun e => h.1 e.symm
    simp [cutAt, hc, ih h.2]

theorem cutAt_none (d : Char) (p : Str) (h : d ∉ p) : cutAt d p = (p, none) := by
  induction p with
  | nil => simp [cutAt]
  | cons c cs ih =>
    simp only [List.mem_cons, not_or] at h
    have hc : ¬ c = d := fun e => h.1 e.symm
    simp [cutAt, hc, ih h.2]

theorem getline_append (d : Char) (p r old : Str) (h : d ∉ p) :
    (IStream.ofStr (p ++ d :: r)).getline d old = (IStream.ofStr r, p) := by
  simp [IStream.getline, IStream.ofStr, IStream.good, cutAt_append d p r h]

theorem getline_last (d : Char) (p old : Str) (h : d ∉ p) :
    (IStream.ofStr p).getline d old = ({ rest := [], eof := true, fail := p.isEmpty }, p) := by
  simp [IStream.getline, IStream.ofStr, IStream.good, cutAt_none d p h]

theorem getline_bad (s : IStream) (d : Char) (old : Str) (h : s.good = false) :
    s.getline d old = ({ s with fail := true }, old) := by
  simp [IStream.getline, h]

/-- Every string is a separator-joined list of separator-free parts. -/
theorem exists_parts (d : Char) (s : Str) :
    ∃ p ps, (∀ q ∈ p :: ps, d ∉ q) ∧ s = joinWith [d] (p :: ps) := by
  induction s with
  | nil => exact ⟨[], [], by simp, by simp [joinWith]⟩
  | cons c cs ih =>
    obtain ⟨p, ps, hp, he⟩ := ih
    by_cases hc : c = d
    · refine ⟨[], p :: ps, ?_, ?_⟩
      · intro q hq
        rcases List.mem_cons.1 hq with rfl | hq
        · simp
        · exact hp q hq
      · simp [joinWith, hc, he]
    · refine ⟨c :: p, ps, ?_, ?_⟩
      · intro q hq
        rcases List.mem_cons.1 hq with rfl | hq
        · have := hp p (by simp)
          simp only [List.mem_cons, not_or]
          exact ⟨fun e => hc e.symm, this⟩
        · exact hp q (by simp [hq])
      · cases ps with
        | nil => simp [joinWith, he]
        | cons x xs => simp [joinWith, he]

theorem joinWith_length (d : Char) (p : Str) (ps : List Str) :
    ps.length ≤ (joinWith [d] (p :: ps)).length := by
  induction ps generalizing p with
  | nil => simp
  | cons q qs ih => have := ih q; simp only [joinWith, List.length_append, List.length_cons] at *; omega

/-! ### sets -/

theorem mem_setInsert {α} (key : α → Int) (hinj : ∀ a b, key a = key b → a = b) (x y : α) (l : List α) :
    y ∈ setInsert key x l ↔ y = x ∨ y ∈ l := by
  induction l with
  | nil => simp [setInsert]
  | cons z zs ih =>
    unfold setInsert
    split
    · simp
    · split
      · have := hinj _ _ ‹key x = key z›
        subst this
        simp
      · simp only [List.mem_cons, ih]
        constructor
        · rintro (h | h | h) <;> simp [h]
        · rintro (h | h | h) <;> simp [h]

theorem isSet_setInsert {α} (key : α → Int) (hinj : ∀ a b, key a = key b → a = b) (x : α) (l : List α)
    (h : IsSet key l) : IsSet key (setInsert key x l) := by
  unfold IsSet at *
  induction l with
  | nil => simp [setInsert]
  | cons z zs ih =>
    rw [List.pairwise_cons] at h
    unfold setInsert
    split
    · rw [List.pairwise_cons]
      refine ⟨?_, by rw [List.pairwise_cons]; exact h⟩
      intro a ha
      rcases List.mem_cons.1 ha with rfl | ha
      · assumption
      · have := h.1 a ha; omega
    · split
      · rw [List.pairwise_cons]; exact h
      · rw [List.pairwise_cons]
        refine ⟨?_, ih h.2⟩
        intro a ha
        rw [mem_setInsert key hinj] at ha
        rcases ha with rfl | ha
        · omega
        · exact h.1 a ha

/-- Two sets with the same members are the same sequence. -/
theorem IsSet.ext {α} {key : α → Int} {l₁ l₂ : List α} (h₁ : IsSet key l₁) (h₂ : IsSet key l₂)
    (h : ∀ x, x ∈ l₁ ↔ x ∈ l₂) : l₁ = l₂ := by
  unfold IsSet at *
  induction l₁ generalizing l₂ with
  | nil =>
    cases l₂ with
    | nil => rfl
    | cons y ys => have := (h y).2 (by simp); simp at this
  | cons x xs ih =>
    cases l₂ with
    | nil => have := (h x).1 (by simp); simp at this
    | cons y ys =>
      rw [List.pairwise_cons] at h₁ h₂
      have hxy : x = y := by
        have h1 := (h x).1 (by simp)
        have h2 := (h y).2 (by simp)
        rcases List.mem_cons.1 h1 with e | h1
        · exact e
        · rcases List.mem_cons.1 h2 with e | h2
          · exact e.symm
          · have := h₁.1 y h2; have := h₂.1 x h1; omega
      subst hxy
      congr 1
      apply ih h₁.2 h₂.2
      intro z
      constructor
      · intro hz
        rcases List.mem_cons.1 ((h z).1 (by simp [hz])) with e | hz'
        · subst e; have := h₁.1 z hz; omega
        · exact hz'
      · intro hz
        rcases List.mem_cons.1 ((h z).2 (by simp [hz])) with e | hz'
        · subst e; have := h₂.1 z hz; omega
        · exact hz'

/-! ### trimboth -/

theorem findIdx?_replicate_append (n : Nat) (c : Char) (cs : Str) (h : c ≠ ' ') :
    (List.replicate n ' ' ++ c :: cs).findIdx? (fun c => c != ' ') = some n := by
  induction n with
  | zero => simp [List.findIdx?_cons, h]
  | succ n ih => simp [List.replicate_succ, List.findIdx?_cons, ih]

theorem trimboth_blank (n : Nat) : trimboth (List.replicate n ' ') = List.replicate n ' ' := by
  have h1 : findFirstNotSpace (List.replicate n ' ') = none := by
    simp [findFirstNotSpace]
  have h2 : findLastNotSpace (List.replicate n ' ') = none := by
    simp [findLastNotSpace]
  simp [trimboth, h1, h2]

/-- `trimboth` removes the blanks around a core that neither starts nor ends with a blank. -/
theorem trimboth_core (a b : Nat) (core : Str) (hne : core ≠ []) (hh : core.head hne ≠ ' ')
    (hl : core.getLast hne ≠ ' ') :
    trimboth (List.replicate a ' ' ++ core ++ List.replicate b ' ') = core := by
  obtain ⟨c, cs, rfl⟩ : ∃ c cs, core = c :: cs := by
    cases core with
    | nil => exact absurd rfl hne
    | cons c cs => exact ⟨c, cs, rfl⟩
  obtain ⟨ds, d, hd⟩ : ∃ ds d, c :: cs = ds ++ [d] :=
    ⟨(c :: cs).dropLast, (c :: cs).getLast hne, (List.dropLast_concat_getLast hne).symm⟩
  simp only [List.head_cons] at hh
  have hd' : d ≠ ' ' := by
    have : (c :: cs).getLast hne = d := by simp [hd]
    rwa [this] at hl
  have h1 : findFirstNotSpace (List.replicate a ' ' ++ c :: cs ++ List.replicate b ' ') = some a := by
    have := findIdx?_replicate_append a c (cs ++ List.replicate b ' ') hh
    simpa [findFirstNotSpace] using this
  have h2 : findLastNotSpace (List.replicate a ' ' ++ c :: cs ++ List.replicate b ' ')
      = some (a + ds.length) := by
    have := findIdx?_replicate_append b d (ds.reverse ++ List.replicate a ' ') hd'
    have hr : (List.replicate a ' ' ++ c :: cs ++ List.replicate b ' ').reverse
        = List.replicate b ' ' ++ d :: (ds.reverse ++ List.replicate a ' ') := by
      rw [hd]; simp
    unfold findLastNotSpace
    rw [hr, this]
    simp [hd]
    omega
  have hlen : (c :: cs).length = ds.length + 1 := by rw [hd]; simp
  simp only [trimboth, h1, h2]
  rw [List.append_assoc, List.drop_left' (by simp)]
  rw [List.take_left' (by rw [hlen, Nat.add_sub_cancel_left])]

/-- Every string is blanks only, or blanks around a core. -/
theorem blank_or_core (s : Str) :
    (∃ n, s = List.replicate n ' ') ∨
    (∃ a b core, ∃ hne : core ≠ [], core.head hne ≠ ' ' ∧ core.getLast hne ≠ ' ' ∧
      s = List.replicate a ' ' ++ core ++ List.replicate b ' ') := by
  induction s with
  | nil => exact Or.inl ⟨0, rfl⟩
  | cons c cs ih =>
    rcases ih with ⟨n, rfl⟩ | ⟨a, b, core, hne, hh, hl, rfl⟩
    · by_cases hc : c = ' '
      · exact Or.inl ⟨n + 1, by simp [hc, List.replicate_succ]⟩
      · exact Or.inr ⟨0, n, [c], by simp, by simpa using hc, by simpa using hc, by simp⟩
    · by_cases hc : c = ' '
      · exact Or.inr ⟨a + 1, b, core, hne, hh, hl, by simp [hc, List.replicate_succ]⟩
      · refine Or.inr ⟨0, b, c :: (List.replicate a ' ' ++ core), by simp, by simpa using hc, ?_, by simp⟩
        rw [List.getLast_cons (by simp [hne]), List.getLast_append_of_ne_nil (by simp [hne]) hne]
        exact hl

end AS
