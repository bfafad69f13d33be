import Verif.Lemmas.Agree
import Verif.Lemmas.Choice
import Verif.Props.Split
import Verif.Props.Classify
import Verif.Spec.Elision
import Verif.Spec.Choice
/-
Words that end in a mark are not read where the mark stands before a letter.
-/
namespace AS
open Tokenizer

variable {u : UTables} {q : Char}

theorem Elides.right {a b : Str} (h : Elides u q (a ++ b)) : Elides u q b := by
  intro x y e
  exact h (a ++ x) y (by rw [e]; simp)

theorem isSpace_blank (u : UTables) : u.isSpace ' ' = true := u.cspace_space ' ' (by decide)

theorem sepChar_blank (u : UTables) : SepChar u ' ' := Or.inr (Or.inr (Or.inl (isSpace_blank u)))

theorem separator_char {p : Str} (h : IsSeparator u p) : p ≠ [] ∧ ∀ c ∈ p, SepChar u c := by
  rcases h with ⟨h0, h⟩ | rfl
  · refine ⟨h0, fun c hc => ?_⟩
    have := h c hc
    simp only [Bool.or_eq_true, decide_eq_true_eq] at this
    rcases this with (((h | h) | h) | h) | h
    · exact Or.inl h
    · exact Or.inr (Or.inl h)
    · exact Or.inr (Or.inr (Or.inl h))
    · exact Or.inr (Or.inr (Or.inr (Or.inl h)))
    · exact Or.inr (Or.inr (Or.inr (Or.inr (Or.inl h))))
  · exact ⟨by simp, fun c hc => by rw [List.mem_singleton.1 hc]; exact Or.inr (Or.inr (Or.inr (Or.inr (Or.inr rfl))))⟩

/-- What is read does not end in the mark. -/
theorem read_not_elided {x w p r : Str} (h : Elides u q (x ++ w ++ p ++ r)) {y : Str}
    (hsep : IsSeparator u p ∨ (p = [] ∧ LineEnd y r)) : w.getLast? ≠ some q := by
  intro hw
  obtain ⟨w0, rfl⟩ : ∃ w0, w = w0 ++ [q] := by
    obtain ⟨a, b⟩ := List.getLast?_eq_some_iff.1 hw
    exact ⟨a, b⟩
  obtain ⟨c, h1, h2⟩ := h (x ++ w0) (p ++ r) (by simp)
  rcases hsep with hp | ⟨rfl, hr⟩
  · obtain ⟨h3, h4⟩ := separator_char hp
    cases p with
    | nil => exact h3 rfl
    | cons d p =>
      simp only [List.cons_append, List.head?_cons, Option.some.injEq] at h1
      exact h2 (h4 c (by rw [h1]; exact List.mem_cons_self ..))
  · rw [List.nil_append] at h1
    rcases hr with rfl | ⟨d, hd, hs, _⟩
    · simp at h1
    · rw [hd, Option.some.injEq] at h1
      subst h1
      exact h2 (Or.inr (Or.inr (Or.inl (u.sep_space _ hs))))

theorem map_canon_last (hq : Mark u q) {w : Str} (h : (w.map u.canon).getLast? = some q) : w.getLast? = some q := by
  rw [List.getLast?_map] at h
  cases hl : w.getLast? with
  | none => rw [hl] at h; cases h
  | some c =>
    rw [hl] at h
    simp only [Option.map_some, Option.some.injEq] at h
    rw [hq.canon c h]

/-- The words agree but for those that end in the mark. -/
def AgreeBut (u : UTables) (q : Char) (words words' : List Str) : Prop := ∀ w, ¬ Elided u q w → (w ∈ words ↔ w ∈ words')

theorem readAt_agree (hq : Mark u q) {words words' : List Str} (hag : AgreeBut u q words words') (hne : ∃ w ∈ words, w ≠ [])
    {before s b w p r : Str} {k : Kind} (hs : Elides u q s) (h : ReadAt u words before s b k w p r) :
    ReadAt u words' before s b k w p r := by
  refine ⟨h.start, h.text, h.blanks, h.dash, ?_, h.sep⟩
  have hk := h.kind
  cases k with
  | phrase =>
    rcases hk with ⟨h1, h2⟩ | ⟨h1, _⟩
    · refine Or.inl ⟨h1, (hag _ ?_).1 h2⟩
      rintro ⟨h3, _⟩
      exact read_not_elided (h.text ▸ hs) h.sep (map_canon_last hq h3)
    · obtain ⟨x, hx, h0⟩ := hne
      exact absurd (h1 x hx) h0
  | decimal => exact hk
  | number => exact hk
  | word => exact hk
  | letters => exact hk
  | mixed => exact hk

theorem AgreeBut.symm {words words' : List Str} (h : AgreeBut u q words words') : AgreeBut u q words' words :=
  fun w hw => (h w hw).symm

theorem splits_agree (hq : Mark u q) {words words' : List Str} (hag : AgreeBut u q words words') (hne : ∃ w ∈ words, w ≠ [])
    (hne' : ∃ w ∈ words', w ≠ []) {s last : Str} {rs : List Round} (hs : Elides u q s) (h : SplitsInto u words s rs last) :
    SplitsInto u words' s rs last := by
  induction h with
  | stop h0 =>
    refine .stop (h0.imp id fun h a b e => ?_)
    rintro ⟨bl, k, w, p, r, hr⟩
    exact h a b e ⟨bl, k, w, p, r, readAt_agree hq hag.symm hne' (e ▸ hs).right hr⟩
  | @round a t b w p r last rs hn hbefore hbest hrest ih =>
    have ht := hs.right
    obtain ⟨k, h1, h2⟩ := hbest
    refine .round hn ?_ ⟨k, readAt_agree hq hag hne ht h1, ?_⟩ ?_
    · rintro a' b' e hlt ⟨bl, k, w, p, r, hr⟩
      exact hbefore a' b' e hlt ⟨bl, k, w, p, r, readAt_agree hq hag.symm hne' (e ▸ hs).right hr⟩
    · intro b' k' w' p' r' hr
      exact h2 b' k' w' p' r' (readAt_agree hq hag.symm hne' ht hr)
    · exact ih (Elides.right (a := b ++ w ++ p) (h1.text ▸ ht))

/-- Where the words and separators of the rounds come from. -/
theorem splits_rounds {words : List Str} {s last : Str} {rs : List Round} (h : SplitsInto u words s rs last) :
    ∀ r ∈ rs, ∃ x rest k c d y, s = x ++ r.word ++ r.sep ++ rest ∧ Kind.Is u words k c r.word d ∧
      (IsSeparator u r.sep ∨ (r.sep = [] ∧ LineEnd y rest)) := by
  induction h with
  | stop _ => intro r hr; cases hr
  | @round a t b w p r last rs hn hbefore hbest hrest ih =>
    obtain ⟨k, h1, _⟩ := hbest
    intro q hq
    rcases List.mem_cons.1 hq with rfl | hq
    · exact ⟨a ++ b, r, k, _, _, _, by rw [h1.text]; simp, h1.kind, h1.sep⟩
    · obtain ⟨x, rest, k', c, d, y, e, h⟩ := ih q hq
      exact ⟨a ++ b ++ w ++ p ++ x, rest, k', c, d, y, by rw [h1.text, e]; simp, h⟩

/-- Tokens that are not phrases have no mark. -/
theorem kind_no_mark (hq : Mark u q) {words : List Str} {k : Kind} {c d : Option Char} {w : Str} (h : Kind.Is u words k c w d)
    (hk : k ≠ .phrase) : q ∉ w := by
  have key : ∀ p : Char → Bool, (∀ c, p c = true → u.isWord c = true) → p (u.fold q) ≠ true := by
    intro p hp h
    rw [hq.fold] at h
    have := hp _ h
    rw [hq.notWord] at this
    cases this
  have hdig : u.digit (u.fold q) ≠ true := key _ u.digit_word
  have halpha : u.alpha (u.fold q) ≠ true := key _ u.alpha_word
  have hlet : u.letter (u.fold q) ≠ true := key _ u.letter_word
  have hnd : u.nd (u.fold q) ≠ true := key _ u.nd_word
  intro hm
  cases k with
  | phrase => exact hk rfl
  | decimal =>
    obtain ⟨a, x, b, rfl, h1, h2, h3⟩ := h
    simp only [List.mem_append, List.mem_singleton] at hm
    rcases hm with (hm | hm) | hm
    · exact hdig (h1.2 _ hm)
    · subst hm
      rcases h2 with h | h | h
      · exact hq.plain.1 h
      · exact hq.plain.2.1 h
      · exact hq.plain.2.2 h
    · exact hdig (h3.2 _ hm)
  | number => exact hdig (h.2 _ hm)
  | word => exact halpha (h.1.2 _ hm)
  | letters =>
    have := h.2 _ hm
    rw [Bool.or_eq_true] at this
    exact this.elim hlet hnd
  | mixed =>
    have := h.2 _ hm
    rw [Bool.or_eq_true] at this
    exact this.elim halpha hdig

/-! ### Texts of tokens -/

/-- Neither the text nor one of its words ends in the mark (unless made of separators), and it has no tab. -/
def Fine (u : UTables) (q : Char) (s : Str) : Prop :=
  '\t' ∉ s ∧ ¬ Elided u q s ∧ ∀ w ∈ splitBlanks false [] s, ¬ Elided u q w

theorem not_elided_of_no_mark {w : Str} (h : q ∉ w) : ¬ Elided u q w := fun he => h (List.mem_of_getLast? he.1)

theorem fine_of_no_mark {s : Str} (ht : '\t' ∉ s) (h : q ∉ s) : Fine u q s := by
  refine ⟨ht, not_elided_of_no_mark h, fun w hw => ?_⟩
  obtain ⟨_, a, b, e⟩ := wordsOf_parts hw
  exact not_elided_of_no_mark (fun hm => h (by rw [e]; simp [hm]))

/-- Separators, points and commas only. -/
def Outer (u : UTables) (s : Str) : Prop := ∀ c ∈ s, SepChar u c ∨ c = '.' ∨ c = ','

theorem outer_closed (u : UTables) : TextClosed (Outer u) where
  nil := fun c hc => by cases hc
  blank := fun c hc => by rw [List.mem_singleton.1 hc]; exact Or.inl (sepChar_blank u)
  sub := fun a b c h x hx => h x (by simp [hx])
  comma := by
    intro s h
    induction s with
    | nil => exact h
    | cons c s ih =>
      rw [firstComma]
      split
      · intro x hx
        rcases List.mem_cons.1 hx with rfl | hx
        · exact Or.inr (Or.inl rfl)
        · exact h x (List.mem_cons_of_mem _ hx)
      · intro x hx
        rcases List.mem_cons.1 hx with rfl | hx
        · exact h _ (List.mem_cons_self ..)
        · exact ih (fun y hy => h y (List.mem_cons_of_mem _ hy)) x hx

theorem not_elided_of_outer {w : Str} (h : Outer u w) : ¬ Elided u q w := by
  rintro ⟨_, c, hc, h1, h2, h3⟩
  rcases h c hc with h | h | h
  · exact h1 h
  · exact h2 h
  · exact h3 h

theorem fine_of_outer {s : Str} (ht : '\t' ∉ s) (h : Outer u s) : Fine u q s := by
  refine ⟨ht, not_elided_of_outer h, fun w hw => ?_⟩
  obtain ⟨_, a, b, e⟩ := wordsOf_parts hw
  exact not_elided_of_outer (fun c hc => h c (by rw [e]; simp [hc]))

/-- A part between blanks is followed by a blank or by nothing. -/
theorem splitOn_next (d : Char) : ∀ (s p : Str), p ∈ splitOn d s → ∃ a b, s = a ++ p ++ b ∧ (b = [] ∨ b.head? = some d)
  | [], p, h => by
    rw [splitOn, List.mem_singleton] at h
    exact ⟨[], [], by rw [h]; rfl, Or.inl rfl⟩
  | c :: s, p, h => by
    rw [splitOn] at h
    by_cases hc : c = d
    · rw [if_pos hc] at h
      rcases List.mem_cons.1 h with rfl | h
      · exact ⟨[], c :: s, rfl, Or.inr (by rw [hc]; rfl)⟩
      · obtain ⟨a, b, e, hb⟩ := splitOn_next d s p h
        exact ⟨c :: a, b, by rw [e]; rfl, hb⟩
    · rw [if_neg hc] at h
      have hfirst : ∀ (s q : Str) qs, splitOn d s = q :: qs → ∃ b, s = q ++ b ∧ (b = [] ∨ b.head? = some d) := by
        intro s
        induction s with
        | nil => intro q qs e; simp only [splitOn, List.cons.injEq] at e; exact ⟨[], by rw [← e.1]; rfl, Or.inl rfl⟩
        | cons x s ih =>
          intro q qs e
          rw [splitOn] at e
          split at e
          · next hx => simp only [List.cons.injEq] at e; exact ⟨x :: s, by rw [← e.1]; rfl, Or.inr (by rw [hx]; rfl)⟩
          · cases hs : splitOn d s with
            | nil => exact absurd hs (splitOn_ne_nil _ _)
            | cons y ys =>
              rw [hs] at e
              simp only [List.cons.injEq] at e
              obtain ⟨b, hb, hb'⟩ := ih y ys hs
              exact ⟨b, by rw [← e.1, List.cons_append, ← hb], hb'⟩
      cases hs : splitOn d s with
      | nil => exact absurd hs (splitOn_ne_nil _ _)
      | cons y ys =>
        rw [hs] at h
        simp only at h
        rcases List.mem_cons.1 h with rfl | h
        · obtain ⟨b, e, hb⟩ := hfirst s y ys hs
          exact ⟨[], b, by rw [e]; rfl, hb⟩
        · obtain ⟨a, b, e, hb⟩ := splitOn_next d s p (by rw [hs]; exact List.mem_cons_of_mem _ h)
          exact ⟨c :: a, b, by rw [e]; rfl, hb⟩

theorem wordsOf_splitOn {s w : Str} (hw : w ∈ splitBlanks false [] s) : w ∈ splitOn ' ' s := by
  rw [splitBlanks_eq] at hw
  unfold wordsOf at hw
  split at hw
  · cases hw
  · next p e => rw [e]; exact hw
  · next p q ps e =>
    rw [e]
    rw [List.cons_append] at hw
    rcases List.mem_cons.1 hw with rfl | hw
    · exact List.mem_cons_self ..
    · refine List.mem_cons_of_mem _ ?_
      rcases List.mem_append.1 hw with hw | hw
      · exact List.dropLast_subset _ (List.mem_filter.1 hw).1
      · rw [List.mem_singleton] at hw
        rw [hw]; exact List.getLast_mem _

theorem fine_of_elides {s : Str} (ht : '\t' ∉ s) (h : Elides u q s) : Fine u q s := by
  have key : ∀ a w b, s = a ++ w ++ b → (b = [] ∨ b.head? = some ' ') → ¬ Elided u q w := by
    rintro a w b e hb ⟨hw, _⟩
    obtain ⟨w0, rfl⟩ := List.getLast?_eq_some_iff.1 hw
    obtain ⟨c, h1, h2⟩ := h (a ++ w0) b (by rw [e]; simp)
    rcases hb with rfl | hb
    · cases h1
    · rw [hb, Option.some.injEq] at h1
      exact h2 (h1 ▸ sepChar_blank u)
  refine ⟨ht, key [] s [] (by simp) (Or.inl rfl), fun w hw => ?_⟩
  obtain ⟨a, b, e, hb⟩ := splitOn_next ' ' s w (wordsOf_splitOn hw)
  exact key a w b e hb

theorem firstComma_not_elided (hq : Mark u q) {s : Str} (h : ¬ Elided u q s) : ¬ Elided u q (firstComma s) := by
  rintro ⟨h1, c, hc, h2, h3, h4⟩
  refine h ⟨?_, c, ?_, h2, h3, h4⟩
  · clear h hc
    induction s with
    | nil => exact h1
    | cons x s ih =>
      rw [firstComma] at h1
      split at h1
      · cases s with
        | nil =>
          simp only [List.getLast?_singleton, Option.some.injEq] at h1
          exact absurd h1.symm hq.plain.2.2
        | cons y s => simpa using h1
      · cases s with
        | nil => exact h1
        | cons y s =>
          have hne : firstComma (y :: s) ≠ [] := by rw [firstComma]; split <;> simp
          rw [List.getLast?_cons_of_ne_nil hne] at h1
          rw [List.getLast?_cons_of_ne_nil (by simp)]
          exact ih h1
  · clear h h1
    induction s with
    | nil => exact hc
    | cons x s ih =>
      rw [firstComma] at hc
      split at hc
      · rcases List.mem_cons.1 hc with rfl | hc
        · exact absurd rfl h3
        · exact List.mem_cons_of_mem _ hc
      · rcases List.mem_cons.1 hc with rfl | hc
        · exact List.mem_cons_self ..
        · exact List.mem_cons_of_mem _ (ih hc)

end AS
