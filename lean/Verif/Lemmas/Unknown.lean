import Verif.Lemmas.Joint
import Verif.Lemmas.Synonym
import Verif.Props.Split
import Verif.Spec.Unknown
/-
Reading of words the lexicon does not know, and what they are standardized to.
-/
namespace AS
open Tokenizer

theorem kind_min {P : Kind → Prop} (h : ∃ k, P k) : ∃ k, P k ∧ ∀ k', P k' → k.rank ≤ k'.rank := by
  obtain ⟨k, hk⟩ := h
  by_cases h0 : P .phrase
  · exact ⟨_, h0, fun k' _ => by simp [Kind.rank]⟩
  by_cases h1 : P .decimal
  · exact ⟨_, h1, fun k' hk' => by cases k' <;> first | exact absurd hk' ‹_› | simp [Kind.rank]⟩
  by_cases h2 : P .number
  · exact ⟨_, h2, fun k' hk' => by cases k' <;> first | exact absurd hk' ‹_› | simp [Kind.rank]⟩
  by_cases h3 : P .word
  · exact ⟨_, h3, fun k' hk' => by cases k' <;> first | exact absurd hk' ‹_› | simp [Kind.rank]⟩
  by_cases h4 : P .letters
  · exact ⟨_, h4, fun k' hk' => by cases k' <;> first | exact absurd hk' ‹_› | simp [Kind.rank]⟩
  refine ⟨k, hk, fun k' hk' => ?_⟩
  cases k' <;> first | exact absurd hk' ‹_› | (cases k <;> simp [Kind.rank])

namespace Tokenizer

/-- A text of letters and digits, without separators, is read as a whole. -/
theorem splits_run {u : UTables} {words : List Str} {v : Str}
    (hchars : RunOf (fun c => u.alpha (u.fold c) || u.digit (u.fold c)) v) (hplain : ∀ c ∈ v, ¬ SepChar u c) :
    SplitsInto u words v [⟨[], [], v, []⟩] [] := by
  have hall : ∀ B k w p r, ReadAt u words [] v B k w p r → B = [] ∧ w = v ∧ p = [] ∧ r = [] := by
    intro B k w p r h
    have hB : B = [] := by
      cases B with
      | nil => rfl
      | cons d B =>
        exfalso
        have hd := h.blanks d (by simp)
        exact hplain d (by rw [h.text]; simp) (Or.inr (Or.inr (Or.inl hd)))
    have hp : p = [] := by
      cases p with
      | nil => rfl
      | cons d p =>
        exfalso
        have hd : d ∈ v := by rw [h.text]; simp
        refine hplain d hd (sepChar_iff.2 ?_)
        rcases h.sep with (hs | hs) | hs
        · exact Or.inl (hs.2 d (by simp))
        · cases hs; exact Or.inr rfl
        · cases hs.1
    have hr : r = [] := by
      rcases h.sep with hs | hs
      · subst hp
        rcases hs with hs | hs
        · exact absurd rfl hs.1
        · cases hs
      · rcases hs.2 with h0 | ⟨d, hd, hsep, _⟩
        · exact h0
        · exfalso
          cases r with
          | nil => cases hd
          | cons e r =>
            cases hd
            exact hplain d (by rw [h.text]; simp) (Or.inr (Or.inr (Or.inl (u.sep_space d hsep))))
    subst hB hp hr
    refine ⟨rfl, ?_, rfl, rfl⟩
    have := h.text
    simpa using this.symm
  have hex : ∃ k, ReadAt u words [] v [] k v [] [] := by
    refine ⟨.mixed, ⟨Or.inl rfl, by simp, by simp, ?_, hchars, Or.inr ⟨rfl, Or.inl rfl⟩⟩⟩
    rw [List.append_nil, List.append_nil]
    intro h'
    exact hplain '—' (List.mem_of_head? h') (sepChar_iff.2 (Or.inr rfl))
  obtain ⟨k, hk, hmin⟩ := kind_min hex
  have hbest : BestAt u words [] v [] v [] [] := by
    refine ⟨k, hk, fun B k' w p r h => ?_⟩
    obtain ⟨rfl, rfl, rfl, rfl⟩ := hall B k' w p r h
    have := hmin k' h
    rw [NotWorse]
    simp only [List.length_nil, true_and, Nat.lt_irrefl, false_or]
    omega
  have hv0 : v ≠ [] := hchars.1
  exact .round (a := []) (by simpa using hv0) (fun _ _ _ h => absurd h (by simp)) hbest (.stop (Or.inl rfl))

end Tokenizer

/-- Neither word has a standard text, in the class. -/
def NoStandard (l : Lexicon) (v w : Str) (s : Str) (c : InType) : Prop :=
  s = [] ∧ ∀ cs, Lexicon.stdLoop (c :: cs) (l.find v) = some none ∧ Lexicon.stdLoop (c :: cs) (l.find w) = some none

/-- The standardized tokens differ in the text. -/
theorem standardize_swapped {l : Lexicon} {v w : Str} {t t' : Token} (h : Swapped (NoStandard l v w) v w t t') :
    (l.standardize t = none ∧ l.standardize t' = none) ∨ ∃ s s', l.standardize t = some s ∧ l.standardize t' = some s' ∧
      s'.outclass = s.outclass ∧ (s'.stdtext = s.stdtext ∨ (s.stdtext = v ∧ s'.stdtext = w)) := by
  rcases h with rfl | ⟨h1, rfl, h2, h3⟩
  · cases hs : l.standardize t' with
    | none => exact Or.inl ⟨rfl, rfl⟩
    | some s => exact Or.inr ⟨s, s, rfl, rfl, rfl, Or.inl rfl⟩
  · obtain ⟨c, cs, hc⟩ := List.exists_cons_of_ne_nil h2
    obtain ⟨hs, k⟩ := h3 c (by rw [hc]; simp)
    obtain ⟨k1, k2⟩ := k cs
    right
    refine ⟨{ t with stdtext := v }, { t with text := w, stdtext := w }, ?_, ?_, rfl, Or.inr ⟨rfl, rfl⟩⟩
    · unfold Lexicon.standardize
      rw [hc, h1, k1]
      simp [hs, h1, hc]
    · unfold Lexicon.standardize
      simp only [hc, k2]
      simp [hs]

theorem standardize_along {l : Lexicon} {v w : Str} {ts ts' : List Token}
    (h : Along (Swapped (NoStandard l v w) v w) ts ts') : ∀ {std : List Token}, ts.map l.standardize = std.map some →
    ∃ std', ts'.map l.standardize = std'.map some ∧ ∀ f, Along (fun x x' => x' = x ∨ (x = v ∧ x' = w))
      (Wrapper.wordsFor f std) (Wrapper.wordsFor f std') := by
  induction h with
  | nil => intro std e; cases std with
    | nil => exact ⟨[], rfl, fun f => .nil⟩
    | cons => cases e
  | cons r _ ih =>
    intro std e
    cases std with
    | nil => cases e
    | cons s std =>
      simp only [List.map_cons, List.cons.injEq] at e
      obtain ⟨std', e1, e2⟩ := ih e.2
      rcases standardize_swapped r with ⟨h1, _⟩ | ⟨s1, s', h1, h2, h3, h4⟩
      · rw [h1] at e; cases e.1
      · rw [e.1] at h1
        cases h1
        refine ⟨s' :: std', by simp [h2, e1], fun f => ?_⟩
        unfold Wrapper.wordsFor
        simp only [List.filter_cons, h3]
        split
        · exact .cons h4 (e2 f)
        · exact e2 f

theorem standardize_back {l : Lexicon} {v w : Str} {ts ts' : List Token}
    (h : Along (Swapped (NoStandard l v w) v w) ts ts') : ∀ {std' : List Token}, ts'.map l.standardize = std'.map some →
    ∃ std : List Token, ts.map l.standardize = std.map some := by
  induction h with
  | nil => intro std' e; exact ⟨[], rfl⟩
  | cons r _ ih =>
    intro std' e
    cases std' with
    | nil => cases e
    | cons s std' =>
      simp only [List.map_cons, List.cons.injEq] at e
      obtain ⟨std, e1⟩ := ih e.2
      rcases standardize_swapped r with ⟨_, h1⟩ | ⟨s1, s', h1, h2, _⟩
      · rw [h1] at e; cases e.1
      · exact ⟨s1 :: std, by simp [h1, e1]⟩

end AS
