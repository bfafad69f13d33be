import Verif.Props.Tools
import Verif.Props.LexSamples
/-
C101 for the header lines of the lexicons in data/sample.
-/
namespace AS
namespace Props

open Load

/-- The code of a header line, for checking. -/
def codeOf (h : Str) : Option Str :=
  match (headerLocale h).takeWhile (· ≠ '_'), (headerLocale h).dropWhile (· ≠ '_') with
  | _ :: _, _ :: r => some (lower r)
  | _, _ => none

theorem codeOf_spec {h code : Str} (e : codeOf h = some code) : HeaderCode h code := by
  unfold codeOf at e
  split at e
  · next a as b bs h1 h2 =>
    have h3 : headerLocale h = (a :: as) ++ b :: bs := by
      rw [← h1, ← h2, List.takeWhile_append_dropWhile]
    have hb : b = '_' := by
      have := List.head?_dropWhile_not (p := fun c => decide (c ≠ '_')) (l := headerLocale h)
      rw [h2] at this
      simpa using this
    have ha : '_' ∉ a :: as := by
      rw [← h1]
      intro hm
      have := List.all_takeWhile (p := fun c => decide (c ≠ '_')) (l := headerLocale h)
      have := List.all_eq_true.1 this _ hm
      simp at this
    subst hb
    exact ⟨a :: as, bs, by simp, ha, h3, (Option.some.inj e).symm⟩
  · cases e

/-- Each of them has a code, of two characters, without a quote. -/
theorem C101_samples (s : LexSample) (hs : s ∈ lexSamples) : ∃ code, HeaderCode s.header code ∧ Fits code ∧ '\'' ∉ code := by
  have h : ∀ h ∈ lexSamples.map (·.header), ∃ code, codeOf h = some code ∧ Fits code ∧ '\'' ∉ code := by
    have e : (lexSamples.map (·.header)).all (fun h =>
        match codeOf h with
        | some code => decide (Fits code) && !code.contains '\''
        | none => false) = true := by decide +kernel
    intro h hh
    have := List.all_eq_true.1 e h hh
    cases hc : codeOf h with
    | none => rw [hc] at this; cases this
    | some code =>
      rw [hc] at this
      simp only [Bool.and_eq_true, decide_eq_true_eq, Bool.not_eq_true', List.contains_eq_mem, decide_eq_false_iff_not] at this
      exact ⟨code, rfl, this.1, this.2⟩
  obtain ⟨code, e, h1, h2⟩ := h s.header (List.mem_map.2 ⟨s, hs, rfl⟩)
  exact ⟨code, codeOf_spec e, h1, h2⟩

/-- The code does not tell the rows apart: it is the same for two of them. -/
theorem C101_same_code : Sample.Italy.pair.lexicon ≠ Sample.Vatican.pair.lexicon ∧
    HeaderCode Sample.Italy.pair.lexicon.header c!"it" ∧ HeaderCode Sample.Vatican.pair.lexicon.header c!"it" ∧
    Sample.Italy.pair.lexicon ∈ lexSamples ∧ Sample.Vatican.pair.lexicon ∈ lexSamples := by
  refine ⟨?_, codeOf_spec (by decide +kernel), codeOf_spec (by decide +kernel), ?_, ?_⟩
  · intro e
    have : Sample.Italy.pair.lexicon.body.length = Sample.Vatican.pair.lexicon.body.length := by rw [e]
    revert this
    decide +kernel
  · exact List.mem_map.2 ⟨_, by simp [pairs], rfl⟩
  · exact List.mem_map.2 ⟨_, by simp [pairs], rfl⟩

end Props
end AS
