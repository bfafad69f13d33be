import Verif.Lemmas.Rule
import Verif.Props.Codec
/-
Properties C26–C28: reading and printing of rules.
-/
namespace AS.Props
open AS.Rule

theorem asOneType_eq_inNamed (w : Str) : InType.asOneType w = inNamed w := by
  unfold inNamed
  cases h : inTable.find? (fun e => e.1 == w) with
  | none =>
    simp only
    refine C01_inclass_other_string w (fun e he heq => ?_)
    have := List.find?_eq_none.1 h e he
    simp [heq] at this
  | some e =>
    have h1 := List.mem_of_find?_eq_some h
    have h2 := List.find?_some h
    have h3 := (C01_inclass_table e h1).2.2.1
    simp only [beq_iff_eq] at h2
    simp only
    rw [← h3, h2]

theorem asType_eq_outNamed (w : Str) : OutType.asType w = outNamed w := by
  unfold outNamed
  cases h : outTable.find? (fun e => e.1 == w) with
  | none =>
    simp only
    refine C05_outclass_other.1 w (fun e he heq => ?_)
    have := List.find?_eq_none.1 h e he
    simp [heq] at this
  | some e =>
    have h1 := List.mem_of_find?_eq_some h
    have h2 := List.find?_some h
    have h3 := (C05_outclass_table e h1).2.2.1
    simp only [beq_iff_eq] at h2
    simp only
    rw [← h3, h2]

variable {F : Type} (fo : FloatOps F)

/-! ## C26 -/

/-- A line is accepted as the rule `r` iff it is well formed and means `r`. -/
theorem C26_rule_line_meaning (h0 : fo.le0 fo.zero = true) (line : Str) (r : Rule F) :
    Rule.ofLine fo line = .ok r ↔ RuleMeans fo line r := by
  have hin : (InType.asOneType : Str → InType) = inNamed := funext asOneType_eq_inNamed
  have hout : (OutType.asType : Str → OutType) = outNamed := funext asType_eq_outNamed
  rw [ofLine_eq fo h0, madeOf_eq]
  unfold RuleMeans
  match hs : splitArrow (words line) with
  | [] => exact absurd hs (splitArrow_ne _)
  | [s] =>
    have e : isValid fo (applyFrom fo 0 (Rule.empty fo) [s]) = false := by
      refine isValid_false fo _ ?_; simp [applyFrom, applySec, Rule.empty, h0]
    simp [e]
  | [s, t] =>
    have e : isValid fo (applyFrom fo 0 (Rule.empty fo) [s, t]) = false := by
      refine isValid_false fo _ ?_; simp [applyFrom, applySec, Rule.empty, h0]
    simp [e]
  | ins :: outs :: sc :: rest =>
    have e : applyFrom fo 0 (Rule.empty fo) (ins :: outs :: sc :: rest) =
        ⟨ins.map inNamed, outs.map outNamed,
          match sc.getLast? with | none => fo.zero | some w => fo.parse w⟩ := by
      rw [applyFrom, applyFrom, applyFrom, applyFrom_ge3, hin.symm, hout.symm]
      simp only [applySec, Rule.empty, List.nil_append]
      cases sc.getLast? <;> rfl
    simp only [e]
    rcases List.eq_nil_or_concat sc with rfl | ⟨before, score, rfl⟩
    · have e2 : isValid fo ⟨ins.map inNamed, outs.map outNamed, fo.zero⟩ = false :=
        isValid_false fo _ h0
      simp [e2]
    · simp only [List.concat_eq_append, List.getLast?_concat]
      unfold isValid
      simp only [List.length_map]
      constructor
      · intro h
        by_cases hv : ins.length ≠ outs.length ∨ fo.le0 (fo.parse score) = true
        · rw [if_pos hv] at h; cases h
        · rw [if_neg hv] at h
          refine ⟨ins, outs, before, score, rest, rfl, ?_, ?_, (Made.ok.inj h).symm⟩
          · apply Classical.byContradiction; intro hne; exact hv (Or.inl hne)
          · cases hle : fo.le0 (fo.parse score) with
            | false => rfl
            | true => exact absurd (Or.inr hle) hv
      · rintro ⟨i', o', b', s', r', heq, h1, h2, h3⟩
        simp only [List.cons.injEq, List.append_singleton_inj] at heq
        obtain ⟨rfl, rfl, ⟨rfl, rfl⟩, rfl⟩ := heq
        simp [h1, h2, h3]

/-- Reading a line always ends, with the rule or with the error `Rule-Not-Valid`. -/
theorem C26_rule_line_total (h0 : fo.le0 fo.zero = true) (line : Str) :
    (∃ r, RuleMeans fo line r ∧ Rule.ofLine fo line = .ok r) ∨
    ((∀ r, ¬ RuleMeans fo line r) ∧ Rule.ofLine fo line = .notValid) := by
  cases h : Rule.ofLine fo line with
  | ok r => exact Or.inl ⟨r, (C26_rule_line_meaning fo h0 line r).1 h, rfl⟩
  | notValid =>
    refine Or.inr ⟨fun r hr => ?_, rfl⟩
    rw [(C26_rule_line_meaning fo h0 line r).2 hr] at h
    cases h
  | diverges =>
    rw [ofLine_eq fo h0, madeOf_eq] at h
    simp only at h
    split at h <;> cases h

/-- An accepted rule is valid: as many input as output classes and a score that is not `<= 0`. -/
theorem C26_accepted_valid (h0 : fo.le0 fo.zero = true) (line : Str) (r : Rule F)
    (h : Rule.ofLine fo line = .ok r) : r.inClass.length = r.outClass.length ∧ fo.le0 r.score = false := by
  obtain ⟨ins, outs, _, _, _, _, h1, h2, rfl⟩ := (C26_rule_line_meaning fo h0 line r).1 h
  simp [h1, h2]

example : ratOps.le0 ratOps.zero = true ∧
    Rule.ofLine ratOps c!"NUMBER WORD TYPE -> HOUSE STREET SUFTYP -> 0.9" =
      .ok ⟨[.NUMBER, .WORD, .TYPE], [.HOUSE, .STREET, .SUFTYP], 9 / 10⟩ ∧
    Rule.ofLine ratOps c!"NUMBER FOO -> HOUSE BAR -> x 0.5 -> junk" =
      .ok ⟨[.NUMBER, .BADTOKEN], [.HOUSE, .BADTOKEN], 1 / 2⟩ ∧
    Rule.ofLine ratOps c!"NUMBER -> HOUSE STREET -> 0.5" = .notValid ∧
    Rule.ofLine ratOps c!"" = .notValid := by decide +kernel

example : RuleMeans ratOps c!" NUMBER ->  HOUSE -> 0.5 " ⟨[.NUMBER], [.HOUSE], 1 / 2⟩ :=
  ⟨[c!"NUMBER"], [c!"HOUSE"], [], c!"0.5", [], by decide +kernel, rfl, by decide +kernel, by decide +kernel⟩

/-! ## C27 -/

/-- Trailing blanks change neither acceptance nor the rule. -/
theorem C27_trailing_blanks (h0 : fo.le0 fo.zero = true) (line blanks : Str)
    (hb : ∀ c ∈ blanks, c ∈ [' ', '\t', '\n', '\x0b', '\x0c', '\r']) :
    Rule.ofLine fo (line ++ blanks) = Rule.ofLine fo line := by
  rw [ofLine_eq fo h0, ofLine_eq fo h0, words_append_space]
  intro c hc
  have := hb c hc
  simp only [List.mem_cons, List.not_mem_nil, or_false] at this
  rcases this with rfl | rfl | rfl | rfl | rfl | rfl <;> decide

example : (∀ c ∈ c!" \t\r", c ∈ [' ', '\t', '\n', '\x0b', '\x0c', '\r']) ∧
    Rule.ofLine ratOps (c!"NUMBER -> HOUSE -> 0.5" ++ c!" \t\r") = .ok ⟨[.NUMBER], [.HOUSE], 1 / 2⟩ := by
  decide +kernel

/-! ## C28 -/

/-- A printed valid rule reads back as the same rule, if its score prints as one word that reads back
as that score. -/
theorem C28_rule_roundtrip (h0 : fo.le0 fo.zero = true) (r : Rule F)
    (hlen : r.inClass.length = r.outClass.length) (hscore : fo.le0 r.score = false)
    (hne : fo.print r.score ≠ []) (hsp : ∀ c ∈ fo.print r.score, whiteSpace c = false)
    (harrow : fo.print r.score ≠ c!"->") (hrt : fo.parse (fo.print r.score) = r.score) :
    Rule.ofLine fo (Rule.print fo r) = .ok r := by
  rw [C26_rule_line_meaning fo h0]
  refine ⟨r.inClass.map InType.asString, r.outClass.map OutType.asString, [], fo.print r.score, [], ?_, ?_, ?_, ?_⟩
  · rw [words_print fo r hne hsp, splitArrow_append_arrow, splitArrow_append_arrow]
    · simp [splitArrow, harrow]
    · intro w hw
      obtain ⟨t, _, rfl⟩ := List.mem_map.1 hw
      exact (out_name_ok t).2.2
    · intro w hw
      obtain ⟨t, _, rfl⟩ := List.mem_map.1 hw
      exact (in_name_ok t).2.2
  · simp [hlen]
  · rw [hrt]; exact hscore
  · obtain ⟨i, o, s⟩ := r
    simp only [List.map_map, hrt]
    have e1 : inNamed ∘ InType.asString = id := by
      funext t; simp only [Function.comp]; rw [← asOneType_eq_inNamed, asOneType_asString]; rfl
    have e2 : outNamed ∘ OutType.asString = id := by
      funext t; simp only [Function.comp]; rw [← asType_eq_outNamed, outType_asString]; rfl
    rw [e1, e2]; simp

example : let r : Rule Rat := ⟨[.NUMBER, .WORD], [.HOUSE, .STREET], 7⟩
    r.inClass.length = r.outClass.length ∧ ratOps.le0 r.score = false ∧ ratOps.print r.score ≠ [] ∧
    (∀ c ∈ ratOps.print r.score, whiteSpace c = false) ∧ ratOps.print r.score ≠ c!"->" ∧
    ratOps.parse (ratOps.print r.score) = r.score := by decide +kernel

/-- The printed form is the words of the two class lists and the score around two arrows. -/
theorem C28_rule_print (r : Rule F) (hne : fo.print r.score ≠ [])
    (hsp : ∀ c ∈ fo.print r.score, whiteSpace c = false) :
    words (Rule.print fo r) = r.inClass.map InType.asString ++ [c!"->"] ++
      r.outClass.map OutType.asString ++ [c!"->", fo.print r.score] := by
  rw [words_print fo r hne hsp]; simp

end AS.Props
