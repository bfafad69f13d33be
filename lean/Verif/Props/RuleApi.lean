import Verif.Props.Rule
/-
C73: matching, joining and inspecting rules.
-/
namespace AS.Props
open AS
variable {F : Type}

theorem matchLoop_iff : ∀ es pat : List InType, Rule.matchLoop es pat = true ↔ es <+: pat
  | [], _ => by simp [Rule.matchLoop]
  | _ :: _, [] => by simp [Rule.matchLoop]
  | e :: es, p :: ps => by
    rw [Rule.matchLoop, List.cons_prefix_cons]
    by_cases h : e = p
    · simp [h, matchLoop_iff es ps]
    · simp [h]

/-! ## C73 -/

/-- A rule matches a pattern iff the pattern begins with the input classes of the rule. -/
theorem C73_match (r : Rule F) (pat : List InType) : r.matchPat pat = true ↔ ∃ rest, pat = r.inClass ++ rest := by
  unfold Rule.matchPat
  by_cases h : pat.length < r.inClass.length
  · rw [if_pos h]
    constructor
    · intro h'; cases h'
    · rintro ⟨rest, rfl⟩; simp at h; omega
  · rw [if_neg h, matchLoop_iff]
    exact ⟨fun ⟨t, h⟩ => ⟨t, h.symm⟩, fun ⟨t, h⟩ => ⟨t, h.symm⟩⟩

/-- Classes by position, counted from 0; beyond the last one `BADTOKEN`. -/
theorem C73_positions (r : Rule F) (pos : Nat) :
    (∀ a c b, r.inClass = a ++ c :: b → a.length = pos → r.inAt pos = c) ∧
    (r.inClass.length ≤ pos → r.inAt pos = .BADTOKEN) ∧
    (∀ a c b, r.outClass = a ++ c :: b → a.length = pos → r.outAt pos = c) ∧
    (r.outClass.length ≤ pos → r.outAt pos = .BADTOKEN) := by
  refine ⟨?_, ?_, ?_, ?_⟩
  · rintro a c b e rfl; simp [Rule.inAt, e]
  · intro h; simp [Rule.inAt, List.getElem?_eq_none h]
  · rintro a c b e rfl; simp [Rule.outAt, e]
  · intro h; simp [Rule.outAt, List.getElem?_eq_none h]

/-- The joined rule matches a pattern iff the first rule does and the second one matches what follows. Its classes are
those of the first rule, then those of the second, and its score is half of the sum. -/
theorem C73_concat (fo : FloatOps F) (half : F → F) (r s : Rule F) :
    (r.concat fo half s).inClass = r.inClass ++ s.inClass ∧ (r.concat fo half s).outClass = r.outClass ++ s.outClass ∧
    (r.concat fo half s).score = half (fo.add r.score s.score) ∧
    ∀ pat, (r.concat fo half s).matchPat pat = true ↔ ∃ rest, pat = r.inClass ++ rest ∧ s.matchPat rest = true := by
  refine ⟨rfl, rfl, rfl, fun pat => ?_⟩
  rw [C73_match]
  constructor
  · rintro ⟨t, rfl⟩
    refine ⟨s.inClass ++ t, by simp [Rule.concat], (C73_match ..).2 ⟨t, rfl⟩⟩
  · rintro ⟨rest, rfl, h⟩
    obtain ⟨t, rfl⟩ := (C73_match ..).1 h
    exact ⟨t, by simp [Rule.concat]⟩

/-- Joining valid rules gives a valid one, if half of the sum of positive scores is positive. -/
theorem C73_concat_valid (fo : FloatOps F) (half : F → F)
    (hpos : ∀ x y, fo.le0 x = false → fo.le0 y = false → fo.le0 (half (fo.add x y)) = false) (r s : Rule F)
    (hr : r.isValid fo = true) (hs : s.isValid fo = true) : (r.concat fo half s).isValid fo = true := by
  have key : ∀ q : Rule F, q.isValid fo = true ↔ q.inClass.length = q.outClass.length ∧ fo.le0 q.score = false := by
    intro q
    unfold Rule.isValid
    split
    · next h =>
      simp only [Bool.false_eq_true, false_iff]
      rintro ⟨h1, h2⟩
      rcases h with h | h
      · exact h h1
      · rw [h2] at h; cases h
    · next h =>
      simp only [true_iff]
      refine ⟨Classical.byContradiction fun h1 => h (Or.inl h1), ?_⟩
      rw [Bool.eq_false_iff]; exact fun h2 => h (Or.inr h2)
  rw [key] at hr hs ⊢
  exact ⟨by simp [Rule.concat, hr.1, hs.1], hpos _ _ hr.2 hs.2⟩

/-- How three rules are put together does not matter for the classes; but unless the first and the last have the same
score it does for the score (of exact numbers): the rule joined last counts for half. -/
theorem C73_concat_grouping (r s t : Rule Rat) :
    let half : Rat → Rat := fun x => x / 2
    ((r.concat ratOps half s).concat ratOps half t).inClass = (r.concat ratOps half (s.concat ratOps half t)).inClass ∧
    ((r.concat ratOps half s).concat ratOps half t).outClass = (r.concat ratOps half (s.concat ratOps half t)).outClass ∧
    (((r.concat ratOps half s).concat ratOps half t).score = (r.concat ratOps half (s.concat ratOps half t)).score ↔
      r.score = t.score) := by
  refine ⟨by simp [Rule.concat], by simp [Rule.concat], ?_⟩
  simp only [Rule.concat, ratOps]
  constructor <;> intro h <;> grind

/-- The rule of the default constructor is empty, and no rule with a class is. -/
theorem C73_empty (fo : FloatOps F) (eq0 : F → Bool) (heq : eq0 fo.zero = true) :
    (Rule.empty fo).isEmpty eq0 = true ∧
    ∀ r : Rule F, r.inClass ≠ [] ∨ r.outClass ≠ [] → r.isEmpty eq0 = false := by
  refine ⟨by simp [Rule.isEmpty, Rule.empty, heq], fun r h => ?_⟩
  cases hr : r.isEmpty eq0 with
  | false => rfl
  | true =>
    simp only [Rule.isEmpty, Bool.and_eq_true, beq_iff_eq, List.length_eq_zero_iff] at hr
    exfalso
    rcases h with h | h
    · exact h hr.1.1
    · exact h hr.1.2

/-- A rule read from a line is not empty. -/
theorem C73_read_not_empty (fo : FloatOps F) (h0 : fo.le0 fo.zero = true) (eq0 : F → Bool)
    (heq : ∀ x, eq0 x = true → fo.le0 x = true) (line : Str) (r : Rule F) (h : Rule.ofLine fo line = .ok r) :
    r.isEmpty eq0 = false := by
  have hv := (C26_accepted_valid fo h0 line r h).2
  have h1 : eq0 r.score = false := by
    rw [Bool.eq_false_iff]; intro h1; rw [heq _ h1] at hv; cases hv
  simp [Rule.isEmpty, h1]

/-! ### Examples -/

def ruleA : Rule Rat := ⟨[.NUMBER, .WORD], [.HOUSE, .STREET], 2 / 10⟩
def ruleB : Rule Rat := ⟨[.CITY], [.CITY], 4 / 10⟩

example : ruleA.matchPat [.NUMBER, .WORD, .TYPE] = true ∧ ruleA.matchPat [.NUMBER] = false ∧
    ruleA.matchPat [.NUMBER, .TYPE, .WORD] = false ∧
    (ruleA.concat ratOps (· / 2) ruleB).matchPat [.NUMBER, .WORD, .CITY] = true := by decide +kernel

example : ruleA.inAt 1 = .WORD ∧ ruleA.outAt 1 = .STREET ∧ ruleA.inAt 2 = .BADTOKEN ∧ ruleA.outAt 7 = .BADTOKEN := by
  decide +kernel

example : ruleA.isValid ratOps = true ∧ ruleB.isValid ratOps = true ∧
    ∀ x y : Rat, ratOps.le0 x = false → ratOps.le0 y = false → ratOps.le0 (ratOps.add x y / 2) = false := by
  refine ⟨by decide +kernel, by decide +kernel, fun x y hx hy => ?_⟩
  simp only [ratOps, decide_eq_false_iff_not] at *
  grind

/-- Different scores at the ends. -/
example : ((ruleA.concat ratOps (· / 2) ruleA).concat ratOps (· / 2) ruleB).score = 3 / 10 ∧
    (ruleA.concat ratOps (· / 2) (ruleA.concat ratOps (· / 2) ruleB)).score = 1 / 4 := by decide +kernel

example : ratOps.le0 ratOps.zero = true ∧ (∀ x : Rat, decide (x = 0) = true → ratOps.le0 x = true) ∧
    Rule.ofLine ratOps c!"CITY -> CITY -> 0.4" = .ok ruleB ∧ (Rule.empty ratOps).isEmpty (fun x => decide (x = 0)) = true := by
  refine ⟨by decide +kernel, fun x h => ?_, by decide +kernel, by decide +kernel⟩
  simp only [ratOps, decide_eq_true_eq] at *
  grind

end AS.Props
