import Verif.Spec.Wrapper
import Verif.Spec.Grammar
/-
Grammars to which rules have been added, or whose rules have been given higher scores.
-/
namespace AS
open AS.Wrapper
variable {F : Type}

/-- Less, or the same number. -/
def AtMost (fo : FloatOps F) (a b : F) : Prop := fo.lt a b = true ∨ a = b

/-- `Improved fo New rs rs'`: the rules `rs'` are the rules `rs`, with rules added anywhere, and with rules
replaced by rules for the same input classes with a score that is not lower. What has been added, or put
in place of another rule, is `New`. -/
inductive Improved (fo : FloatOps F) (New : Rule F → Prop) : List (Rule F) → List (Rule F) → Prop
  | nil : Improved fo New [] []
  | same {r : Rule F} {rs rs' : List (Rule F)} : Improved fo New rs rs' → Improved fo New (r :: rs) (r :: rs')
  | added {r : Rule F} {rs rs' : List (Rule F)} : New r → Improved fo New rs rs' → Improved fo New rs (r :: rs')
  | changed {r r' : Rule F} {rs rs' : List (Rule F)} : New r' → r'.inClass = r.inClass → AtMost fo r.score r'.score →
      Improved fo New rs rs' → Improved fo New (r :: rs) (r' :: rs')

/-- The meta sections are the same, the rules of the rule sections are improved, and rule sections the one
grammar does not have consist of new rules. -/
def ImprovedIn (fo : FloatOps F) (New : Rule F → Prop) (G H : Grammar F) : Prop :=
  (∀ s, s ∈ G.metaNames ↔ s ∈ H.metaNames) ∧
  (∀ s ∈ G.ruleSections, ∃ t ∈ H.ruleSections, t.1 = s.1 ∧ Improved fo New s.2 t.2) ∧
  (∀ t ∈ H.ruleSections, (∃ s ∈ G.ruleSections, s.1 = t.1) ∨ ∀ r ∈ t.2, New r)

/-- A line of a grammar text that is the rule `r`: no comment, no header, no reference. -/
def IsRuleLine (ct : CharTables) (fo : FloatOps F) (l : Str) (r : Rule F) : Prop :=
  ¬ IsComment ct l ∧ (∀ n, ¬ IsHeader ct l n) ∧ '@' ∉ l ∧ RuleMeans fo l r

/-- The lines `ls'` are the lines `ls`, with lines with new rules added anywhere, and with rules replaced by
new rules for the same input classes with a score that is not lower. -/
inductive ImprovedLines (ct : CharTables) (fo : FloatOps F) (New : Rule F → Prop) : List Str → List Str → Prop
  | nil : ImprovedLines ct fo New [] []
  | same {l : Str} {ls ls' : List Str} : ImprovedLines ct fo New ls ls' → ImprovedLines ct fo New (l :: ls) (l :: ls')
  | added {l : Str} {r : Rule F} {ls ls' : List Str} : IsRuleLine ct fo l r → New r → ImprovedLines ct fo New ls ls' →
      ImprovedLines ct fo New ls (l :: ls')
  | changed {l l' : Str} {r r' : Rule F} {ls ls' : List Str} : IsRuleLine ct fo l r → IsRuleLine ct fo l' r' → New r' →
      r'.inClass = r.inClass → AtMost fo r.score r'.score → ImprovedLines ct fo New ls ls' →
      ImprovedLines ct fo New (l :: ls) (l' :: ls')

/-- No rule has a score that counts as zero or negative. -/
def ScoresCount (fo : FloatOps F) (G : Grammar F) : Prop :=
  ∀ s ∈ G.ruleSections, ∀ r ∈ s.2, fo.le0 r.score = false

/-- Sums and quotients in floating point: NaN stays NaN, and of numbers that are not negative, larger
operands do not give smaller results, whatever the rounding. -/
structure MonoLaws (fo : FloatOps F) (nan : F → Prop) : Prop extends NanLaws fo nan where
  pos : ∀ a, fo.le0 a = false → nan a ∨ fo.lt fo.zero a = true
  add_nan : ∀ a b, nan a ∨ nan b → nan (fo.add a b)
  add_nonneg : ∀ a b, AtMost fo fo.zero a → AtMost fo fo.zero b → AtMost fo fo.zero (fo.add a b)
  add_mono : ∀ a a' b b', AtMost fo fo.zero a → AtMost fo fo.zero b → AtMost fo a a' → AtMost fo b b' →
    AtMost fo (fo.add a b) (fo.add a' b')
  div_nan : ∀ a n, nan a → nan (fo.divNat a n)
  div_mono : ∀ a a' n, n ≠ 0 → AtMost fo fo.zero a → AtMost fo a a' → AtMost fo (fo.divNat a n) (fo.divNat a' n)

theorem nanOps_mono : MonoLaws nanOps (· = none) where
  toNanLaws := nanOps_laws
  pos a h := by
    cases a with
    | none => exact Or.inl rfl
    | some a => simp only [nanOps, decide_eq_false_iff_not, decide_eq_true_eq] at *; right; grind
  add_nan a b h := by
    rcases h with rfl | rfl
    · rfl
    · cases a <;> rfl
  add_nonneg a b h1 h2 := by
    cases a <;> cases b <;> simp only [AtMost, nanOps, decide_eq_true_eq, Option.some.injEq, reduceCtorEq, Bool.false_eq_true, or_self] at * <;> grind
  add_mono a a' b b' h1 h2 h3 h4 := by
    cases a <;> cases b <;> cases a' <;> cases b' <;>
      simp only [AtMost, nanOps, decide_eq_true_eq, Option.some.injEq, reduceCtorEq, Bool.false_eq_true, or_self] at * <;> grind
  div_nan a n h := by subst h; rfl
  div_mono a a' n hn h1 h2 := by
    cases a <;> cases a' <;> simp only [AtMost, nanOps, decide_eq_true_eq, Option.some.injEq, reduceCtorEq, Bool.false_eq_true, or_self, Option.map_some] at *
    rcases h2 with h | h
    · left
      have : (0 : Rat) < n := by exact_mod_cast Nat.pos_of_ne_zero hn
      rw [Rat.div_def, Rat.div_def]
      exact Rat.mul_lt_mul_of_pos_right h (Rat.inv_pos.2 this)
    · right; rw [h]

theorem ratOps_mono : MonoLaws ratOps (fun _ => False) where
  toLtLaws := ratOps_laws
  total a b c _ h := by simp only [ratOps, decide_eq_true_eq] at *; grind
  left _ _ h := h.elim
  right _ _ h := h.elim
  pos a h := by simp only [ratOps, decide_eq_false_iff_not, decide_eq_true_eq] at *; right; grind
  add_nan _ _ h := h.elim id id
  add_nonneg a b h1 h2 := by simp only [AtMost, ratOps, decide_eq_true_eq] at *; grind
  add_mono a a' b b' h1 h2 h3 h4 := by simp only [AtMost, ratOps, decide_eq_true_eq] at *; grind
  div_nan _ _ h := h
  div_mono a a' n hn h1 h2 := by
    simp only [AtMost, ratOps, decide_eq_true_eq] at *
    rcases h2 with h | h
    · left
      have : (0 : Rat) < n := by exact_mod_cast Nat.pos_of_ne_zero hn
      rw [Rat.div_def, Rat.div_def]
      exact Rat.mul_lt_mul_of_pos_right h (Rat.inv_pos.2 this)
    · right; rw [h]

end AS
