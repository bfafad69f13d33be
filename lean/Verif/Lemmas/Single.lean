import Verif.Model.Single
import Verif.Lemmas.Rounding
/-
Single and double precision satisfy what is asked of arithmetic that rounds.
-/
namespace AS

theorem nearestInt_near (y : Rat) : y - 1 / 2 ≤ (nearestInt y : Rat) ∧ (nearestInt y : Rat) ≤ y + 1 / 2 := by
  have h1 := Rat.floor_le y
  have h2 := Rat.lt_floor_add_one y
  have e : ((y.floor + 1 : Int) : Rat) = (y.floor : Rat) + 1 := by simp
  unfold nearestInt
  simp only
  split
  · grind
  · split
    · rw [e]; grind
    · split
      · grind
      · rw [e]; grind

theorem nearestInt_int (i : Int) : nearestInt (i : Rat) = i := by
  unfold nearestInt
  rw [Rat.floor_intCast]
  simp only
  rw [if_pos (by grind)]

/-- Scaling multiplies by a number above zero; scaling back divides by it. -/
theorem scale_mul (e : Int) : ∃ c : Rat, 0 < c ∧ (∀ x, scale x e = x * c) ∧ ∀ x, scale x (-e) * c = x := by
  have pos : ∀ n : Nat, (0 : Rat) < ((2 ^ n : Nat) : Rat) := fun n => by exact_mod_cast Nat.pow_pos (by omega)
  by_cases h : 0 ≤ e
  · refine ⟨((2 ^ e.toNat : Nat) : Rat), pos _, fun x => by unfold scale; rw [if_pos h], fun x => ?_⟩
    unfold scale
    by_cases h' : 0 ≤ -e
    · have : e = 0 := by omega
      subst this
      simp
    · rw [if_neg h', Int.neg_neg]
      have := pos e.toNat
      rw [Rat.div_def, Rat.mul_assoc, Rat.inv_mul_cancel _ (by grind), Rat.mul_one]
  · refine ⟨(((2 ^ (-e).toNat : Nat) : Rat))⁻¹, Rat.inv_pos.2 (pos _), fun x => by unfold scale; rw [if_neg h, Rat.div_def], fun x => ?_⟩
    unfold scale
    have := pos (-e).toNat
    rw [if_pos (by omega), Rat.mul_assoc, Rat.mul_inv_cancel _ (by grind), Rat.mul_one]

/-- The error of a rounding to `p` digits. -/
theorem roundPos_near {p : Nat} (hp : 0 < p) {x : Rat} (hx : 0 < x) : Near (1 / (2 ^ p : Nat)) 1 x (roundPos p x) := by
  have hU : (0 : Rat) < ((2 ^ p : Nat) : Rat) := by exact_mod_cast Nat.pow_pos (by omega)
  have hUi := Rat.inv_pos.2 hU
  have hu0 : (0 : Rat) < 1 / ((2 ^ p : Nat) : Rat) := by rw [Rat.div_def, Rat.one_mul]; exact hUi
  unfold Near
  rw [show ∀ z : Rat, z ^ 1 = z from fun z => by rw [Rat.pow_succ, Rat.pow_zero, Rat.one_mul],
    show ∀ z : Rat, z ^ 1 = z from fun z => by rw [Rat.pow_succ, Rat.pow_zero, Rat.one_mul]]
  unfold roundPos
  simp only
  generalize (p : Int) - 1 - exponent x = e
  obtain ⟨c, hc, hm, hb⟩ := scale_mul e
  split
  · rename_i hy
    obtain ⟨n1, n2⟩ := nearestInt_near (scale x e)
    have hb' := hb (nearestInt (scale x e) : Rat)
    generalize scale (↑(nearestInt (scale x e))) (-e) = r at *
    generalize ((nearestInt (scale x e) : Int) : Rat) = z at *
    rw [hm] at hy n1 n2
    have h2 : ((2 ^ p : Nat) : Rat) = 2 * ((2 ^ (p - 1) : Nat) : Rat) := by
      obtain ⟨k, rfl⟩ : ∃ k, p = k + 1 := ⟨p - 1, by omega⟩
      rw [Nat.add_sub_cancel, Nat.pow_succ, Rat.natCast_mul]
      grind
    have hhalf : 1 / 2 ≤ x * c * (1 / ((2 ^ p : Nat) : Rat)) := by
      have hprod : ((2 ^ p : Nat) : Rat) * (1 / ((2 ^ p : Nat) : Rat)) = 1 := by
        rw [Rat.div_def, Rat.one_mul, Rat.mul_inv_cancel _ (by grind)]
      have := Rat.mul_le_mul_of_nonneg_right hy (Rat.le_of_lt hu0)
      generalize 1 / ((2 ^ p : Nat) : Rat) = u at *
      rw [h2] at hprod
      generalize ((2 ^ (p - 1) : Nat) : Rat) = w at *
      grind
    generalize 1 / ((2 ^ p : Nat) : Rat) = u at *
    constructor
    · rw [← Rat.not_lt]
      intro h
      have := Rat.mul_lt_mul_of_pos_right h hc
      rw [hb'] at this
      grind
    · rw [← Rat.not_lt]
      intro h
      have := Rat.mul_lt_mul_of_pos_right h hc
      rw [hb'] at this
      grind
  · generalize 1 / ((2 ^ p : Nat) : Rat) = u at *
    have := Rat.mul_pos hu0 hx
    grind

theorem roundBits_near {p : Nat} (hp : 0 < p) {x : Rat} (hx : 0 ≤ x) : Near (1 / (2 ^ p : Nat)) 1 x (roundBits p x) := by
  unfold roundBits
  by_cases h : 0 < x
  · rw [if_pos h]; exact roundPos_near hp h
  · have : x = 0 := by grind
    subst this
    unfold Near
    rw [if_neg h, if_neg h, Rat.mul_zero, Rat.mul_zero]
    exact ⟨Rat.le_refl, Rat.le_refl⟩

/-- Whole numbers of at most `p` digits are not rounded. -/
theorem roundBits_nat {p n : Nat} (h : n < 2 ^ p) : roundBits p (n : Rat) = n := by
  unfold roundBits
  by_cases h0 : n = 0
  · subst h0; rw [if_neg (by decide), if_neg (by decide)]; rfl
  have hn : 0 < n := by omega
  have hn' : (0 : Rat) < (n : Rat) := by exact_mod_cast hn
  rw [if_pos hn']
  unfold roundPos
  have hexp : exponent (n : Rat) ≤ (p : Int) - 1 := by
    have hl : n.log2 < p := (Nat.log2_lt h0).2 h
    have hk : ((n : Rat).num.natAbs.log2 : Int) - ((n : Rat).den.log2 : Int) = n.log2 := by
      have : Nat.log2 1 = 0 := by decide
      simp [this]
    unfold exponent
    simp only [hk]
    split <;> omega
  have he : 0 ≤ (p : Int) - 1 - exponent (n : Rat) := by omega
  simp only
  generalize (p : Int) - 1 - exponent (n : Rat) = e at *
  split
  · obtain ⟨c, hc, hm, hb⟩ := scale_mul e
    have hy : scale (n : Rat) e = ((n * 2 ^ e.toNat : Nat) : Int) := by
      unfold scale
      rw [if_pos he, Rat.intCast_natCast, Rat.natCast_mul]
    have hb' := hb (scale (n : Rat) e)
    rw [hy, nearestInt_int, ← hy]
    rw [hm] at hb' ⊢
    generalize scale ((n : Rat) * c) (-e) = r at *
    have : (r - n) * c = 0 := by grind
    rcases Rat.mul_eq_zero.1 this with h | h <;> grind
  · rfl

theorem binary_rounds {p : Nat} (hp : 24 < p ∨ p = 24) (hi : Rat) :
    RoundedArith (binary p) (fun _ => True) id (1 / (2 ^ p : Nat)) 0 hi where
  zero := ⟨trivial, rfl⟩
  add x y _ _ h _ := ⟨trivial, roundBits_near (by omega) h⟩
  div x n _ _ hn h _ := by
    refine ⟨trivial, ?_⟩
    show Near _ 1 (x / n) (roundBits p (x / roundBits p n))
    have : roundBits p (n : Rat) = n := by
      rcases hp with hp | rfl
      · exact roundBits_nat (Nat.lt_of_le_of_lt hn (Nat.pow_lt_pow_right (by omega) hp))
      · rcases Nat.lt_or_eq_of_le hn with h | rfl
        · exact roundBits_nat h
        · decide +kernel
    rw [this]
    exact roundBits_near (by omega) h
  lt x y _ _ := by simp [binary]

/-- A smaller error is also within a larger bound. -/
theorem RoundedArith.weaken {F : Type} {fo : FloatOps F} {fin : F → Prop} {val : F → Rat} {u u' lo hi : Rat} (R : RoundedArith fo fin val u lo hi)
    (hlo : 0 ≤ lo) (hu : u ≤ u') : RoundedArith fo fin val u' lo hi := by
  have key : ∀ e x : Rat, 0 ≤ e → Near u 1 e x → Near u' 1 e x := by
    intro e x he h
    unfold Near at *
    rw [show ∀ z : Rat, z ^ 1 = z from fun z => by rw [Rat.pow_succ, Rat.pow_zero, Rat.one_mul],
      show ∀ z : Rat, z ^ 1 = z from fun z => by rw [Rat.pow_succ, Rat.pow_zero, Rat.one_mul]] at *
    have := Rat.mul_le_mul_of_nonneg_right hu he
    grind
  exact ⟨R.zero, fun x y a b c d => ⟨(R.add x y a b c d).1, key _ _ (Rat.le_trans hlo c) (R.add x y a b c d).2⟩,
    fun x n a b c d e => ⟨(R.div x n a b c d e).1, key _ _ (Rat.le_trans hlo d) (R.div x n a b c d e).2⟩, R.lt⟩

end AS
