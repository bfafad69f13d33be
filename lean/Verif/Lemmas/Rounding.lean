import Verif.Spec.Rounding
import Verif.Lemmas.Best
/-
The error of the average of rounded scores.
-/
namespace AS
variable {F D ι : Type}

theorem pow_nonneg' {x : Rat} (h : 0 ≤ x) (n : Nat) : 0 ≤ x ^ n := by
  induction n with
  | zero => rw [Rat.pow_zero]; decide
  | succ n ih => rw [Rat.pow_succ]; exact Rat.mul_nonneg ih h

theorem pow_pos' {x : Rat} (h : 0 < x) (n : Nat) : 0 < x ^ n := by
  induction n with
  | zero => rw [Rat.pow_zero]; decide
  | succ n ih => rw [Rat.pow_succ]; exact Rat.mul_pos ih h

/-- Powers of a number below one decrease. -/
theorem pow_anti {x : Rat} (h0 : 0 ≤ x) (h1 : x ≤ 1) {m n : Nat} (h : m ≤ n) : x ^ n ≤ x ^ m := by
  induction h with
  | refl => exact Rat.le_refl
  | step _ ih =>
    rw [Rat.pow_succ]
    refine Rat.le_trans ?_ ih
    have := Rat.mul_le_mul_of_nonneg_left h1 (pow_nonneg' h0 ‹Nat›)
    rwa [Rat.mul_one] at this

/-- Powers of a number above one increase. -/
theorem pow_mono {x : Rat} (h1 : 1 ≤ x) {m n : Nat} (h : m ≤ n) : x ^ m ≤ x ^ n := by
  induction h with
  | refl => exact Rat.le_refl
  | step _ ih =>
    rw [Rat.pow_succ]
    refine Rat.le_trans ih ?_
    have := Rat.mul_le_mul_of_nonneg_left h1 (pow_nonneg' (x := x) (by grind) ‹Nat›)
    rwa [Rat.mul_one] at this

theorem Near.mono {u e x : Rat} {m n : Nat} (h0 : 0 ≤ u) (h1 : u < 1) (he : 0 ≤ e) (h : Near u m e x) (hmn : m ≤ n) :
    Near u n e x := by
  have a := Rat.mul_le_mul_of_nonneg_right (pow_anti (x := 1 - u) (by grind) (by grind) hmn) he
  have b := Rat.mul_le_mul_of_nonneg_right (pow_mono (x := 1 + u) (by grind) hmn) he
  exact ⟨Rat.le_trans a h.1, Rat.le_trans h.2 b⟩

theorem Near.add {u e f x y : Rat} {k : Nat} (h : Near u k e x) (h' : Near u k f y) : Near u k (e + f) (x + y) := by
  unfold Near at *
  rw [Rat.mul_add, Rat.mul_add]
  grind

theorem Near.round {u e x y : Rat} {k : Nat} (h0 : 0 ≤ u) (h1 : u < 1) (h : Near u k e x) (h' : Near u 1 x y) :
    Near u (k + 1) e y := by
  unfold Near at *
  rw [Rat.pow_succ, Rat.pow_succ]
  rw [show (1 - u) ^ 1 = 1 - u by rw [Rat.pow_succ, Rat.pow_zero, Rat.one_mul],
    show (1 + u) ^ 1 = 1 + u by rw [Rat.pow_succ, Rat.pow_zero, Rat.one_mul]] at h'
  have a := Rat.mul_le_mul_of_nonneg_left (c := 1 - u) h.1 (by grind)
  have b := Rat.mul_le_mul_of_nonneg_left (c := 1 + u) h.2 (by grind)
  grind

theorem Near.div {u e x : Rat} {k n : Nat} (hn : 0 < n) (h : Near u k e x) : Near u k (e / n) (x / n) := by
  have hp : (0 : Rat) < (n : Rat) := by exact_mod_cast hn
  unfold Near at *
  have hi : (0 : Rat) ≤ (n : Rat)⁻¹ := Rat.le_of_lt (Rat.inv_pos.2 hp)
  rw [Rat.div_def, Rat.div_def, ← Rat.mul_assoc, ← Rat.mul_assoc]
  exact ⟨Rat.mul_le_mul_of_nonneg_right h.1 hi, Rat.mul_le_mul_of_nonneg_right h.2 hi⟩

theorem total_nonneg (ex : ι → Rat) {rs : List ι} (h : ∀ r ∈ rs, 0 ≤ ex r) : 0 ≤ total ex rs := by
  induction rs with
  | nil => exact Rat.le_refl
  | cons r rs ih =>
    have := ih (fun x hx => h x (List.mem_cons_of_mem _ hx))
    have := h r List.mem_cons_self
    unfold total
    grind

theorem total_range (ex : ι → Rat) (a b : Rat) (rs : List ι) (h : ∀ r ∈ rs, a ≤ ex r ∧ ex r ≤ b) :
    (rs.length : Rat) * a ≤ total ex rs ∧ total ex rs ≤ (rs.length : Rat) * b := by
  induction rs with
  | nil => simp only [List.length_nil, total]; grind
  | cons r rs ih =>
    have h1 := ih (fun x hx => h x (List.mem_cons_of_mem _ hx))
    have h2 := h r List.mem_cons_self
    have e : ((r :: rs).length : Rat) = (rs.length : Rat) + 1 := by simp
    rw [e]
    unfold total
    grind

/-- The sum, rounded after every step. -/
theorem sum_near {fo : FloatOps F} {fin : F → Prop} {val : F → Rat} {sc : ι → F} {ex : ι → Rat} {u lo hi a : Rat} (R : RoundedArith fo fin val u lo hi)
    (h0 : 0 ≤ u) (h1 : u < 1) (ha : 0 < a) (N : Nat) (T : Rat) (hlo : lo ≤ (1 - u) ^ N * a) (hhi : (1 + u) ^ N * T ≤ hi) :
    ∀ (rs : List ι) (acc : F) (E : Rat) (k : Nat), 1 ≤ k → k + rs.length ≤ N + 1 → 0 ≤ E → E + total ex rs ≤ T →
      fin acc → Near u k E (val acc) →
      (∀ r ∈ rs, fin (sc r) ∧ Near u 1 (ex r) (val (sc r)) ∧ a ≤ ex r) →
      fin ((rs.map sc).foldl fo.add acc) ∧
      Near u (k + rs.length) (E + total ex rs) (val ((rs.map sc).foldl fo.add acc)) := by
  intro rs
  induction rs with
  | nil =>
    intro acc E k _ _ _ _ hf hn _
    rw [show E + total ex ([] : List ι) = E from Rat.add_zero E]
    exact ⟨hf, hn⟩
  | cons r rs ih =>
    intro acc E k hk hkN hE hT hf hn hr
    obtain ⟨r1, r2, r3⟩ := hr r List.mem_cons_self
    have hrest := total_nonneg ex (rs := rs)
      (fun x hx => Rat.le_trans (Rat.le_of_lt ha) (hr x (List.mem_cons_of_mem _ hx)).2.2)
    have he : 0 ≤ ex r := Rat.le_trans (Rat.le_of_lt ha) r3
    have hkN' : k ≤ N := by simp only [List.length_cons] at hkN; omega
    have n1 : Near u k (E + ex r) (val acc + val (sc r)) := hn.add (r2.mono h0 h1 he hk)
    have nN := n1.mono h0 h1 (by grind) hkN'
    have e : E + total ex (r :: rs) = (E + ex r) + total ex rs := by
      rw [total, Rat.add_assoc]
    rw [e] at hT ⊢
    have p1 : (0 : Rat) ≤ (1 - u) ^ N := pow_nonneg' (by grind) N
    have p2 : (0 : Rat) ≤ (1 + u) ^ N := pow_nonneg' (by grind) N
    have lo' : lo ≤ val acc + val (sc r) := by
      refine Rat.le_trans hlo (Rat.le_trans ?_ nN.1)
      exact Rat.mul_le_mul_of_nonneg_left (by grind) p1
    have hi' : val acc + val (sc r) ≤ hi := by
      refine Rat.le_trans nN.2 (Rat.le_trans ?_ hhi)
      exact Rat.mul_le_mul_of_nonneg_left (by grind) p2
    obtain ⟨f1, f2⟩ := R.add acc (sc r) hf r1 lo' hi'
    have := ih (fo.add acc (sc r)) (E + ex r) (k + 1) (by omega) (by simp only [List.length_cons] at hkN; omega)
      (by grind) hT f1 (n1.round h0 h1 f2) (fun x hx => hr x (List.mem_cons_of_mem _ hx))
    rw [List.map_cons, List.foldl_cons, List.length_cons, show k + (rs.length + 1) = k + 1 + rs.length by omega]
    exact this

/-- The average, rounded after every step. -/
theorem average_near {fo : FloatOps F} {fin : F → Prop} {val : F → Rat} {sc : ι → F} {ex : ι → Rat} {u lo hi a b : Rat} (R : RoundedArith fo fin val u lo hi)
    (h0 : 0 ≤ u) (h1 : u < 1) (ha : 0 < a) (N : Nat) (hN : N ≤ 2 ^ 24) (hlo : lo ≤ (1 - u) ^ (N + 1) * a)
    (hhi : (1 + u) ^ (N + 1) * (N * b) ≤ hi) (rs : List ι) (hne : rs ≠ []) (hlen : rs.length ≤ N)
    (hr : ∀ r ∈ rs, fin (sc r) ∧ Near u 1 (ex r) (val (sc r)) ∧ a ≤ ex r ∧ ex r ≤ b) :
    fin (fo.divNat ((rs.map sc).foldl fo.add fo.zero) rs.length) ∧ Near u (rs.length + 2) (total ex rs / rs.length) (val (fo.divNat ((rs.map sc).foldl fo.add fo.zero) rs.length)) := by
  have hpos : 0 < rs.length := List.length_pos_iff.2 hne
  have hp : (0 : Rat) < (rs.length : Rat) := by exact_mod_cast hpos
  have hlenR : (rs.length : Rat) ≤ (N : Rat) := by exact_mod_cast hlen
  obtain ⟨s1, s2⟩ := total_range ex a b rs (fun r h => (hr r h).2.2)
  obtain ⟨r0, hr0⟩ := List.exists_mem_of_ne_nil rs hne
  have hab : 0 < b := by have := (hr r0 hr0).2.2; grind
  have hNb : total ex rs ≤ N * b := Rat.le_trans s2 (Rat.mul_le_mul_of_nonneg_right hlenR (Rat.le_of_lt hab))
  have hS0 : 0 ≤ total ex rs := total_nonneg ex (fun r h => by have := (hr r h).2.2.1; grind)
  have q1 : (1 - u) ^ (N + 1) ≤ (1 - u) ^ N := pow_anti (by grind) (by grind) (by omega)
  have q2 : (1 + u) ^ N ≤ (1 + u) ^ (N + 1) := pow_mono (by grind) (by omega)
  have hNb0 : (0 : Rat) ≤ N * b := Rat.le_trans hS0 hNb
  obtain ⟨f, n⟩ := sum_near R h0 h1 ha N (N * b) (Rat.le_trans hlo (Rat.mul_le_mul_of_nonneg_right q1 (Rat.le_of_lt ha)))
    (Rat.le_trans (Rat.mul_le_mul_of_nonneg_right q2 hNb0) hhi) rs fo.zero 0 1 (by omega) (by omega) Rat.le_refl
    (by rw [Rat.zero_add]; exact hNb) R.zero.1 (by unfold Near; rw [R.zero.2, Rat.mul_zero, Rat.mul_zero]; exact ⟨Rat.le_refl, Rat.le_refl⟩)
    (fun r h => ⟨(hr r h).1, (hr r h).2.1, (hr r h).2.2.1⟩)
  rw [Rat.zero_add] at n
  have nd := n.div hpos
  have hA : a ≤ total ex rs / rs.length := by
    rw [← Rat.not_lt, Rat.div_lt_iff hp, Rat.not_lt, Rat.mul_comm]
    exact s1
  have nd' := nd.mono h0 h1 (by grind) (n := N + 1) (by omega)
  have hhiA : total ex rs / rs.length ≤ N * b := by
    refine Rat.le_trans ?_ hNb
    rw [← Rat.not_lt, Rat.lt_div_iff hp, Rat.not_lt]
    have : (1 : Rat) ≤ (rs.length : Rat) := by exact_mod_cast hpos
    have := Rat.mul_le_mul_of_nonneg_left this hS0
    grind
  obtain ⟨f', n'⟩ := R.div _ rs.length f hpos (by omega)
    (Rat.le_trans hlo (Rat.le_trans (Rat.mul_le_mul_of_nonneg_left hA (pow_nonneg' (by grind) _)) nd'.1))
    (Rat.le_trans nd'.2 (Rat.le_trans (Rat.mul_le_mul_of_nonneg_left hhiA (pow_nonneg' (by grind) _)) hhi))
  refine ⟨f', ?_⟩
  have := nd.round h0 h1 n'
  rw [show rs.length + 2 = 1 + rs.length + 1 by omega]
  exact this

/-- Averages of multiples of `1/q` that differ do so by at least `1/(q m n)`. -/
theorem averages_apart {q m n x y : Nat} (hq : 0 < q) (hm : 0 < m) (hn : 0 < n)
    (h : (x : Rat) / q / m < (y : Rat) / q / n) : (x : Rat) / q / m * (q * (m * n)) + 1 ≤ (y : Rat) / q / n * (q * (m * n)) := by
  have hq' : (0 : Rat) < (q : Rat) := by exact_mod_cast hq
  have hm' : (0 : Rat) < (m : Rat) := by exact_mod_cast hm
  have hn' : (0 : Rat) < (n : Rat) := by exact_mod_cast hn
  have e1 : (x : Rat) / q / m * (q * (m * n)) = (x : Rat) * n := by grind
  have e2 : (y : Rat) / q / n * (q * (m * n)) = (y : Rat) * m := by grind
  have hpos : (0 : Rat) < (q : Rat) * (m * n) := Rat.mul_pos hq' (Rat.mul_pos hm' hn')
  have h2 := Rat.mul_lt_mul_of_pos_right h hpos
  rw [e1, e2] at h2 ⊢
  have : x * n < y * m := by exact_mod_cast h2
  have : x * n + 1 ≤ y * m := this
  exact_mod_cast this

theorem total_multiple (ex : ι → Rat) (q : Nat) (hq : 0 < q) : ∀ rs : List ι,
    (∀ r ∈ rs, ∃ m : Nat, ex r = (m : Rat) / q) → ∃ m : Nat, total ex rs = (m : Rat) / q
  | [], _ => ⟨0, by rw [total, Rat.div_def]; simp⟩
  | r :: rs, h => by
    obtain ⟨m, hm⟩ := h r List.mem_cons_self
    obtain ⟨n, hn⟩ := total_multiple ex q hq rs (fun x hx => h x (List.mem_cons_of_mem _ hx))
    refine ⟨m + n, ?_⟩
    rw [total, hm, hn]
    have hq' : (0 : Rat) < (q : Rat) := by exact_mod_cast hq
    have : ((m + n : Nat) : Rat) = (m : Rat) + (n : Rat) := by simp
    rw [this]
    grind

/-- Averages that differ are computed in the right order. -/
theorem averages_ordered {fo : FloatOps F} {fin : F → Prop} {val : F → Rat} {sc : ι → F} {ex : ι → Rat} {u lo hi a b : Rat}
    (R : RoundedArith fo fin val u lo hi) {q N : Nat} (hfine : FineEnough u lo hi a b q N) (rs rs' : List ι) (hne : rs ≠ []) (hne' : rs' ≠ [])
    (hlen : rs.length ≤ N) (hlen' : rs'.length ≤ N)
    (hr : ∀ r ∈ rs ++ rs', fin (sc r) ∧ Near u 1 (ex r) (val (sc r)) ∧ a ≤ ex r ∧ ex r ≤ b ∧ ∃ m : Nat, ex r = (m : Rat) / q)
    (hlt : total ex rs / rs.length < total ex rs' / rs'.length) :
    val (fo.divNat ((rs.map sc).foldl fo.add fo.zero) rs.length) < val (fo.divNat ((rs'.map sc).foldl fo.add fo.zero) rs'.length) := by
  obtain ⟨h0, h1, ha, hq, hN, hlo, hhi, hsmall⟩ := hfine
  have g : ∀ r ∈ rs, _ := fun r h => hr r (List.mem_append_left _ h)
  have g' : ∀ r ∈ rs', _ := fun r h => hr r (List.mem_append_right _ h)
  obtain ⟨_, n1⟩ := average_near R h0 h1 ha N hN hlo hhi rs hne hlen
    (fun r h => ⟨(g r h).1, (g r h).2.1, (g r h).2.2.1, (g r h).2.2.2.1⟩)
  obtain ⟨_, n2⟩ := average_near R h0 h1 ha N hN hlo hhi rs' hne' hlen'
    (fun r h => ⟨(g' r h).1, (g' r h).2.1, (g' r h).2.2.1, (g' r h).2.2.2.1⟩)
  obtain ⟨x, hx⟩ := total_multiple ex q hq rs (fun r h => (g r h).2.2.2.2)
  obtain ⟨y, hy⟩ := total_multiple ex q hq rs' (fun r h => (g' r h).2.2.2.2)
  have hm : 0 < rs.length := List.length_pos_iff.2 hne
  have hn : 0 < rs'.length := List.length_pos_iff.2 hne'
  have hp' : (0 : Rat) < (rs'.length : Rat) := by exact_mod_cast hn
  have hsep := averages_apart (q := q) (m := rs.length) (n := rs'.length) (x := x) (y := y) hq hm hn
    (by rw [← hx, ← hy]; exact hlt)
  rw [← hx, ← hy] at hsep
  have hA0 : 0 ≤ total ex rs / rs.length := by
    have := total_nonneg ex (rs := rs) (fun r h => by have := (g r h).2.2.1; grind)
    rw [Rat.div_def]
    exact Rat.mul_nonneg this (Rat.le_of_lt (Rat.inv_pos.2 (by exact_mod_cast hm)))
  have hB : total ex rs' / rs'.length ≤ b := by
    rw [← Rat.not_lt, Rat.lt_div_iff hp', Rat.not_lt, Rat.mul_comm]
    exact (total_range ex a b rs' (fun r h => ⟨(g' r h).2.2.1, (g' r h).2.2.2.1⟩)).2
  generalize total ex rs / rs.length = A at *
  generalize total ex rs' / rs'.length = B at *
  have m1 := (n1.mono h0 h1 hA0 (n := N + 2) (by omega)).2
  have m2 := (n2.mono h0 h1 (by grind) (n := N + 2) (by omega)).1
  have hP : (1 : Rat) ≤ (1 + u) ^ (N + 2) := by
    have := pow_mono (x := 1 + u) (by grind) (m := 0) (n := N + 2) (by omega)
    rwa [Rat.pow_zero] at this
  have hM : (1 - u) ^ (N + 2) ≤ 1 := by
    have := pow_anti (x := 1 - u) (by grind) (by grind) (m := 0) (n := N + 2) (by omega)
    rwa [Rat.pow_zero] at this
  generalize (1 + u) ^ (N + 2) = P at *
  generalize (1 - u) ^ (N + 2) = M at *
  rw [← Rat.not_le]
  intro hle
  have c1 : M * B ≤ P * A := Rat.le_trans m2 (Rat.le_trans hle m1)
  have c2 : B - A ≤ (P - M) * b := by
    have t1 := Rat.mul_le_mul_of_nonneg_right hP (c := B - A) (by grind)
    have t2 := Rat.mul_le_mul_of_nonneg_left hB (c := P - M) (by grind)
    grind
  have hmn : (rs.length : Rat) * rs'.length ≤ (N : Rat) * N := by exact_mod_cast Nat.mul_le_mul hlen hlen'
  have hq' : (0 : Rat) < (q : Rat) := by exact_mod_cast hq
  have hBA : (0 : Rat) ≤ q * (B - A) := Rat.mul_nonneg (Rat.le_of_lt hq') (by grind)
  have c3 := Rat.mul_le_mul_of_nonneg_left hmn hBA
  have c4 := Rat.mul_le_mul_of_nonneg_right c2 (c := (q : Rat) * (N * N))
    (Rat.mul_nonneg (Rat.le_of_lt hq') (by exact_mod_cast Nat.zero_le _))
  grind

end AS
