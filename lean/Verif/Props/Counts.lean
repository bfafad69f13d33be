import Verif.Model.Counts
/- Property C58: the counters. -/
namespace AS.Props
open AS

/-- Calls that change the counters. -/
inductive CountOp where
  | count (key : Str)
  | clear (key : Str)
deriving DecidableEq

/-- Their effect. -/
def CountOp.run (m : Counts) : CountOp → Counts
  | .count k => m.count k
  | .clear k => m.clear k

/-- The calls of a history that follow its last `clear( key )`. -/
def sinceClear (key : Str) (ops : List CountOp) : List CountOp :=
  (ops.reverse.takeWhile (fun o => decide (o ≠ .clear key))).reverse

/-- The number of `count( key )` calls since the last `clear( key )`. -/
def calls (key : Str) (ops : List CountOp) : Nat :=
  (sinceClear key ops).countP (fun o => decide (o = .count key))

theorem lookup_assign (k key : Str) (v : UInt64) : ∀ m : Counts,
    (m.assign k v).lookup key = if k = key then some v else m.lookup key
  | [] => by simp [Counts.assign, Counts.lookup]
  | (k', w) :: m => by
    have ih := lookup_assign k key v m
    simp only [Counts.assign]
    split
    · rename_i h; subst h
      simp only [Counts.lookup]
      split <;> simp
    · rename_i h
      simp only [Counts.lookup, ih]
      split
      · rename_i h'
        rw [if_neg (fun e => h (h'.trans e.symm))]
      · rfl

theorem lookup_clear (k key : Str) : ∀ m : Counts,
    (m.clear k).lookup key = if k = key then none else m.lookup key
  | [] => by simp [Counts.clear, Counts.lookup]
  | (k', w) :: m => by
    have ih := lookup_clear k key m
    simp only [Counts.clear] at ih ⊢
    by_cases h : k' = k
    · subst h
      simp only [List.filter_cons, bne_self_eq_false, Bool.false_eq_true, if_false, ih, Counts.lookup]
      split <;> rfl
    · have : (k' != k) = true := by simpa using h
      simp only [List.filter_cons, this, if_true, Counts.lookup, ih]
      split
      · rename_i h'
        rw [if_neg (fun e => h (h'.trans e.symm))]
      · rfl

theorem calls_snoc (key : Str) (ops : List CountOp) (o : CountOp) :
    calls key (ops ++ [o]) = if o = .clear key then 0
      else calls key ops + (if o = .count key then 1 else 0) := by
  simp only [calls, sinceClear, List.reverse_append, List.reverse_cons, List.reverse_nil,
    List.nil_append, List.singleton_append, List.takeWhile_cons]
  by_cases h : o = .clear key
  · simp [h]
  · simp only [h, ne_eq, not_false_eq_true, decide_true, if_true, if_false, List.reverse_cons,
      List.countP_append]
    congr 1
    by_cases h2 : o = .count key
    · simp [h2]
    · simp [h2]

/-- The value stored for a key, or its absence. -/
def Exact (m : Counts) (key : Str) (n : Nat) : Prop :=
  (n = 0 → m.lookup key = none) ∧ (n ≠ 0 → m.lookup key = some (UInt64.ofNat n))

theorem exact_step (m : Counts) (key : Str) (n : Nat) (o : CountOp) (h : Exact m key n) :
    Exact (o.run m) key (if o = .clear key then 0 else n + (if o = .count key then 1 else 0)) := by
  cases o with
  | clear k =>
    simp only [CountOp.run, Exact, lookup_clear]
    by_cases hk : k = key
    · simp [hk]
    · simpa [hk, Exact] using h
  | count k =>
    simp only [CountOp.run, Counts.count]
    by_cases hk : k = key
    · subst hk
      by_cases hn : n = 0
      · rw [h.1 hn]
        simp [Exact, lookup_assign, hn]
      · rw [h.2 hn]
        simp [Exact, lookup_assign]
    · have : ∀ v, Exact (m.assign k v) key n := by
        intro v
        simpa [Exact, lookup_assign, hk] using h
      simp only [CountOp.count.injEq, hk, if_false, reduceCtorEq, Nat.add_zero]
      split
      · exact this _
      · exact this _

theorem exact_run (key : Str) (ops : List CountOp) :
    Exact (ops.foldl CountOp.run []) key (calls key ops) := by
  have key' : ∀ n (ops : List CountOp), ops.length = n →
      Exact (ops.foldl CountOp.run []) key (calls key ops) := by
    intro n
    induction n with
    | zero =>
      intro ops h
      have : ops = [] := List.eq_nil_of_length_eq_zero h
      subst this
      exact ⟨fun _ => rfl, fun h => absurd rfl h⟩
    | succ n ih =>
      intro ops h
      have hne : ops ≠ [] := by intro e; simp [e] at h
      have hl := List.dropLast_concat_getLast hne
      rw [← hl, List.foldl_append, calls_snoc]
      exact exact_step _ _ _ _ (ih _ (by simp [h]))
  exact key' _ ops rfl

/-! ### C58: the counters are exact -/

/-- After any history the counter of a key is the number of `count` calls for it since it was last
cleared (`unsigned long` has 64 bits). -/
theorem C58_exact (key : Str) (ops : List CountOp) :
    (Counts.getCount key (ops.foldl CountOp.run [])).toNat = calls key ops % 2 ^ 64 := by
  have h := exact_run key ops
  rw [Counts.getCount]
  by_cases hn : calls key ops = 0
  · rw [h.1 hn, hn]; rfl
  · rw [h.2 hn]; exact UInt64.toNat_ofNat' ..

/-- Calls for other keys do not matter. -/
theorem C58_independent (key : Str) (ops : List CountOp) :
    Counts.getCount key (ops.foldl CountOp.run []) =
      Counts.getCount key ((ops.filter (fun o => decide (o = .count key ∨ o = .clear key))).foldl
        CountOp.run []) := by
  apply UInt64.toNat_inj.mp
  rw [C58_exact, C58_exact]
  congr 1
  have key' : ∀ n (ops : List CountOp), ops.length = n → calls key ops =
      calls key (ops.filter (fun o => decide (o = .count key ∨ o = .clear key))) := by
    intro n
    induction n with
    | zero =>
      intro ops h
      have : ops = [] := List.eq_nil_of_length_eq_zero h
      subst this
      rfl
    | succ n ih =>
      intro ops h
      have hne : ops ≠ [] := by intro e; simp [e] at h
      have hl := List.dropLast_concat_getLast hne
      rw [← hl, List.filter_append, List.filter_cons]
      by_cases hc : ops.getLast hne = .count key ∨ ops.getLast hne = .clear key
      · rw [if_pos (by simpa using hc), List.filter_nil, calls_snoc, calls_snoc, ih _ (by simp [h])]
      · rw [if_neg (by simpa using hc), List.filter_nil, List.append_nil, ← ih _ (by simp [h]), calls_snoc,
          if_neg (fun e => hc (.inr e)), if_neg (fun e => hc (.inl e)), Nat.add_zero]
  exact key' _ ops rfl

example : (Counts.getCount c!"a" ([CountOp.count c!"a", .clear c!"a", .count c!"a", .count c!"b",
    .count c!"a"].foldl CountOp.run [])).toNat = 2 := by decide

end AS.Props
