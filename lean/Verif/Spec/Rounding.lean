import Verif.Spec.Best
/-
Arithmetic that rounds, and the exact average of the scores of a match.
-/
namespace AS
variable {F : Type}

/-- The number is the exact one up to `k` roundings with relative error at most `u`. -/
def Near (u : Rat) (k : Nat) (exact x : Rat) : Prop :=
  (1 - u) ^ k * exact ≤ x ∧ x ≤ (1 + u) ^ k * exact

/-- Arithmetic on numbers some of which, those with `fin`, stand for the rational numbers `val`: sums, and quotients by
whole numbers up to `2^24`, whose exact value lies between `lo` and `hi` have a relative error of at most `u`, and numbers
are compared by value. IEEE single precision satisfies this with `u = 2^-24`, `lo = 2^-126`, `hi` the largest number, and so
does double precision with `u = 2^-53`. -/
structure RoundedArith (fo : FloatOps F) (fin : F → Prop) (val : F → Rat) (u lo hi : Rat) : Prop where
  zero : fin fo.zero ∧ val fo.zero = 0
  add : ∀ x y, fin x → fin y → lo ≤ val x + val y → val x + val y ≤ hi →
    fin (fo.add x y) ∧ Near u 1 (val x + val y) (val (fo.add x y))
  div : ∀ x (n : Nat), fin x → 0 < n → n ≤ 2 ^ 24 → lo ≤ val x / n → val x / n ≤ hi →
    fin (fo.divNat x n) ∧ Near u 1 (val x / n) (val (fo.divNat x n))
  lt : ∀ x y, fin x → fin y → (fo.lt x y = true ↔ val x < val y)

/-- The sum of numbers. -/
def total {ι : Type} (ex : ι → Rat) : List ι → Rat
  | [] => 0
  | i :: is => ex i + total ex is

/-- The average of the numbers the scores of rules stand for. -/
def exactAverage (exact : F → Rat) (rs : List (Rule F)) : Rat := total (fun r => exact r.score) rs / rs.length

/-- The scores of the grammar stand for numbers from `a` to `b`, whole multiples of `1/q`, and are these up to one rounding. -/
def ScoresRead (fin : F → Prop) (val exact : F → Rat) (u a b : Rat) (q : Nat) (G : Grammar F) : Prop :=
  ∀ sec ∈ G.rules, ∀ r ∈ sec.rules, fin r.score ∧ Near u 1 (exact r.score) (val r.score) ∧
    a ≤ exact r.score ∧ exact r.score ≤ b ∧ ∃ m : Nat, exact r.score = (m : Rat) / q

/-- `p` is a match of one of the phrases. -/
def MatchOf (G : Grammar F) (phrases : List (List Token)) (phrase : List Token) (p : SearchPath F) : Prop :=
  phrase ∈ phrases ∧ ∃ results, search G c!"ADDRESS" phrase = .ok results ∧ p ∈ results

/-- Up to `N` roundings of relative size `u` are small against the differences of averages of at most `N` numbers up to `b`
that are multiples of `1/q`, and no intermediate result is too small or too large. -/
def FineEnough (u lo hi a b : Rat) (q N : Nat) : Prop :=
  0 ≤ u ∧ u < 1 ∧ 0 < a ∧ 0 < q ∧ N ≤ 2 ^ 24 ∧ lo ≤ (1 - u) ^ (N + 1) * a ∧ (1 + u) ^ (N + 1) * (N * b) ≤ hi ∧
  b * ((1 + u) ^ (N + 2) - (1 - u) ^ (N + 2)) * q * (N * N) < 1

/-- The tenth nearest to a number. -/
def nearestTenth (x : Rat) : Rat := ((10 * x + 1 / 2).floor : Int) / 10

end AS
