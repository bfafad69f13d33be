import Verif.Model.Float
/-
Single and double precision.
-/
namespace AS

/-- The nearest whole number, of two nearest ones the even one. -/
def nearestInt (y : Rat) : Int :=
  let f := y.floor
  if y - f < 1 / 2 then f
  else if 1 / 2 < y - f then f + 1
  else if f % 2 = 0 then f
  else f + 1

/-- The number scaled by a power of two. -/
def scale (x : Rat) (e : Int) : Rat := if 0 ≤ e then x * (2 ^ e.toNat : Nat) else x / (2 ^ (-e).toNat : Nat)

/-- The power of two at or below a number above zero: that of the quotient of numerator and denominator, or the one below. -/
def exponent (x : Rat) : Int :=
  let k : Int := x.num.natAbs.log2 - x.den.log2
  if scale 1 k ≤ x then k else k - 1

/-- A number above zero rounded to `p` binary digits, ties to the even neighbour; the test is that the scaled number has `p`
binary digits before the point. -/
def roundPos (p : Nat) (x : Rat) : Rat :=
  let e : Int := p - 1 - exponent x
  let y := scale x e
  if (2 ^ (p - 1) : Nat) ≤ y then scale (nearestInt y) (-e) else x

/-- A number rounded to `p` binary digits, as the default rounding mode of IEEE 754 does while the exponent is in range. -/
def roundBits (p : Nat) (x : Rat) : Rat :=
  if 0 < x then roundPos p x else if x < 0 then -roundPos p (-x) else 0

/-- Arithmetic with `p` binary digits: `float` has 24 (src/search.cpp:111-122 adds and divides in `float`), `double` 53
(src/search.cpp:178-191). Numbers are rational numbers with `p` binary digits; the range of the exponent is left out, and with
it infinities, NaN and subnormal numbers. A number is read with 53 digits and then rounded (`static_cast<float>( atof(...) )`,
src/rule.cpp:43). -/
def binary (p : Nat) : FloatOps Rat where
  zero := 0
  ofInt i := roundBits p i
  add x y := roundBits p (x + y)
  divNat x n := roundBits p (x / roundBits p n)
  lt x y := decide (x < y)
  le0 x := decide (x ≤ 0)
  parse s := roundBits p (roundBits 53 (ratOps.parse s))
  print x := ratOps.print x

/-- `float`. -/
def single : FloatOps Rat := binary 24

/-- `double`. -/
def double : FloatOps Rat := binary 53

end AS
