import Verif.Model.Str
/-
The floating point operations the code uses on scores, without laws. Laws a theorem needs are
hypotheses of that theorem; `ratOps` shows that they can be met.
-/
namespace AS

/-- Operations on `float` scores (src/rule.cpp, src/search.cpp). -/
structure FloatOps (F : Type) where
  /-- the literal `0.0` -/
  zero : F
  /-- integers as floats: the literals `-1.0`, `-2.0` and `static_cast<float>( size )` -/
  ofInt : Int → F
  /-- `float + float` -/
  add  : F → F → F
  /-- `float / static_cast<float>(n)` -/
  divNat : F → Nat → F
  /-- `x < y` -/
  lt   : F → F → Bool
  /-- `x <= 0` -/
  le0  : F → Bool
  /-- `x >= 0.0` -/
  ge0  : F → Bool := fun x => !lt x zero
  /-- `static_cast<float>( atof( s ) )` -/
  parse : Str → F
  /-- `os << x` -/
  print : F → Str

/-- Value of a string of decimal digits, as far as it is one. -/
def digitsVal (s : Str) : Nat :=
  (s.takeWhile Char.isDigit).foldl (fun n c => 10 * n + (c.toNat - 48)) 0

/-- Exact rationals; numbers are read as `digits[.digits]`. Used in examples only. -/
def ratOps : FloatOps Rat where
  zero := 0
  ofInt i := i
  add := (· + ·)
  divNat x n := x / n
  lt x y := decide (x < y)
  le0 x := decide (x ≤ 0)
  parse s :=
    let i := (digitsVal s : Rat)
    match s.dropWhile Char.isDigit with
    | '.' :: fs => i + (digitsVal fs : Rat) / (10 ^ (fs.takeWhile Char.isDigit).length : Nat)
    | _ => i
  print x := (toString x.num).toList

end AS
