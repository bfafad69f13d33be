import Verif.Model.Pagc
import Verif.Spec.Grammar
/-
The rules of PAGC, and the grammar they are meant to become.
-/
namespace AS
namespace Pagc
variable {F : Type}

/-- The number a word of decimal digits stands for. -/
def decimal (w : Str) : Nat := w.foldl (fun n c => 10 * n + (c.toNat - 48)) 0

/-- A word of digits, of a size up to which Perl prints the twentieth part exactly (it has at most fifteen digits then). -/
def Number (w : Str) : Prop := w ≠ [] ∧ (∀ c ∈ w, c.isDigit = true) ∧ decimal w < 2 * 10 ^ 14

/-- The twentieth part of a number, written with as many decimals as needed. -/
def twentieth (n : Nat) : Str :=
  Nat.toDigits 10 (n / 20) ++
    (if n % 20 = 0 then [] else if n % 2 = 0 then '.' :: Nat.toDigits 10 (n % 20 / 2)
      else if n % 20 = 1 then c!".05" else '.' :: Nat.toDigits 10 (n % 20 * 5))

/-- Perl takes words of digits for what they stand for, and prints the twentieth part of a number in the usual way. -/
def Exact (nu : Numbers) : Prop :=
  ∀ w, Number w → nu.int w = decimal w ∧ nu.quot w = twentieth (decimal w)

/-- A rule of PAGC: the numbers of its input classes and of its output classes, its type and its score. -/
structure PagcRule where
  ins : List Nat
  outs : List Nat
  type : Nat
  score : Nat
deriving DecidableEq, Repr

/-- The line of a rule: numbers with blanks between them, `-1` after the input classes and after the output classes, and then the
type and the score. -/
def RuleLine (l : Str) (r : PagcRule) : Prop :=
  ∃ a b t s, words l = a ++ c!"-1" :: (b ++ [c!"-1", t, s]) ∧ a ≠ [] ∧ b ≠ [] ∧ (∀ w ∈ a ++ b ++ [t, s], Number w) ∧
    (∃ c, l.head? = some c ∧ whiteSpace c = false) ∧
    r = ⟨a.map decimal, b.map decimal, decimal t, decimal s⟩

/-- As many output classes as input classes, and a type that exists. -/
def PagcRule.Sound (r : PagcRule) : Prop := r.ins.length = r.outs.length ∧ r.type < 5

/-- The rules of a file: those of the lines that are sound. Other lines do not begin with a digit. -/
inductive HasRules : List Str → List PagcRule → Prop
  | nil : HasRules [] []
  | rule {l ls r rs} : RuleLine l r → r.Sound → HasRules ls rs → HasRules (l :: ls) (r :: rs)
  | unsound {l ls r rs} : RuleLine l r → ¬ r.Sound → HasRules ls rs → HasRules (l :: ls) rs
  | other {l ls rs} : (∀ c, l.head? = some c → c.isDigit = false) → HasRules ls rs → HasRules (l :: ls) rs

/-- The input class with a number of PAGC; some rules have 5 where 2 is meant. -/
def inNumbered (n : Nat) : InType :=
  if n = 5 then .TYPE
  else match Props.inTable.find? (fun e => e.2.1 == (n : Int)) with
    | some e => e.2.2
    | none => .BADTOKEN

/-- The output class with a number of PAGC. -/
def outNumbered (n : Nat) : OutType :=
  match Props.outTable.find? (fun e => e.2.1 == (n : Int)) with
  | some e => e.2.2
  | none => .BADTOKEN

/-- The input classes of PAGC have the numbers 0 to 33. -/
def PagcRule.knownIns (r : PagcRule) : List Nat := r.ins.filter (· < 34)

/-- The output classes of PAGC have the numbers 0 to 17. -/
def PagcRule.knownOuts (r : PagcRule) : List Nat := r.outs.filter (· < 18)

/-- What the rule is in the grammar. -/
def PagcRule.converted (fo : FloatOps F) (r : PagcRule) : Rule F :=
  ⟨r.knownIns.map inNumbered, r.knownOuts.map outNumbered, fo.parse (twentieth r.score)⟩

/-- `out` are the rules with the given type, those with more input classes first, those with the same number of them in the
order of the file. -/
def InOrder (rs : List PagcRule) (type : Nat) (out : List PagcRule) : Prop :=
  out.Pairwise (fun a b => b.ins.length ≤ a.ins.length) ∧
  ∀ k, out.filter (fun r => r.ins.length = k) = rs.filter (fun r => r.type = type ∧ r.ins.length = k)

/-- How an address is made of the parts. -/
def addressRefs : List (Str × List (List Str)) :=
  [(c!"ADDRESS", [[c!"MICRO", c!"MACRO"], [c!"HOUSE", c!"ARC", c!"MACRO"], [c!"BUILDING", c!"MICRO", c!"MACRO"],
    [c!"BUILDING", c!"HOUSE", c!"ARC", c!"MACRO"]])]

/-- Numbers of which the twentieth parts are read as what they are as far as their sign is concerned. -/
def SignOk (fo : FloatOps F) : Prop :=
  fo.le0 fo.zero = true ∧ ∀ n, n < 2 * 10 ^ 14 → (fo.le0 (fo.parse (twentieth n)) = true ↔ n = 0)

end Pagc
end AS
