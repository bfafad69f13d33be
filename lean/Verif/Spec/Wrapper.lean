import Verif.Model.Wrapper
import Verif.Spec.Best
/-
Specification vocabulary for the C interface: fields of an address, numbering of rows, sorting.
-/
namespace AS
namespace Wrapper
variable {F D : Type}

/-- The fields of a standardized address. -/
inductive Field where
  | building | houseNum | predir | qual | pretype | name | suftype | sufdir
  | ruralroute | extra | city | prov | country | postcode | box | unit
deriving DecidableEq, Repr

/-- The field an output class belongs to. -/
def fieldOf : OutType → Option Field
  | .BLDNG => some .building
  | .HOUSE => some .houseNum
  | .PREDIR => some .predir
  | .QUALIF => some .qual
  | .PRETYP => some .pretype
  | .STREET => some .name
  | .SUFTYP => some .suftype
  | .SUFDIR => some .sufdir
  | .RR => some .ruralroute
  | .CITY => some .city
  | .PROV => some .prov
  | .NATION => some .country
  | .POSTAL => some .postcode
  | .BOXH => some .box
  | .BOXT => some .box
  | .UNITH => some .unit
  | .UNITT => some .unit
  | .EXTRA => some .extra
  | .STOP => some .extra
  | .BADTOKEN => some .extra
  | .IGNORE => none

/-- Content of a field. -/
def StdAddr.get (a : StdAddr) : Field → Option Str
  | .building => a.building
  | .houseNum => a.house_num
  | .predir => a.predir
  | .qual => a.qual
  | .pretype => a.pretype
  | .name => a.name
  | .suftype => a.suftype
  | .sufdir => a.sufdir
  | .ruralroute => a.ruralroute
  | .extra => a.extra
  | .city => a.city
  | .prov => a.prov
  | .country => a.country
  | .postcode => a.postcode
  | .box => a.box
  | .unit => a.unit

/-- What a caller in C reads of a text: everything before the first zero character. -/
def upToNul (s : Str) : Str := s.takeWhile (fun c => c ≠ '\x00')

/-- The standard texts, in order, of the tokens of a field. -/
def wordsFor (f : Field) (ts : List Token) : List Str :=
  (ts.filter (fun t => fieldOf t.outclass = some f)).map (·.stdtext)

/-- The address holds these standardized tokens: each field the texts of its tokens separated by single
blanks, fields without token empty. -/
def Holds (a : StdAddr) (ts : List Token) : Prop :=
  ∀ f, (wordsFor f ts = [] → a.get f = none) ∧
    (wordsFor f ts ≠ [] → a.get f = some (joinWith c!" " (wordsFor f ts)))

/-- Strings without NUL. -/
def NoNul (s : Str) : Prop := '\x00' ∉ s

/-- What comparisons with zero and minus one give. -/
structure SignLaws (fo : FloatOps F) : Prop where
  zero_ge : fo.ge0 fo.zero = true
  pos_ge : ∀ x, fo.lt fo.zero x = true → fo.ge0 x = true
  neg_ge : fo.ge0 (fo.ofInt (-1)) = false
  neg_lt : fo.lt (fo.ofInt (-1)) fo.zero = true

theorem ratOps_signs : SignLaws ratOps where
  zero_ge := by decide
  pos_ge x h := by
    simp only [ratOps, decide_eq_true_eq, Bool.not_eq_true', decide_eq_false_iff_not] at *
    grind
  neg_ge := by decide
  neg_lt := by decide

/-- The contract of `std::sort`: if the comparison is a strict weak ordering of the elements, the result
has the same elements and no element is less than one before it. -/
def SortContract (sort : {α : Type} → (α → α → Bool) → List α → List α) : Prop :=
  ∀ {α : Type} (lt : α → α → Bool) (l : List α),
    (∀ a ∈ l, lt a a = false) →
    (∀ a ∈ l, ∀ b ∈ l, ∀ c ∈ l, lt a b = true → lt b c = true → lt a c = true) →
    (∀ a ∈ l, ∀ b ∈ l, ∀ c ∈ l, lt a b = false → lt b a = false → lt b c = false → lt c b = false →
      lt a c = false ∧ lt c a = false) →
    (sort lt l).Perm l ∧ (sort lt l).Pairwise (fun a b => lt b a = false)

/-- IEEE comparison: an order once NaN is set aside. -/
structure NanLaws (fo : FloatOps F) (nan : F → Prop) : Prop extends LtLaws fo where
  /-- of numbers, `b` cannot be incomparable to both `a` and `c` if `a < c` -/
  total : ∀ a b c, ¬ nan b → fo.lt a c = true → fo.lt a b = true ∨ fo.lt b c = true
  /-- NaN compares with nothing -/
  left : ∀ a b, nan a → fo.lt a b = false
  right : ∀ a b, nan b → fo.lt a b = false

/-- Rationals and NaN (`none`). -/
def nanOps : FloatOps (Option Rat) where
  zero := some 0
  ofInt i := some i
  add x y := match x, y with | some a, some b => some (a + b) | _, _ => none
  divNat x n := x.map (· / n)
  lt x y := match x, y with | some a, some b => decide (a < b) | _, _ => false
  le0 x := match x with | some a => decide (a ≤ 0) | none => false
  ge0 x := match x with | some a => decide (0 ≤ a) | none => false
  parse s := if s = c!"nan" then none else some (ratOps.parse s)
  print x := match x with | some a => ratOps.print a | none => c!"nan"

theorem nanOps_laws : NanLaws nanOps (· = none) where
  irrefl a := by cases a <;> simp [nanOps, Rat.lt_irrefl]
  trans a b c h1 h2 := by
    cases a <;> cases b <;> cases c <;> simp only [nanOps, decide_eq_true_eq, reduceCtorEq] at * <;> grind
  total a b c hb h := by
    cases a <;> cases b <;> cases c <;> simp only [nanOps, decide_eq_true_eq, reduceCtorEq, not_true_eq_false, not_false_eq_true] at * <;> grind
  left a b h := by subst h; simp [nanOps]
  right a b h := by subst h; cases a <;> simp [nanOps]

end Wrapper
end AS
