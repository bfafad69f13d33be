import Verif.Model.Token
/-
Specification vocabulary for `Token::enumerate`.
-/
namespace AS

/-- All lists choosing one element of each list, in lexicographic order of positions. -/
def cart {α : Type} : List (List α) → List (List α)
  | [] => [[]]
  | s :: ss => s.flatMap (fun x => (cart ss).map (x :: ·))

/-- Product of the lengths. -/
def sizeProd {α : Type} : List (List α) → Nat
  | [] => 1
  | s :: ss => s.length * sizeProd ss

/-- The first list picks one element of each member of the second. -/
inductive Picks {α : Type} : List α → List (List α) → Prop
  | nil : Picks [] []
  | cons {x : α} {s : List α} {p : List α} {ss : List (List α)} : x ∈ s → Picks p ss → Picks (x :: p) (s :: ss)

/-- Lexicographic order of patterns of the same length, by class number. -/
inductive PatLt : List InType → List InType → Prop
  | head {a b : InType} {p q : List InType} : a.code < b.code → PatLt (a :: p) (b :: q)
  | tail {a : InType} {p q : List InType} : PatLt p q → PatLt (a :: p) (a :: q)

end AS
