import Verif.Spec.Use
import Verif.Model.Token
/-
Lexicons in which words have been given further classes, or other standard words.
-/
namespace AS

/-- The entries `es'` have the words of `es`, each with its classes; words that had a class may have further ones. For a
class of a word that is not `New`, the standard word is the same. The same words may be attached in front and behind. -/
structure FurtherUse (New : Str → InType → Prop) (es es' : List LexEntry) : Prop where
  listed : ∀ w, (∃ e ∈ es, e.word = w) ↔ ∃ e ∈ es', e.word = w
  kept : ∀ w c, standardOf es w c ≠ none → standardOf es' w c ≠ none
  standard : ∀ w c, ¬ New w c → standardOf es w c = standardOf es' w c
  classed : ∀ w c, New w c → ∃ d, standardOf es w d ≠ none
  front : ∀ w, (∃ e ∈ es, e.word = w ∧ Attach.ATT_PRE ∈ e.attached) ↔ ∃ e ∈ es', e.word = w ∧ Attach.ATT_PRE ∈ e.attached
  behind : ∀ w, (∃ e ∈ es, e.word = w ∧ Attach.ATT_SUF ∈ e.attached) ↔ ∃ e ∈ es', e.word = w ∧ Attach.ATT_SUF ∈ e.attached

/-- Some token is taken in a class that is new for its text. -/
def UsesNew (New : Str → InType → Prop) (phrase : List Token) (cs : List InType) : Prop :=
  ∃ x ∈ phrase.zip cs, New x.1.text x.2

/-- Two lists of the same length, related element by element. -/
inductive Along {α β : Type} (R : α → β → Prop) : List α → List β → Prop
  | nil : Along R [] []
  | cons {a : α} {b : β} {as : List α} {bs : List β} : R a b → Along R as bs → Along R (a :: as) (b :: bs)

/-- The second token is the first with further classes, all of them new for its text. -/
structure MoreToken (New : Str → InType → Prop) (t t' : Token) : Prop where
  rest : t' = { t with inclass := t'.inclass }
  sub : t.inclass = t'.inclass.filter (fun c => decide (c ∈ t.inclass))
  new : ∀ c ∈ t'.inclass, c ∈ t.inclass ∨ New t.text c

end AS
