import Verif.Model.LexEntry
/-
What of the entries of a lexicon is used.
-/
namespace AS

/-- The standard word of a word for a class: that of the first entry with both. -/
def standardOf (es : List LexEntry) (w : Str) (c : InType) : Option Str :=
  (es.find? (fun e => decide (e.word = w ∧ c ∈ e.type))).map (·.stdword)

/-- The entries have the same words, each with the same classes and for each class the same standard word, and the same words
may be attached in front and behind. -/
structure SameUse (es es' : List LexEntry) : Prop where
  listed : ∀ w, (∃ e ∈ es, e.word = w) ↔ ∃ e ∈ es', e.word = w
  standard : ∀ w c, standardOf es w c = standardOf es' w c
  front : ∀ w, (∃ e ∈ es, e.word = w ∧ Attach.ATT_PRE ∈ e.attached) ↔ ∃ e ∈ es', e.word = w ∧ Attach.ATT_PRE ∈ e.attached
  behind : ∀ w, (∃ e ∈ es, e.word = w ∧ Attach.ATT_SUF ∈ e.attached) ↔ ∃ e ∈ es', e.word = w ∧ Attach.ATT_SUF ∈ e.attached

/-- Whether a name of an attachment counts. -/
def countsAs (a : Attach) : Bool := a = .ATT_PRE || a = .ATT_SUF

end AS
