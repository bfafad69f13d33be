import Verif.Spec.Plain
/-
Addresses with expressions of several words that the lexicon lists.
-/
namespace AS

/-- A text of several words, single spaces between them, that the lexicon lists with a class. -/
structure Expression (u : UTables) (es : List LexEntry) (v : Str) : Prop where
  first : ∃ c, v.head? = some c ∧ ¬ SepChar u c
  classed : ∃ c, standardOf es v c ≠ none
  space : ' ' ∈ v
  single : ∀ w ∈ splitOn ' ' v, w ≠ []
  plain : '\t' ∉ v ∧ ',' ∉ v

/-- What a text is read as: a word as in `WordRead`, an expression as itself. -/
inductive TextRead (u : UTables) (es : List LexEntry) : Str → List Str → Prop
  | word {v : Str} {ps : List Str} : WordRead u es v ps → TextRead u es v ps
  | expression {v : Str} : Expression u es v → TextRead u es v [v]

/-- The text is read as these words and expressions: as in `InWords`, expressions among them. -/
inductive InTexts (u : UTables) (es : List LexEntry) (filter : Str) : Str → List Str → Prop
  | nil : InTexts u es filter [] []
  | last {v : Str} {ps : List Str} : TextRead u es v ps → InTexts u es filter v ps
  | more {v g b : Str} {ps vs : List Str} : TextRead u es v ps → Joint u (es.map (·.word)) v g b →
      LeftOut u es filter g → InTexts u es filter b vs → InTexts u es filter (v ++ (g ++ b)) (ps ++ vs)

/-- The same with each expression left as it is or taken as its words. -/
inductive TakenAs : List Str → List Str → Prop
  | nil : TakenAs [] []
  | whole {v : Str} {vs ws : List Str} : TakenAs vs ws → TakenAs (v :: vs) (v :: ws)
  | apart {v : Str} {vs ws : List Str} : ' ' ∈ v → TakenAs vs ws → TakenAs (v :: vs) (splitOn ' ' v ++ ws)

/-- When the texts are joined with single spaces, no word of the lexicon begins within one of them and ends behind it. -/
def NoneAcross (u : UTables) (es : List LexEntry) : List Str → Prop
  | [] => True
  | [_] => True
  | v :: w :: vs => (∀ x y z, joinWith c!" " (v :: w :: vs) = x ++ y ++ z → x.length < v.length → v.length < x.length + y.length →
      ∀ e ∈ es, e.word ≠ y.map u.canon) ∧ NoneAcross u es (w :: vs)

end AS
