import Verif.Spec.Slack
/-
From what classes of tokens a field of an address is made.
-/
namespace AS
variable {F : Type}

/-- The text a token of the class stands for: the standard word of the first entry of the lexicon for its text that has the
class; if there is none, the token's own standard text; instead of an empty one, the text itself. -/
def StandardText (l : Lexicon) (t : Token) (c : InType) (s : Str) : Prop :=
  (∃ a e b, l.find t.text = a ++ e :: b ∧ c ∈ e.type ∧ (∀ x ∈ a, c ∉ x.type) ∧
    s = if e.stdword = [] then t.text else e.stdword) ∨
  ((∀ e ∈ l.find t.text, c ∉ e.type) ∧ s = if t.stdtext = [] then t.text else t.stdtext)

/-- In the rules that ADDRESS leads to, an output class of the field stands opposite one of the classes only. -/
def OnlyFrom (ms : List (Str × List (List Str))) (rs : List (Str × List (Rule F))) (f : Wrapper.Field) (cs : List InType) :
    Prop :=
  ∀ sec ∈ rs, Leads ms sec.1 → ∀ r ∈ sec.2, ∀ p ∈ r.inClass.zip r.outClass, Wrapper.fieldOf p.2 = some f → p.1 ∈ cs

/-- The text is made of tokens of the list, in their order, each read as one of its classes that is in `cs`: their standard
texts with a blank between. -/
def MadeFrom (l : Lexicon) (phrase : List Token) (cs : List InType) (text : Str) : Prop :=
  ∃ parts : List (Token × InType × Str), parts ≠ [] ∧ (parts.map (·.1)).Sublist phrase ∧
    (∀ p ∈ parts, p.2.1 ∈ cs ∧ p.2.1 ∈ p.1.inclass ∧ StandardText l p.1 p.2.1 p.2.2) ∧
    text = Wrapper.upToNul (joinWith c!" " (parts.map (·.2.2)))

end AS
