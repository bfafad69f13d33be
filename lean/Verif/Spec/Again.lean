import Verif.Spec.Plain
/-
Standardizing an address that has been standardized.
-/
namespace AS

/-- The standard word of `v` in class `c` is settled: it is listed in the class, as a word that stands for itself, and in no class
in which `v` is not listed. -/
def SettledAt (es : List LexEntry) (v : Str) (c : InType) : Prop :=
  ∀ s, standardOf es v c = some s → s ≠ [] →
    (standardOf es s c = some s ∨ standardOf es s c = some []) ∧ ∀ d, standardOf es s d ≠ none → standardOf es v d ≠ none

/-- All standard words are settled. -/
def Settled (es : List LexEntry) : Prop := ∀ v c, SettledAt es v c

/-- The words, each replaced by its standard word in the class it is taken in. -/
def standardized (es : List LexEntry) (vs : List Str) (is : List InType) : List Str :=
  (vs.zip is).map (fun p => standardWord es p.1 p.2)

/-- Each word has the class it is taken in, and none that the word in the same place of the first list does not have. -/
def NarrowedTo (is : List InType) (css dss : List (List InType)) : Prop :=
  Picks is dss ∧ Along (fun cs ds => ∀ d ∈ ds, d ∈ cs) css dss

/-- A line in capitals: the small letters that occur in the sample lexicons are replaced. -/
def upLine (line : Str) : Str :=
  line.flatMap fun c => if c = 'ß' then c!"SS" else if c = 'ä' then c!"Ä" else if c = 'ö' then c!"Ö" else if c = 'ü' then c!"Ü" else [c.toUpper]

end AS
