import Verif.Spec.LexSamples
import Verif.Spec.Samples
/-
A grammar and a lexicon of data/sample for the same country.
-/
namespace AS

/-- A grammar and a lexicon, with what is claimed of the two together: lines of the grammar that do nothing, and fields that
are never filled. -/
structure Pair where
  sample : Sample
  lexicon : LexSample
  idle : List Str
  null : List Wrapper.Field

/-- The grammar without those lines. -/
def Pair.left (p : Pair) : List Str := p.sample.lines.filter (fun l => decide (l ∉ p.idle))

end AS
