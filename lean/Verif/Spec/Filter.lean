import Verif.Spec.Lexicon
import Verif.Props.Codec
/-
What a filter text names (specification of C89).
-/
namespace AS

/-- The filter names the class: one of its items, which are separated by commas, stands for the class. -/
def FilterNames (filter : Str) (c : InType) : Prop := ∃ q ∈ splitOn ',' filter, Props.ItemMeans q (some c)

end AS
