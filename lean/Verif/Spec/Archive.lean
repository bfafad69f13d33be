import Verif.Model.Archive
import Verif.Spec.Rule
/-
Vocabulary for compiled lexicons.
-/
namespace AS

/-- Normalising and upper-casing text without a character gives text without it. -/
structure IcuKeeps (icu : Icu) (d : Char) : Prop where
  norm : ∀ s, d ∉ s → d ∉ icu.norm s
  upper : ∀ loc s, d ∉ s → d ∉ icu.upper loc s

/-- The first character that is not white space is no digit (and no minus): so for every text that begins with its header. -/
def StartsPlain (text : Str) : Prop :=
  ∃ sp c rest, text = sp ++ c :: rest ∧ (∀ x ∈ sp, whiteSpace x = true) ∧ whiteSpace c = false ∧ c.isDigit = false ∧ c ≠ '-'

end AS
