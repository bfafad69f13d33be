import Verif.Spec.Search
import Verif.Model.Lexicon
import Verif.Spec.Grammar
/-
Rules that no token list can match.
-/
namespace AS
variable {F : Type}

/-- The classes a token can have because of its text, without an entry of the lexicon. -/
def shapeClasses : List InType :=
  [.NUMBER, .QUAD, .QUINT, .ATSIGN, .SLASH, .FRACT, .MIXED, .PCH, .PCT, .WORD, .DOUBLE, .SINGLE, .EMDASH, .DASH, .AMPERS,
    .SPACE, .PUNCT]

/-- The lexicon has an entry with the class. -/
def HasClass (l : Lexicon) (c : InType) : Prop := ∃ w, ∃ e ∈ l.find w, c ∈ e.type

/-- The second grammar is the first without some rules and without the sections `barren`: each rule left out has an input
class that is not in `P`; so has each rule of a barren section, and each meta rule of a barren section refers to a barren
section. Meta rules that refer to a barren section are left out, too. -/
structure Pruned (P : InType → Prop) (barren : List Str) (keep : Rule F → Bool) (G H : Grammar F) : Prop where
  root : c!"ADDRESS" ∉ barren
  rule : ∀ sec ∈ G.ruleSections, ∀ r ∈ sec.2, keep r = false → ∃ c ∈ r.inClass, ¬ P c
  barrenRules : ∀ sec ∈ G.ruleSections, sec.1 ∈ barren → ∀ r ∈ sec.2, ∃ c ∈ r.inClass, ¬ P c
  barrenMetas : ∀ sec ∈ G.metaNames, sec.1 ∈ barren → ∀ refs ∈ sec.2, ∃ n ∈ refs, n ∈ barren
  metas : ∀ sec ∈ G.metaNames, sec.1 ∉ barren →
    (sec.1, sec.2.filter (fun refs => refs.all (fun n => decide (n ∉ barren)))) ∈ H.metaNames
  rules : ∀ sec ∈ G.ruleSections, sec.1 ∉ barren → (sec.1, sec.2.filter keep) ∈ H.ruleSections

end AS
