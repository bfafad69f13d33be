import Verif.Spec.Slack
import Verif.Spec.Origin
/-
Grammars that come with the sources (data/sample), and what is said about them.
-/
namespace AS
variable {F F' : Type}

/-- The tables say the same of the characters. -/
def AgreeOn (ct ct' : CharTables) (s : Str) : Prop :=
  ∀ c ∈ s, ct.isSpace c = ct'.isSpace c ∧ ct.isWord c = ct'.isWord c

/-- The sections without the scores. -/
def classes (rs : List (Str × List (Rule F))) : List (Str × List (List InType × List OutType)) :=
  rs.map (fun s => (s.1, s.2.map (fun r => (r.inClass, r.outClass))))

/-- The rules with an output class that does not exist. -/
def oddRules (cs : List (Str × List (List InType × List OutType))) : List (List InType × List OutType) :=
  (cs.flatMap (·.2)).filter (fun r => r.2.contains .BADTOKEN)

/-- The score texts of the rule lines are numbers above zero. -/
def PositiveScores (fo : FloatOps F) (lines : List Str) : Prop :=
  ∀ l ∈ lines, ∀ ins outs before score rest, splitArrow (words l) = ins :: outs :: (before ++ [score]) :: rest →
    fo.le0 (fo.parse score) = false

/-- Character tables that treat printable ASCII characters as expected, and numbers of which `0.1` to `0.9` are above zero. -/
structure Usual (ct : CharTables) (fo : FloatOps F) : Prop where
  ascii : ∀ c : Char, 32 ≤ c.toNat → c.toNat < 127 →
    ct.isSpace c = asciiTables.isSpace c ∧ ct.isWord c = asciiTables.isWord c
  zero : fo.le0 fo.zero = true
  scores : ∀ d ∈ c!"123456789", fo.le0 (fo.parse ['0', '.', d]) = false

/-- A grammar text, with what it is claimed to do: whether the check warns of unreferenced sections, the rules with an
output class that does not exist, the fields that are never and those that are always filled, and the classes of the tokens
the others are made of. -/
structure Sample where
  lines : List Str
  warns : Bool
  odd : List (List InType × List OutType)
  never : List Wrapper.Field
  always : List Wrapper.Field
  origin : List (Wrapper.Field × List InType)

/-- The grammar does what the sample is claimed to do, and its search misses no derivation. -/
def Meets (s : Sample) (G : Grammar F) : Prop :=
  G.status = (if s.warns then .CHECK_WARN else .CHECK_OK) ∧ Complete G ∧ oddRules (classes G.ruleSections) = s.odd ∧
  (∀ f ∈ s.never, NeverFills G.metaNames G.ruleSections f) ∧
  (∀ f ∈ s.always, ∃ must, AlwaysFills G.metaNames G.ruleSections must f) ∧
  (∀ p ∈ s.origin, OnlyFrom G.metaNames G.ruleSections p.1 p.2)

end AS
