import Verif.Model.Search
import Verif.Spec.Token
/-
Derivations of a grammar: the specification of search.
-/
namespace AS
variable {F : Type}

/-- `Derives G ss rs m`: the sections named `ss`, in order, can be replaced by the sequence of rules
`rs`, always replacing the leftmost section, by a rule of a rule section or by the sections a meta
rule refers to; `m` meta rules are expanded. -/
inductive Derives (G : Grammar F) : List Str → List (Rule F) → Nat → Prop
  | done : Derives G [] [] 0
  | rule {s : Str} {ss : List Str} {sec : RuleSection F} {r : Rule F} {rs : List (Rule F)} {m : Nat} :
      sec ∈ G.rules → sec.name = s → r ∈ sec.rules → Derives G ss rs m → Derives G (s :: ss) (r :: rs) m
  | expand {s : Str} {ss : List Str} {sec : MetaSection} {refs : MetaRule} {rs : List (Rule F)} {m : Nat} :
      sec ∈ G.metas → sec.name = s → refs ∈ sec.rules →
      Derives G (refs.map (·.name) ++ ss) rs m → Derives G (s :: ss) rs (m + 1)

/-- The input classes of a sequence of rules. -/
def inputs (rs : List (Rule F)) : List InType := rs.flatMap (·.inClass)

/-- A reference points to the section it names. -/
def PtrOk (G : Grammar F) (ref : SectionPtr) : Prop :=
  (∃ i sec, ref.mptr = some i ∧ G.metas[i]? = some sec ∧ sec.name = ref.name) ∨
  (ref.mptr = none ∧ ∃ i sec, ref.rptr = some i ∧ G.rules[i]? = some sec ∧ sec.name = ref.name)

/-- A grammar as construction leaves it (`C29_constructed_wf`): section names are distinct, every meta
rule refers to something, every reference points to the section it names, and the section index
finds exactly the sections. -/
structure WfGrammar (G : Grammar F) : Prop where
  distinct : (G.metas.map (·.name) ++ G.rules.map (·.name)).Nodup
  nonempty : ∀ sec ∈ G.metas, ∀ refs ∈ sec.rules, refs ≠ []
  linked   : ∀ sec ∈ G.metas, ∀ refs ∈ sec.rules, ∀ ref ∈ refs, PtrOk G ref
  indexed  : ∀ name, match mapFind name G.sectionIndex with
    | some k => (∃ sec, G.metas[k]? = some sec ∧ sec.name = name) ∨ (∃ sec, G.rules[k]? = some sec ∧ sec.name = name)
    | none => (∀ sec ∈ G.metas, sec.name ≠ name) ∧ (∀ sec ∈ G.rules, sec.name ≠ name)

/-- All rules of the grammar have as many output as input classes. -/
def Balanced (G : Grammar F) : Prop :=
  ∀ sec ∈ G.rules, ∀ r ∈ sec.rules, r.inClass.length = r.outClass.length

end AS
