import Verif.Spec.Search
/-
Counting derivations: how many ways there are to derive a sequence of rules, and how often the search
lists it.
-/
namespace AS
variable {F : Type}

/-- The rules written in the section of that name. -/
def linesNamed (G : Grammar F) (s : Str) : List (Rule F) :=
  (G.rules.filter (fun sec => decide (sec.name = s))).flatMap (·.rules)

/-- The meta rules written in the section of that name: the names they refer to. -/
def refsNamed (G : Grammar F) (s : Str) : List (List Str) :=
  (G.metas.filter (fun sec => decide (sec.name = s))).flatMap (fun sec => sec.rules.map (·.map (·.name)))

/-- How many of the rules could be used at the start of these classes. -/
def fitting (rules : List (Rule F)) (pat : List InType) : Nat :=
  (rules.filter (fun r => r.inClass.isPrefixOf pat)).length

/-- A weight for the use of a rule: of the rules of its section, the sections still to come and the
classes it is chosen at. -/
abbrev Weight (F : Type) := List (Rule F) → List Str → List InType → Nat

/-- The weighted number of ways in which the sections `ss`, in order, give the rules `rs` at the classes
`pat`. Replacing a section by a meta rule is left to `expand`. A rule written twice in its section
counts twice. -/
def tallyStep [DecidableEq F] (G : Grammar F) (w : Weight F) (expand : List Str → List InType → List (Rule F) → Nat) :
    List Str → List InType → List (Rule F) → Nat
  | [], _, [] => 1
  | [], _, _ :: _ => 0
  | s :: ss, pat, [] => ((refsNamed G s).map (fun refs => expand (refs ++ ss) pat [])).sum
  | s :: ss, pat, r :: rs =>
    ((refsNamed G s).map (fun refs => expand (refs ++ ss) pat (r :: rs))).sum +
      (linesNamed G s).count r * w (linesNamed G s) ss pat * tallyStep G w expand ss (pat.drop r.inClass.length) rs

/-- The weighted number of ways with at most `m` meta rules. -/
def tally [DecidableEq F] (G : Grammar F) (w : Weight F) : Nat → List Str → List InType → List (Rule F) → Nat
  | 0 => tallyStep G w (fun _ _ _ => 0)
  | m + 1 => tallyStep G w (tally G w m)

/-- The number of derivations of `rs` from the sections `ss` with at most `m` meta rules: of choices of
lines of the grammar. -/
def ways [DecidableEq F] (G : Grammar F) (m : Nat) (ss : List Str) (rs : List (Rule F)) : Nat :=
  tally G (fun _ _ _ => 1) m ss (inputs rs) rs

/-- How often the search lists `rs`: a derivation is counted, for each of its rules but one taken when no
section is left, as often as there are rules in the same section that would fit there. -/
def times [DecidableEq F] (G : Grammar F) (m : Nat) (ss : List Str) (rs : List (Rule F)) : Nat :=
  tally G (fun rules ss pat => if ss = [] then 1 else fitting rules pat) m ss (inputs rs) rs

/-- No rule of a section begins with the input classes of another rule of it. -/
def PrefixFree (G : Grammar F) : Prop :=
  ∀ sec ∈ G.rules, sec.rules.Pairwise (fun a b => ¬ a.inClass <+: b.inClass ∧ ¬ b.inClass <+: a.inClass)

end AS
