import Verif.Spec.Rounding
/-
Parts of a derivation.
-/
namespace AS
variable {F : Type}

/-- `Inside G s ss pre post k`: the sections `ss` can be replaced by the rules `pre`, the section `s` and the rules `post`, with `k`
meta rules; `s` is what stands for some part of the derivation. -/
inductive Inside (G : Grammar F) (s : Str) : List Str → List (Rule F) → List (Rule F) → Nat → Prop
  | here {ss : List Str} {post : List (Rule F)} {k : Nat} : Derives G ss post k → Inside G s (s :: ss) [] post k
  | rule {t : Str} {ss : List Str} {sec : RuleSection F} {r : Rule F} {pre post : List (Rule F)} {k : Nat} :
      sec ∈ G.rules → sec.name = t → r ∈ sec.rules → Inside G s ss pre post k → Inside G s (t :: ss) (r :: pre) post k
  | expand {t : Str} {ss : List Str} {sec : MetaSection} {refs : MetaRule} {pre post : List (Rule F)} {k : Nat} :
      sec ∈ G.metas → sec.name = t → refs ∈ sec.rules →
      Inside G s (refs.map (·.name) ++ ss) pre post k → Inside G s (t :: ss) pre post (k + 1)

/-- By how much the scores of the rules together exceed the number `A` each. -/
def surplus (exact : F → Rat) (A : Rat) (rs : List (Rule F)) : Rat := total (fun r => exact r.score) rs - A * rs.length

/-- Of the lists, those for the tokens that `mid` reads behind `pre`. -/
def readBy (classes : List (List InType)) (pre mid : List (Rule F)) : List (List InType) :=
  (classes.drop (inputs pre).length).take (inputs mid).length

/-- A derivation within the nesting limit for one of the token lists, with a class of each token, such that none for any of the
lists has a greater average score, exactly calculated. -/
structure Greatest (exact : F → Rat) (G : Grammar F) (phrases : List (List Token)) (phrase : List Token) (rs : List (Rule F)) : Prop where
  listed : phrase ∈ phrases
  derived : ∃ m, Derives G [c!"ADDRESS"] rs m ∧ m ≤ phrase.length + 2
  picks : Picks (inputs rs) (phrase.map (·.inclass))
  greatest : ∀ phrase' ∈ phrases, ∀ rs' m', Derives G [c!"ADDRESS"] rs' m' → m' ≤ phrase'.length + 2 →
    Picks (inputs rs') (phrase'.map (·.inclass)) → exactAverage exact rs' ≤ exactAverage exact rs

end AS
