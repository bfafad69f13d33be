import Verif.Spec.Use
import Verif.Spec.Further
import Verif.Spec.Naming
import Verif.Spec.Best
import Verif.Spec.Archive
import Verif.Spec.Lexicon
/-
Input classes exchanged for one another, in the lexicon, the grammar and the filter.
-/
namespace AS
variable {F D : Type}

/-- The classes that tokens are given for their shape. -/
def ownClasses : List InType :=
  [.NUMBER, .QUAD, .QUINT, .ATSIGN, .SLASH, .FRACT, .MIXED, .PCH, .PCT, .DOUBLE, .SINGLE, .WORD, .EMDASH, .DASH, .AMPERS, .SPACE, .PUNCT]

/-- Classes are exchanged for one another, except those that tokens are given for their shape. -/
structure Relabels (σ : InType → InType) : Prop where
  inj : ∀ c d, σ c = σ d → c = d
  surj : ∀ d, ∃ c, σ c = d
  own : ∀ c ∈ ownClasses, σ c = c

/-- The entries have the same words, each with the exchanged classes and for these the same standard words. -/
structure RelabelledUse (σ : InType → InType) (es es' : List LexEntry) : Prop where
  listed : ∀ w, (∃ e ∈ es, e.word = w) ↔ ∃ e ∈ es', e.word = w
  standard : ∀ w c, standardOf es' w (σ c) = standardOf es w c
  front : ∀ w, (∃ e ∈ es, e.word = w ∧ Attach.ATT_PRE ∈ e.attached) ↔ ∃ e ∈ es', e.word = w ∧ Attach.ATT_PRE ∈ e.attached
  behind : ∀ w, (∃ e ∈ es, e.word = w ∧ Attach.ATT_SUF ∈ e.attached) ↔ ∃ e ∈ es', e.word = w ∧ Attach.ATT_SUF ∈ e.attached

/-- The same token with the exchanged classes; no class twice in either. -/
structure RelabelledToken (σ : InType → InType) (t t' : Token) : Prop where
  rest : t' = { t with inclass := t'.inclass }
  classes : t'.inclass.Perm (t.inclass.map σ)
  sets : IsSet InType.code t.inclass ∧ IsSet InType.code t'.inclass

/-- The rule for the exchanged classes. -/
def Rule.relabel (σ : InType → InType) (r : Rule F) : Rule F := { r with inClass := r.inClass.map σ }

/-- Line by line the same grammar text, with other lines for the rules. -/
inductive RelabelledLines (ct : CharTables) (fo : FloatOps F) (σ : InType → InType) : List Str → List Str → Prop
  | nil : RelabelledLines ct fo σ [] []
  | same {l : Str} {ls ls' : List Str} : IsComment ct l ∨ (∃ n, IsHeader ct l n) ∨ '@' ∈ l → RelabelledLines ct fo σ ls ls' →
      RelabelledLines ct fo σ (l :: ls) (l :: ls')
  | rule {l l' : Str} {r : Rule F} {ls ls' : List Str} : DataLine ct l → DataLine ct l' → '@' ∉ l → '@' ∉ l' → RuleMeans fo l r →
      RuleMeans fo l' (r.relabel σ) → RelabelledLines ct fo σ ls ls' → RelabelledLines ct fo σ (l :: ls) (l' :: ls')

/-- The grammar with the exchanged classes. -/
structure RelabelledGrammar (σ : InType → InType) (g g' : Grammar F) : Prop where
  metas : g'.metaNames = g.metaNames
  rules : g'.ruleSections = g.ruleSections.map (fun s => (s.1, s.2.map (Rule.relabel σ)))

/-- A derivation for one of the token lists, with a class of each token, that none within the nesting limit for any of the lists
beats. -/
structure BestReading (fo : FloatOps F) (g : Grammar F) (phrases : List (List Token)) (phrase : List Token) (rs : List (Rule F)) : Prop where
  listed : phrase ∈ phrases
  derived : ∃ m, Derives g [c!"ADDRESS"] rs m
  picks : Picks (inputs rs) (phrase.map (·.inclass))
  unbeaten : ∀ phrase' ∈ phrases, sizeProd (phrase'.map (·.inclass)) < 2 ^ 32 → ∀ rs' m', Derives g [c!"ADDRESS"] rs' m' →
    m' ≤ phrase'.length + 2 → Picks (inputs rs') (phrase'.map (·.inclass)) →
    fo.lt fo.zero (average fo rs') = true → fo.lt (average fo rs) (average fo rs') = false

/-- The text of a match that reads these classes and gives those. -/
def classPattern (is : List InType) (os : List OutType) : Str :=
  joinWith c!" " (is.map (fun c => InType.setAsString [c]) ++ [c!"->"] ++ os.map (·.asString))

/-- A match as it is listed: the classes read, the classes given, the score and the number of rules. -/
structure ListedMatch (D : Type) where
  reads : List InType
  gives : List OutType
  score : D
  rules : D

/-- Lexicon, grammar and filter with the exchanged classes. -/
structure RelabelledTexts (env : Wrapper.Env F D) (σ : InType → InType) (ls ls' : List Str) (text text' filter filter' : Str) : Prop where
  classes : Relabels σ
  lines : RelabelledLines env.u.toCharTables env.fo σ ls ls'
  single : (∀ l ∈ ls, '\n' ∉ l) ∧ ∀ l ∈ ls', '\n' ∉ l
  bom : (unlines ls).head? ≠ some '\uFEFF' ∧ (unlines ls').head? ≠ some '\uFEFF'
  accepted : ∃ g, Grammar.initialize env.u.toCharTables env.fo (unlines ls) = .ok g
  archive : env.archive text = .notArchive ∧ env.archive text' = .notArchive
  entries : ∃ h h' es es', LexText env.icu text h es ∧ LexText env.icu text' h' es' ∧ headerLocale h = headerLocale h' ∧
    RelabelledUse σ es es'
  filtered : ∀ c, σ c ∈ InType.asType filter' ↔ c ∈ InType.asType filter

end AS
