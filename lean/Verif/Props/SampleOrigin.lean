import Verif.Props.Origin
import Verif.Props.Samples
/-
C83 for the grammars that come with the sources.
-/
namespace AS.Props
open AS AS.Wrapper
variable {F D : Type}

/-- In an address made with a sample grammar each field is NULL or made of tokens of one of the classes listed for it. -/
theorem C83_samples (env : Env F D) (laws : LtLaws env.fo) (signs : SignLaws env.fo)
    (htot : ∀ a b c, env.fo.lt env.fo.zero b = true → env.fo.lt a c = true → env.fo.lt a b = true ∨ env.fo.lt b c = true)
    (hu : Usual env.u.toCharTables env.fo) (s : Sample) (hs : s ∈ samples)
    (address lexicon locale filter : Str) (a : StdAddr) (err : Option Str)
    (h : stdStandardize env address (unlines s.lines) lexicon locale filter = some ⟨some a, err⟩) :
    ∃ l phrases phrase, loadLexicon env lexicon = .ok l ∧ phrasesOf env l locale filter address = .ok phrases ∧
      phrase ∈ phrases ∧
      ∀ p ∈ s.origin, a.get p.1 = none ∨ ∃ text, a.get p.1 = some text ∧ MadeFrom l phrase p.2 text := by
  obtain ⟨g, l, phrases, phrase, k1, k2, k3, k4, k5⟩ :=
    C83_origin env laws signs htot hu.zero address _ lexicon locale filter a err h
  obtain ⟨g', hg, hm⟩ := C81_accepted hu s hs
  have hl : loadGrammar env (unlines s.lines) = .ok g' := by unfold loadGrammar; rw [hg]
  rw [hl] at k1
  cases k1
  exact ⟨l, phrases, phrase, k2, k3, k4, fun p hp => k5 p.1 p.2 (hm.2.2.2.2.2 p hp)⟩

/-- With any of them a country comes from nation words alone, a street type after the name from type words, a
direction from direction words and a qualifier from qualifiers. -/
theorem C83_sample_classes (env : Env F D) (laws : LtLaws env.fo) (signs : SignLaws env.fo)
    (htot : ∀ a b c, env.fo.lt env.fo.zero b = true → env.fo.lt a c = true → env.fo.lt a b = true ∨ env.fo.lt b c = true)
    (hu : Usual env.u.toCharTables env.fo) (s : Sample) (hs : s ∈ samples)
    (address lexicon locale filter : Str) (a : StdAddr) (err : Option Str)
    (h : stdStandardize env address (unlines s.lines) lexicon locale filter = some ⟨some a, err⟩) :
    ∃ l phrases phrase, loadLexicon env lexicon = .ok l ∧ phrasesOf env l locale filter address = .ok phrases ∧
      phrase ∈ phrases ∧
      (∀ text, a.country = some text → MadeFrom l phrase [.NATION] text) ∧
      (∀ text, a.suftype = some text → MadeFrom l phrase [.TYPE] text) ∧
      (∀ text, a.predir = some text → MadeFrom l phrase [.DIRECT] text) ∧
      (∀ text, a.sufdir = some text → MadeFrom l phrase [.DIRECT] text) ∧
      (∀ text, a.qual = some text → MadeFrom l phrase [.QUALIF] text) := by
  obtain ⟨l, phrases, phrase, k1, k2, k3, k4⟩ :=
    C83_samples env laws signs htot hu s hs address lexicon locale filter a err h
  have hn := (C81_fields env laws signs htot hu s hs address lexicon locale filter a err h).1
  have one : ∀ f c, (f ∈ s.never ∨ (f, [c]) ∈ s.origin) → ∀ text, a.get f = some text → MadeFrom l phrase [c] text := by
    intro f c hfc text ht
    rcases hfc with hf | hf
    · rw [hn f hf] at ht; cases ht
    · rcases k4 _ hf with e | ⟨text', e, hm⟩
      · rw [e] at ht; cases ht
      · rw [e] at ht; cases ht; exact hm
  have key : ∀ s ∈ samples, ∀ p ∈ ([(.country, .NATION), (.suftype, .TYPE), (.predir, .DIRECT), (.sufdir, .DIRECT),
      (.qual, .QUALIF)] : List (Field × InType)), p.1 ∈ s.never ∨ (p.1, [p.2]) ∈ s.origin := by decide
  refine ⟨l, phrases, phrase, k1, k2, k3, ?_, ?_, ?_, ?_, ?_⟩
  · exact one .country .NATION (key s hs (.country, .NATION) (by simp))
  · exact one .suftype .TYPE (key s hs (.suftype, .TYPE) (by simp))
  · exact one .predir .DIRECT (key s hs (.predir, .DIRECT) (by simp))
  · exact one .sufdir .DIRECT (key s hs (.sufdir, .DIRECT) (by simp))
  · exact one .qual .QUALIF (key s hs (.qual, .QUALIF) (by simp))

/-- A lexicon with a nation. -/
def nationText : Str := unlines [c!"LEXICON:\tT\tENG\ten\t2", c!"LEXENTRY:\tNEW YORK\tNY\tCITY\t",
  c!"LEXENTRY:\tEIRE\tIRELAND\tNATION\t"]

set_option maxRecDepth 100000 in
/-- A country in an address of Ireland. -/
example : Sample.Ireland.sample ∈ samples ∧ Usual exEnv.u.toCharTables exEnv.fo ∧
    (.country, [.NATION]) ∈ Sample.Ireland.sample.origin ∧
    (stdStandardize exEnv c!"12 abc new york eire" (unlines Sample.Ireland.sample.lines) nationText c!"en" c!"SPACE").map
      (fun r => r.value.map (fun a => [a.house_num, a.name, a.city, a.country])) =
      some (some [some c!"12", some c!"ABC", some c!"NY", some c!"IRELAND"]) :=
  ⟨by simp [samples], usual_example, by decide, by decide +kernel⟩

end AS.Props
