import Verif.Props.AltBound
import Verif.Props.LexSamples
/-
Property C86 for the sample grammars and lexicons.
-/
namespace AS.Props
open AS AS.Wrapper AS.Tokenizer
variable {F D : Type}

/-- With a grammar and a lexicon of the samples, and memory for the result, `std_standardize` gives an address or nothing,
and no message, for every such address. -/
theorem C86_samples (env : Env F D) (laws : LtLaws env.fo) (signs : SignLaws env.fo) (hu : Usual env.u.toCharTables env.fo)
    (hk : IcuKeeps env.icu '\t') (ha : env.alloc 1 = true) (s : Sample) (hs : s ∈ samples) (x : LexSample)
    (hx : x ∈ lexSamples) (har : env.archive x.text = .notArchive) (address locale filter : Str)
    (h : blanksIn (env.icu.upper x.locale (env.icu.norm (env.icu.upper locale (env.icu.norm address)))) < 32) :
    ∃ value, stdStandardize env address (unlines s.lines) x.text locale filter = some ⟨value, none⟩ := by
  obtain ⟨p, hp, rfl⟩ := List.mem_map.1 hx
  obtain ⟨l, hl, hm⟩ := pair_lexicon env hk p hp har
  obtain ⟨g, hg, _⟩ := C81_accepted hu s hs
  have hg' : loadGrammar env (unlines s.lines) = .ok g := by unfold loadGrammar; rw [hg]
  obtain ⟨phrases, hph⟩ := C86_defined env l locale filter address (by unfold prepare; rw [hm.2.1]; exact h)
  unfold stdStandardize
  rw [hg', hl]
  rcases C48_address_iff_match env laws signs hu.zero ha _ g hg' l locale filter address phrases hph with
    ⟨a, h, _⟩ | ⟨h, _⟩
  · exact ⟨_, h⟩
  · exact ⟨_, h⟩

/-- The hypotheses: an address with two blanks, the usual numbers, a grammar and a lexicon of the samples. -/
example : blanksIn (exEnv.icu.upper Sample.Usa.lexicon.locale (exEnv.icu.norm (exEnv.icu.upper c!"en" (exEnv.icu.norm
      c!"123 main street")))) = 2 ∧ LtLaws exEnv.fo ∧ SignLaws exEnv.fo ∧ Usual exEnv.u.toCharTables exEnv.fo ∧
    IcuKeeps exEnv.icu '\t' ∧ exEnv.alloc 1 = true ∧ Sample.Usa.sample ∈ samples ∧ Sample.Usa.lexicon ∈ lexSamples ∧
    exEnv.archive Sample.Usa.lexicon.text = .notArchive :=
  ⟨by decide +kernel, ratOps_laws, ratOps_signs, usual_example, asciiIcu_keeps _ (toUpper_low _ (by decide)), rfl,
    by simp [samples], by simp [lexSamples, pairs, Sample.Usa.pair], rfl⟩

end AS.Props
