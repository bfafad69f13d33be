import Verif.Lemmas.AltBound
import Verif.Props.Compiled
/-
Property C86: when the token lists of an address are defined.
-/
namespace AS.Props
open AS AS.Wrapper AS.Tokenizer
variable {F D : Type}

/-- There are at most as many tokens with several words as blanks in the text. -/
theorem C86_bound (icu : Icu) (u : UTables) (l : Lexicon) (x : LexRe) (filter : List InType) (str : Str) :
    ∃ ts, getTokens icu u l x filter str = some ts ∧ multiWord ts ≤ blanksIn (icu.upper l.locale (icu.norm str)) := by
  obtain ⟨qs, last, h, e⟩ := getTokens_spec icu u l x filter str
  refine ⟨_, e, ?_⟩
  have ht : icu.upper l.locale (icu.norm str) = qs.flatMap Round.text ++ last := h.text
  rw [ht, blanksIn_append, List.flatMap_def (f := Round.text), blanksIn_flatten, List.map_map]
  have h1 := multi_filter filter (qs.flatMap (roundTokens u l x))
  have h2 := multi_flatMap (roundTokens u l x) (blanksIn ∘ Round.text) qs (fun r _ => round_multi u l x r)
  have : multiWord (applyFilter filter (qs.flatMap (roundTokens u l x))) =
      multi (applyFilter filter (qs.flatMap (roundTokens u l x))) := rfl
  omega

/-- The token lists are defined exactly if fewer than 32 tokens have several words. -/
theorem C86_defined_iff (env : Env F D) (l : Lexicon) (locale filter address : Str) :
    ∃ ts, getTokens env.icu env.u l (lexRe env l) (InType.asType filter) (env.icu.upper locale (env.icu.norm address)) = some ts ∧
      ((∃ phrases, phrasesOf env l locale filter address = .ok phrases) ↔ multiWord ts < 32) ∧
      (phrasesOf env l locale filter address = .undefined ↔ 32 ≤ multiWord ts) := by
  obtain ⟨ts, h, _⟩ := C86_bound env.icu env.u l (lexRe env l) (InType.asType filter) (env.icu.upper locale (env.icu.norm address))
  refine ⟨ts, h, ?_⟩
  unfold phrasesOf
  simp only [h]
  by_cases hm : multiWord ts < 32
  · obtain ⟨cs, _, _, _, e⟩ := C10_alternatives env.u l ts hm
    rw [e]
    exact ⟨⟨fun _ => hm, fun _ => ⟨_, rfl⟩⟩, ⟨fun h => (by cases h), fun h => (by omega)⟩⟩
  · rw [altTokens_none env.u l ts (by unfold multi; unfold multiWord at hm; omega)]
    exact ⟨⟨fun ⟨_, h⟩ => (by cases h), fun h => absurd h hm⟩, ⟨fun _ => (by omega), fun _ => rfl⟩⟩

/-- So they are defined for every text with fewer than 32 blanks, whatever lexicon and filter. -/
theorem C86_defined (env : Env F D) (l : Lexicon) (locale filter address : Str)
    (h : blanksIn (prepare env.icu l (env.icu.upper locale (env.icu.norm address))) < 32) :
    ∃ phrases, phrasesOf env l locale filter address = .ok phrases := by
  obtain ⟨ts, h1, h2, _⟩ := C86_defined_iff env l locale filter address
  obtain ⟨ts', h1', hb⟩ := C86_bound env.icu env.u l (lexRe env l) (InType.asType filter)
    (env.icu.upper locale (env.icu.norm address))
  rw [h1] at h1'
  cases h1'
  unfold prepare at h
  exact h2.2 (by omega)

theorem broken_all (f : Str → Token) : ∀ (ts : List Token) (n : Nat), multiWord ts ≤ n → ∀ t ∈ ts, ' ' ∈ t.text →
    ∀ w ∈ wordsOf t.text, f w ∈ broken f (List.replicate n true) ts := by
  intro ts
  induction ts with
  | nil => intro n _ t ht; cases ht
  | cons a ts ih =>
    intro n hn t ht hb w hw
    have hc : multiWord (a :: ts) = (if ' ' ∈ a.text then 1 else 0) + multiWord ts := multi_cons a ts
    rw [hc] at hn
    rw [broken]
    by_cases ha : ' ' ∈ a.text
    · rw [if_pos ha] at hn ⊢
      obtain ⟨m, rfl⟩ : ∃ m, n = m + 1 := ⟨n - 1, by omega⟩
      rw [List.replicate_succ, List.head?_cons, if_pos rfl, List.tail_cons, List.mem_append]
      rcases List.mem_cons.1 ht with rfl | ht
      · exact Or.inl (List.mem_map.2 ⟨w, hw, rfl⟩)
      · exact Or.inr (ih m (by omega) t ht hb w hw)
    · rw [if_neg ha] at hn ⊢
      rcases List.mem_cons.1 ht with rfl | ht
      · exact absurd hb ha
      · exact List.mem_cons_of_mem _ (ih n (by omega) t ht hb w hw)

/-- A blank that is not filtered is broken up too: one of the lists has a token with no text, which counts as a word unless
the lexicon lists the empty word. -/
theorem C86_empty_words (u : UTables) (l : Lexicon) (hl : ∀ e ∈ l.find [], e.type = []) (ts : List Token)
    (hm : multiWord ts < 32) (t : Token) (ht : t ∈ ts) (hb : t.text = c!" ") :
    ∃ alts, getAltTokens u l ts = some alts ∧ ∃ alt ∈ alts, ∃ e ∈ alt, e.text = [] ∧ ∀ c, c ∈ e.inclass ↔ c = .WORD := by
  obtain ⟨cs, _, h2, _, h4⟩ := C10_alternatives u l ts hm
  have hpos : 0 < multiWord ts := by
    unfold multiWord
    rw [List.length_pos_iff]
    exact List.ne_nil_of_mem (List.mem_filter.2 ⟨ht, by rw [hb]; decide⟩)
  refine ⟨_, h4, _, List.mem_map.2 ⟨List.replicate (multiWord ts) true, (h2 _).2 ⟨by simp, ?_⟩, rfl⟩, wordToken u l [], ?_, ?_, ?_⟩
  · rw [List.mem_replicate]; exact ⟨by omega, rfl⟩
  · exact broken_all _ ts _ (Nat.le_refl _) t ht (by rw [hb]; decide) [] (by rw [hb]; decide)
  · exact Props.wordToken_text u l (by simp) (by simp)
  · intro c
    have := (C13_by_shape u l (Token.ofText []) .WORD rfl hl).1 c
    unfold wordToken
    rw [this]
    have e : (Token.ofText []).text = [] := rfl
    have h1 : ¬ IsDecimal u [] := by rintro ⟨a, x, b, h, _⟩; simp at h
    have h2 : ¬ IsFraction u [] := by rintro ⟨a, b, h, _⟩; simp at h
    have h3 : ¬ IsPostHead u [] := by
      rintro ⟨a, b, c, h, h', _⟩
      simp only [List.nil_eq, List.append_eq_nil_iff] at h
      rw [h.1.1] at h'
      simp at h'
    have h4 : ¬ IsPostTail u [] := by rintro ⟨x, y, z, h, _⟩; simp at h
    rw [e]
    simp [shapes, FirstShape, RunOf, h1, h2, h3, h4]

/-- A grammar with a rule for four words. -/
def fourText : Str := unlines [c!"[ADDRESS]", c!"@A", c!"[A]", c!"WORD WORD WORD WORD -> STREET STREET STREET STREET -> 0.5"]

/-- So two words are read as four, and the address has the blanks twice more, if blanks are not filtered. -/
theorem C86_blank_not_filtered :
    (stdStandardize exEnv c!"abc def" fourText townText c!"en" []).map (fun r => r.value.map (fun a => a.name)) =
      some (some (some c!"ABC   DEF")) ∧
    stdStandardize exEnv c!"abc def" fourText townText c!"en" c!"SPACE" = some ⟨none, none⟩ := by decide +kernel

/-- Words with a blank after each. -/
def manyWords (n : Nat) : Str := (List.replicate n c!"a ").flatten

set_option maxRecDepth 100000 in
/-- With 32 blanks that are not filtered the token lists are not defined; with blanks filtered they are. -/
theorem C86_long_address :
    phrasesOf exEnv townLexicon c!"en" [] (manyWords 32) = .undefined ∧
    outcomeIs (phrasesOf exEnv townLexicon c!"en" c!"SPACE" (manyWords 32)) (fun ps => ps.length = 1) = true := by
  constructor
  · obtain ⟨ts, h, _, h2⟩ := C86_defined_iff exEnv townLexicon c!"en" [] (manyWords 32)
    refine h2.2 ?_
    have : (getTokens exEnv.icu exEnv.u townLexicon (lexRe exEnv townLexicon) (InType.asType [])
      (exEnv.icu.upper c!"en" (exEnv.icu.norm (manyWords 32)))).all (fun ts => decide (32 ≤ multiWord ts)) = true := by
      decide +kernel
    rw [h] at this
    simpa using this
  · decide +kernel

/-- The hypotheses of C86: an address with two blanks, and tokens with a blank that is not filtered. -/
example : blanksIn (prepare exEnv.icu townLexicon (exEnv.icu.upper c!"en" (exEnv.icu.norm c!"123 main street"))) = 2 ∧
    (getTokens asciiIcu asciiU townLexicon townRe [] c!"abc def").map (·.map (·.text)) = some [c!"ABC", c!" ", c!"DEF"] ∧
    townLexicon.find [] = [] :=
  ⟨by decide +kernel, by decide +kernel, by decide +kernel⟩

end AS.Props
