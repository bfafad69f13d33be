import Verif.Lemmas.ByteRegex
import Verif.Props.Trie
/-
Property C74: the trie over bytes.
-/
namespace AS.Props
open AS.ByteTrie (Bytes BytesLt ascii)

/-- Membership: exactly the non-empty byte strings added. -/
theorem C74_isWord (words : List Bytes) (w : Bytes) :
    (ByteTrie.trieOf words).isWord w = true ↔ w ≠ [] ∧ w ∈ words :=
  (ByteTrie.trieOf_spec (P := fun _ => True) words (by simp)).2.2.1 w

/-- Prefixes. -/
theorem C74_isPrefix (words : List Bytes) (p : Bytes) :
    (ByteTrie.trieOf words).isPrefix p = true ↔ p = [] ∨ ∃ w ∈ words, p <+: w := by
  rw [ByteTrie.isPrefix_iff p (ByteTrie.trieOf_spec (P := fun _ => True) words (by simp)).1]
  constructor
  · rintro (h | ⟨w, h⟩)
    · exact Or.inl h
    · exact Or.inr ⟨_, ((C74_isWord _ _).1 h).2, List.prefix_append ..⟩
  · rintro (h | ⟨_, h, t, rfl⟩)
    · exact Or.inl h
    · by_cases h0 : p = []
      · exact Or.inl h0
      · exact Or.inr ⟨t, (C74_isWord _ _).2 ⟨by simp [h0], h⟩⟩

/-- The words that start with `p`, in the order of unsigned bytes, none twice. -/
theorem C74_startingWith (words : List Bytes) (p : Bytes) :
    (∀ x, x ∈ (ByteTrie.trieOf words).getWordsStartingWith p [] [] ↔ x ≠ [] ∧ x ∈ words ∧ p <+: x) ∧
    ((ByteTrie.trieOf words).getWordsStartingWith p [] []).Pairwise BytesLt := by
  constructor
  · intro x
    rw [ByteTrie.mem_getWordsStartingWith p _ (ByteTrie.trieOf_spec (P := fun _ => True) words (by simp)).1]
    simp only [List.not_mem_nil, false_or, List.nil_append, C74_isWord]
    constructor
    · rintro ⟨w, rfl, h1, h2⟩; exact ⟨h1, h2, List.prefix_append ..⟩
    · rintro ⟨h1, h2, t, rfl⟩; exact ⟨t, rfl, h1, h2⟩
  · exact (ByteTrie.sorted_getWordsStartingWith p _ _ _ List.Pairwise.nil).imp (fun h => (ByteTrie.strLt_iff _ _).1 h)

/-- All words, in the order of unsigned bytes, none twice. -/
theorem C74_getWords (words : List Bytes) :
    (∀ x, x ∈ (ByteTrie.trieOf words).getWords [] [] ↔ x ≠ [] ∧ x ∈ words) ∧
    ((ByteTrie.trieOf words).getWords [] []).Pairwise BytesLt := by
  have := C74_startingWith words []
  simpa [ByteTrie.Trie.getWordsStartingWith] using this

/-- The size counts the non-empty words added, repetitions included. -/
theorem C74_size (words : List Bytes) :
    (ByteTrie.trieOf words).size = (words.filter (fun w => w ≠ [])).length :=
  (ByteTrie.trieOf_spec (P := fun _ => True) words (by simp)).2.2.2

/-- Two words with a common first byte that is not ASCII. -/
def someBytes : List Bytes := [[195, 137], [65], [195, 136, 66], [], [65]]

example : (ByteTrie.trieOf someBytes).getWords [] [] = [[65], [195, 136, 66], [195, 137]] ∧
    (ByteTrie.trieOf someBytes).getWordsStartingWith [195] [] [] = [[195, 136, 66], [195, 137]] ∧
    (ByteTrie.trieOf someBytes).isWord [195] = false ∧ (ByteTrie.trieOf someBytes).isPrefix [195] = true ∧
    (ByteTrie.trieOf someBytes).size = 4 ∧
    (ByteTrie.trieOf someBytes).getRegexp = some [40, 63, 58, 195, 40, 63, 58, 136, 66, 124, 137, 41, 124, 65, 41] := by
  decide +kernel

/-- The bytes of the characters that were to be escaped. -/
def metaBytes : Bytes := [0x2d, 0x2e, 0x2b, 0x2a, 0x7e, 0x24, 0x28, 0x29, 0x5b, 0x5d, 0x5c, 0x7c, 0x3f]

/-- The expression is defined exactly when no word has a character that would have to be escaped. -/
theorem C74_regexp_defined (words : List Bytes) :
    (∃ r, (ByteTrie.trieOf words).getRegexp = some r) ↔ ∀ w ∈ words, ∀ c ∈ w, c ∉ metaBytes := by
  have e : ByteTrie.special = metaBytes := by decide
  constructor
  · rintro ⟨r, hr⟩ w hw c hc
    rw [← e]
    have h0 : w ≠ [] := by rintro rfl; cases hc
    exact ByteTrie.plain_of_regexp _ r hr w ((C74_isWord words w).2 ⟨h0, hw⟩) c hc
  · intro h
    rw [← e] at h
    exact ByteTrie.regexp_some _ (ByteTrie.trieOf_spec words h).1

example : (∀ w ∈ someBytes, ∀ c ∈ w, c ∉ metaBytes) ∧
    (ByteTrie.trieOf [ascii c!"ST", ascii c!"ST."]).getRegexp = none := by decide +kernel

/-- For ASCII words free of characters with a meaning in patterns, the expression is the one of the
trie over characters: read as a pattern it matches exactly the words, each once, the longest first. -/
theorem C74_regexp_ascii (words : List Str) (hascii : ∀ w ∈ words, ∀ c ∈ w, c.toNat < 128)
    (hplain : ∀ w ∈ words, ∀ c ∈ w, c ∉ c!"-.+*~$()[]\\|?^{}") (hne : ∃ w ∈ words, w ≠ []) :
    ∃ p r, (ByteTrie.trieOf (words.map ascii)).getRegexp = some (ascii p) ∧ Reads p r ∧
      ∀ text, r.run text = wordEnds words text := by
  have e : c!"-.+*~$()[]\\|?^{}" = quoteSpecial ++ unescaped := by decide
  rw [e] at hplain
  obtain ⟨r, hr, _, hrun⟩ := C21_word_pattern words
    (fun w hw c hc h => hplain w hw c hc (List.mem_append.2 (Or.inr h))) hne
  refine ⟨_, r, ?_, hr, hrun⟩
  rw [← ByteTrie.up_trieOf words hascii]
  apply ByteTrie.up_getRegexp
  exact (AS.trieOf_spec words fun w hw c hc =>
    ⟨hascii w hw c hc, fun h => hplain w hw c hc (List.mem_append.2 (Or.inl h))⟩).1

/-- Three words with a common start. -/
def plainWords : List Str := [c!"ST", c!"STREET", c!"AVE", c!"S"]

example : (∀ w ∈ plainWords, ∀ c ∈ w, c.toNat < 128) ∧ (∀ w ∈ plainWords, ∀ c ∈ w, c ∉ c!"-.+*~$()[]\\|?^{}") ∧
    (∃ w ∈ plainWords, w ≠ []) ∧
    (ByteTrie.trieOf (plainWords.map ascii)).getRegexp = some (ascii c!"(?:AVE|S(?:T(?:REET)?)?)") := by
  decide +kernel

end AS.Props
