import Verif.Lemmas.TrieRegex
import Verif.Lemmas.TrieCanon
import Verif.Spec.Trie
/-
Properties C21 to C23: tries and the pattern generated from them.
-/
namespace AS.Props

/-! ## C21 -/

/-- The pattern of a list of words (free of `^ { }`) that has a non-empty word can be read, in one way
only, and matches exactly the words, each once, the longest first. -/
theorem C21_word_pattern (words : List Str) (hplain : ∀ w ∈ words, ∀ c ∈ w, c ∉ unescaped)
    (hne : ∃ w ∈ words, w ≠ []) :
    ∃ r, Reads (trieOf words).getRegexp r ∧ (∀ r', Reads (trieOf words).getRegexp r' → r' = r) ∧
      ∀ text, r.run text = wordEnds words text := by
  have hP : ∀ w ∈ words, ∀ c ∈ w, Plain c := by
    intro w hw c hc
    have := hplain w hw c hc
    simp only [unescaped, List.mem_cons, List.not_mem_nil, or_false, not_or] at this
    exact this
  obtain ⟨hok, hend, hword, _⟩ := trieOf_spec words hP
  have hlive : (trieOf words).kids.count ≠ 0 := by
    obtain ⟨w, hw, hw0⟩ := hne
    have := (hword w).2 ⟨hw0, hw⟩
    obtain ⟨c, cs, rfl⟩ := List.exists_cons_of_ne_nil hw0
    intro h0
    rw [Trie.isWord] at this
    cases hk : (trieOf words).kids with
    | nil => rw [hk] at this; simp [Kids.find] at this
    | cons _ _ _ => rw [hk] at h0; simp [Kids.count] at h0
  obtain ⟨r, ⟨N, hN⟩, run⟩ := seq_alt (trie_reads _ hok (Or.inr hlive)) [] (Or.inl rfl)
  have hreads : Reads (trieOf words).getRegexp r := ⟨N, by simpa using hN N (Nat.le_refl _)⟩
  refine ⟨r, hreads, fun r' h' => reads_unique h' hreads, fun text => ?_⟩
  rw [run, wordEnds]
  simp only [ends_eq]
  congr 1
  apply List.filter_congr
  intro n hn
  have hn : n < text.length + 1 := by simpa using hn
  rw [Bool.eq_iff_iff, hword]
  simp only [ne_eq, List.take_eq_nil_iff, not_or, decide_eq_true_eq]
  constructor
  · rintro ⟨⟨h1, _⟩, h2⟩; exact ⟨h1, h2⟩
  · rintro ⟨h1, h2⟩
    refine ⟨⟨h1, ?_⟩, h2⟩
    rintro rfl
    simp only [List.length_nil] at hn
    omega

/-- Words with a common start and one with escaped characters. -/
def someWords : List Str := [c!"ST", c!"STREET", c!"A.B", c!"S", c!"A|", c!""]

example : (∀ w ∈ someWords, ∀ c ∈ w, c ∉ unescaped) ∧ (∃ w ∈ someWords, w ≠ []) ∧
    (trieOf someWords).getRegexp = c!"(?:A(?:\\.B|\\|)|S(?:T(?:REET)?)?)" ∧
    wordEnds someWords c!"STREETS" = [c!"S", c!"REETS", c!"TREETS"] := by decide +kernel

/-- So the first match tried is the longest word, and there is no match iff no word fits. -/
theorem C21_first_is_longest (words : List Str) (text rest : Str) :
    ((wordEnds words text).head? = some rest ↔
      ∃ w ∈ words, w ≠ [] ∧ text = w ++ rest ∧ ∀ w' ∈ words, w' <+: text → w'.length ≤ w.length) ∧
    (wordEnds words text = [] ↔ ∀ w ∈ words, w <+: text → w = []) := by
  have hmem : ∀ n, n ∈ (List.range (text.length + 1)).reverse.filter (fun n => n ≠ 0 ∧ text.take n ∈ words) ↔
      n ≤ text.length ∧ n ≠ 0 ∧ text.take n ∈ words := by
    intro n
    simp only [List.mem_filter, List.mem_reverse, List.mem_range, decide_eq_true_eq, Nat.lt_succ_iff]
  have hsorted : ((List.range (text.length + 1)).reverse.filter (fun n => n ≠ 0 ∧ text.take n ∈ words)).Pairwise (fun a b => b < a) := by
    apply List.Pairwise.filter
    rw [List.pairwise_reverse]
    exact List.pairwise_lt_range
  have hword : ∀ w ∈ words, w ≠ [] → w <+: text → w.length ≤ text.length ∧ w.length ≠ 0 ∧ text.take w.length ∈ words := by
    rintro w hw h0 ⟨t, rfl⟩
    refine ⟨by simp, by simpa using h0, by simpa using hw⟩
  unfold wordEnds
  generalize hl : (List.range (text.length + 1)).reverse.filter (fun n => n ≠ 0 ∧ text.take n ∈ words) = l at hmem hsorted
  constructor
  · cases l with
    | nil =>
      simp only [List.map_nil, List.head?_nil, reduceCtorEq, false_iff]
      rintro ⟨w, hw, h0, rfl, _⟩
      have := (hmem w.length).2 (hword w hw h0 ⟨rest, rfl⟩)
      cases this
    | cons n ns =>
      simp only [List.map_cons, List.head?_cons, Option.some.injEq]
      obtain ⟨h1, h2, h3⟩ := (hmem n).1 (List.mem_cons_self ..)
      constructor
      · rintro rfl
        refine ⟨text.take n, h3, ?_, (List.take_append_drop n text).symm, ?_⟩
        · intro h; rw [List.take_eq_nil_iff] at h
          rcases h with h | h
          · exact h2 h
          · subst h; simp at h1; exact h2 h1
        · intro w' hw' hp
          rw [List.length_take, Nat.min_eq_left h1]
          by_cases h0 : w' = []
          · simp [h0]
          · have := (hmem w'.length).2 (hword w' hw' h0 hp)
            rcases List.mem_cons.1 this with h | h
            · omega
            · have := (List.pairwise_cons.1 hsorted).1 _ h; omega
      · rintro ⟨w, hw, h0, rfl, hmax⟩
        have hm := (hmem w.length).2 (hword w hw h0 ⟨rest, rfl⟩)
        have hle := hmax _ h3 (List.take_prefix n _)
        rw [List.length_take, Nat.min_eq_left h1] at hle
        rcases List.mem_cons.1 hm with h | h
        · subst h; simp
        · have := (List.pairwise_cons.1 hsorted).1 _ h; omega
  · rw [List.map_eq_nil_iff]
    constructor
    · rintro rfl w hw hp
      by_cases h0 : w = []
      · exact h0
      · have := (hmem w.length).2 (hword w hw h0 hp); cases this
    · intro h
      cases l with
      | nil => rfl
      | cons n ns =>
        obtain ⟨h1, h2, h3⟩ := (hmem n).1 (List.mem_cons_self ..)
        have := h _ h3 (List.take_prefix n _)
        rw [List.take_eq_nil_iff] at this
        rcases this with h | h
        · exact absurd h h2
        · subst h; simp at h1; exact absurd h1 h2

example : (wordEnds someWords c!"STREETS").head? = some c!"S" ∧ wordEnds someWords c!"XS" = [] := by decide +kernel

/-- Without any non-empty word the pattern is `(?:)`, which matches exactly the empty text, everywhere. -/
theorem C21_no_words (words : List Str) (h : ∀ w ∈ words, w = []) :
    (trieOf words).getRegexp = c!"(?:)" ∧ ∃ r, Reads (trieOf words).getRegexp r ∧ ∀ text, r.run text = [text] := by
  have e : trieOf words = Trie.new false := by
    unfold trieOf
    induction words with
    | nil => rfl
    | cons w ws ih =>
      have hw := h w (List.mem_cons_self ..)
      subst hw
      exact ih (fun x hx => h x (List.mem_cons_of_mem _ hx))
  rw [e]
  refine ⟨rfl, .seq .eps .eps, ⟨9, ?_⟩, ?_⟩
  · rfl
  · intro t; rfl

example : ∀ w ∈ [(c!"" : Str), c!""], w = [] := by decide

/-! ## C22 -/

/-- `^` is not escaped: the pattern of the words `^` and `a` does not match `a` but does match `b`. -/
theorem C22_caret_not_escaped :
    ∃ r, Reads (trieOf [c!"^", c!"a"]).getRegexp r ∧ r.run c!"a" = [] ∧ r.run c!"b" = [[]] := by
  have e : (trieOf [c!"^", c!"a"]).getRegexp = c!"[^a]" := by decide +kernel
  rw [e]
  refine ⟨.seq (.one (fun d => !['a'].contains d)) .eps, ⟨4, ?_⟩, ?_, ?_⟩ <;> rfl

/-- Whenever the words are single characters, `^` one of them and the first of them in code point order,
the class that is made of them is negated: the pattern matches none of the other words, and matches
every single character that is not one of them. -/
theorem C22_negated_class (words : List Str) (hone : ∀ w ∈ words, w.length = 1) (hcaret : c!"^" ∈ words)
    (hother : ∃ w ∈ words, w ≠ c!"^")
    (hafter : ∀ c, [c] ∈ words → c ≠ '^' → '^'.toNat < c.toNat ∧ c ∉ unescaped) :
    ∃ r, Reads (trieOf words).getRegexp r ∧ ∀ text, r.run text =
      match text with
      | [] => []
      | c :: rest => if c ≠ '^' ∧ [c] ∈ words then [] else [rest] := by
  obtain ⟨hok, hend, hword, _⟩ := trieOf_spec (P := fun _ => True) words (fun _ _ _ _ => trivial)
  cases ht : trieOf words with
  | node e s k =>
    rw [ht] at hok hend hword
    rw [Trie.Ok] at hok
    have he : e = false := hend
    subst he
    have hhas : ∀ c w, k.has c w = true ↔ c :: w ∈ words := by
      intro c w
      rw [← (show (_ ↔ _) from (hword (c :: w)).trans ⟨fun h => h.2, fun h => ⟨by simp, h⟩⟩)]
      simp only [Trie.isWord, Trie.kids, Kids.has]
      cases k.find c <;> simp
    obtain ⟨hre, hkeys⟩ := flat_kids k hok (fun c w h => by
      have := hone _ ((hhas c w).1 h)
      simpa using this)
    have hmem : ∀ c, c ∈ k.keys ↔ [c] ∈ words := fun c => by rw [hkeys, hhas]
    obtain ⟨ks, hks, hlt⟩ : ∃ ks, k.keys = '^' :: ks ∧ ∀ c ∈ ks, '^'.toNat < c.toNat := by
      cases k with
      | nil => have := (hmem '^').2 hcaret; cases this
      | cons d t rest =>
        have hd : [d] ∈ words := (hmem d).1 (List.mem_cons_self ..)
        have hc := (hmem '^').2 hcaret
        rw [Kids.Ok] at hok
        have hinc := hok.2.2.2.1
        rw [Kids.keys, List.mem_cons] at hc
        by_cases e : d = '^'
        · subst e
          exact ⟨rest.keys, rfl, hinc⟩
        · rcases hc with hc | hc
          · exact absurd hc.symm e
          · have := hinc _ hc
            have := (hafter d hd e).1
            omega
    have hmem' : ∀ c, c ∈ ks ↔ c ≠ '^' ∧ [c] ∈ words := by
      intro c
      rw [← hmem, hks, List.mem_cons]
      constructor
      · intro h
        refine ⟨?_, Or.inr h⟩
        rintro rfl
        exact Nat.lt_irrefl _ (hlt _ h)
      · rintro ⟨h, h' | h'⟩
        · exact absurd h' h
        · exact h'
    have hne : ks ≠ [] := by
      obtain ⟨w, hw, hw'⟩ := hother
      have hl := hone w hw
      obtain ⟨c, rfl⟩ := List.length_eq_one_iff.1 hl
      have : c ∈ ks := (hmem' c).2 ⟨fun e => hw' (by rw [e]), hw⟩
      intro e
      rw [e] at this
      cases this
    have hplain : ∀ c ∈ ks, Plain c := by
      intro c hc
      obtain ⟨h1, h2⟩ := (hmem' c).1 hc
      have := (hafter c h2 h1).2
      simp only [unescaped, List.mem_cons, List.not_mem_nil, or_false, not_or] at this
      exact this
    have hpat : (Trie.node false s k).getRegexp = '[' :: '^' :: ((ks.map (fun c => quoteMeta [c])).flatten ++ [']']) := by
      rw [Trie.getRegexp, hre, hks]
      have hl : ks.length ≠ 0 := fun h => hne (List.length_eq_zero_iff.1 h)
      simp [finishRegexp, quoteMeta, quoteSpecial, hne]
    have hr := readClass_chars hplain []
    refine ⟨.seq (.one (fun d => !ks.contains d)) .eps, ⟨4, ?_⟩, ?_⟩
    · rw [hpat]
      simp only [readAlt, readSeq, readAtom]
      rw [hr]
      simp
    · intro text
      cases text with
      | nil => rfl
      | cons c rest =>
        simp only [Re.run]
        by_cases h : c ∈ ks
        · rw [if_pos ((hmem' c).1 h)]
          simp [h]
        · rw [if_neg (fun h' => h ((hmem' c).2 h'))]
          simp [h]

example : let words := [c!"b", c!"^", c!"~", c!"a"]
    (∀ w ∈ words, w.length = 1) ∧ c!"^" ∈ words ∧ (∃ w ∈ words, w ≠ c!"^") ∧
    ∀ c, [c] ∈ words → c ≠ '^' → '^'.toNat < c.toNat ∧ c ∉ unescaped := by
  refine ⟨by decide, by decide, ⟨c!"b", by decide⟩, fun c h => ?_⟩
  simp only [List.mem_cons, List.cons.injEq, and_true, List.not_mem_nil, or_false] at h
  rcases h with rfl | rfl | rfl | rfl <;> decide

/-! ## C23 -/

/-- Membership. -/
theorem C23_isWord (words : List Str) (w : Str) :
    (trieOf words).isWord w = true ↔ w ≠ [] ∧ w ∈ words :=
  (trieOf_spec (P := fun _ => True) words (by simp)).2.2.1 w

/-- Prefixes. -/
theorem C23_isPrefix (words : List Str) (p : Str) :
    (trieOf words).isPrefix p = true ↔ p = [] ∨ ∃ w ∈ words, p <+: w := by
  rw [isPrefix_iff p (trieOf_spec (P := fun _ => True) words (by simp)).1]
  constructor
  · rintro (h | ⟨w, h⟩)
    · exact Or.inl h
    · exact Or.inr ⟨_, ((C23_isWord _ _).1 h).2, List.prefix_append ..⟩
  · rintro (h | ⟨_, h, t, rfl⟩)
    · exact Or.inl h
    · by_cases h0 : p = []
      · exact Or.inl h0
      · exact Or.inr ⟨t, (C23_isWord _ _).2 ⟨by simp [h0], h⟩⟩

/-- The words that start with `p`, in code point order, none twice. -/
theorem C23_startingWith (words : List Str) (p : Str) :
    (∀ x, x ∈ (trieOf words).getWordsStartingWith p [] [] ↔ x ≠ [] ∧ x ∈ words ∧ p <+: x) ∧
    ((trieOf words).getWordsStartingWith p [] []).Pairwise CodeLt := by
  constructor
  · intro x
    rw [mem_getWordsStartingWith p _ (trieOf_spec (P := fun _ => True) words (by simp)).1]
    simp only [List.not_mem_nil, false_or, List.nil_append, C23_isWord]
    constructor
    · rintro ⟨w, rfl, h1, h2⟩; exact ⟨h1, h2, List.prefix_append ..⟩
    · rintro ⟨h1, h2, t, rfl⟩; exact ⟨t, rfl, h1, h2⟩
  · exact (sorted_getWordsStartingWith p _ _ _ List.Pairwise.nil).imp (fun h => (strLt_iff _ _).1 h)

/-- All words, in code point order, none twice. -/
theorem C23_getWords (words : List Str) :
    (∀ x, x ∈ (trieOf words).getWords [] [] ↔ x ≠ [] ∧ x ∈ words) ∧
    ((trieOf words).getWords [] []).Pairwise CodeLt := by
  have := C23_startingWith words []
  simpa [Trie.getWordsStartingWith] using this

/-- The size counts the non-empty words added, repetitions included. -/
theorem C23_size (words : List Str) : (trieOf words).size = (words.filter (fun w => w ≠ [])).length :=
  (trieOf_spec (P := fun _ => True) words (by simp)).2.2.2

example : (trieOf someWords).getWords [] [] = [c!"A.B", c!"A|", c!"S", c!"ST", c!"STREET"] ∧
    (trieOf someWords).getWordsStartingWith c!"ST" [] [] = [c!"ST", c!"STREET"] ∧
    (trieOf someWords).isWord c!"STR" = false ∧ (trieOf someWords).isPrefix c!"STR" = true ∧
    (trieOf someWords).size = 5 := by decide +kernel

end AS.Props
