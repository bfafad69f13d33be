import Verif.Props.Tester
import Verif.Spec.Heap
/-
Property C48, continued: memory that is not granted.
-/
namespace AS.Props
open AS AS.Wrapper
variable {F D : Type}

/-- `r` is what is left of `r'`, the result with memory granted always, for which memory for so many records is needed: `r'`
itself if it is granted or nothing is returned, else no value and a message. What is undefined in `r'` is undefined or the
message. -/
def Left {α : Type} (env : Env F D) (size : α → Nat) (r' r : Option (Ret α)) : Prop :=
  match r' with
  | some ⟨some a, _⟩ => r = if env.alloc (size a) = true then r' else some ⟨none, some c!"Out of memory!"⟩
  | some ⟨none, _⟩ => r = r'
  | none => r = none ∨ r = some ⟨none, some c!"Out of memory!"⟩

/-- Memory that is not granted is reported, and makes no other difference to `as_standardize`. -/
theorem C48_memory_standardize (env : Env F D) (address grammar lexicon locale filter : Str) :
    Left env (fun _ => 1) (stdStandardize (Heap.roomy env) address grammar lexicon locale filter)
      (stdStandardize env address grammar lexicon locale filter) := by
  simp only [stdStandardize, show loadGrammar (Heap.roomy env) grammar = loadGrammar env grammar from rfl,
    show loadLexicon (Heap.roomy env) lexicon = loadLexicon env lexicon from rfl]
  split
  · exact Or.inl rfl
  · rfl
  · split
    · exact Or.inl rfl
    · rfl
    · next l _ =>
      simp only [standardizeAddr, standardizeAddrWith, show phrasesOf (Heap.roomy env) l locale filter address =
        phrasesOf env l locale filter address from rfl, show (Heap.roomy env).fo = env.fo from rfl]
      split
      · exact Or.inl rfl
      · rfl
      · split
        · exact Or.inl rfl
        · rfl
        · split
          · split
            · exact Or.inl rfl
            · rfl
          · rfl

/-- The same for `as_parse`, which needs memory for all its rows at once. -/
theorem C48_memory_parse (env : Env F D) (address lexicon locale filter : Str) :
    Left env List.length (stdParseAddress (Heap.roomy env) address lexicon locale filter)
      (stdParseAddress env address lexicon locale filter) := by
  simp only [stdParseAddress, show loadLexicon (Heap.roomy env) lexicon = loadLexicon env lexicon from rfl]
  split
  · exact Or.inl rfl
  · rfl
  · next l _ =>
    simp only [parseAddr, parseAddrWith, show phrasesOf (Heap.roomy env) l locale filter address =
      phrasesOf env l locale filter address from rfl]
    split
    · exact Or.inl rfl
    · rfl
    · next ps _ =>
      have e : parseCount 0 ps = (parseLoop 0 0 ps).length := by
        rw [parseCount_eq, Nat.zero_add, ← List.length_map (as := parseLoop 0 0 ps) (f := (·.seq)), parseLoop_seq, List.length_range']
      rw [if_neg (show ¬ ¬ (Heap.roomy env).alloc _ = true from fun h => h rfl)]
      by_cases ha : env.alloc (parseCount 0 ps) = true
      · rw [if_neg (show ¬ ¬ env.alloc (parseCount 0 ps) = true from fun h => h ha)]
        split
        · exact Or.inl rfl
        · simp only [Left, ← e, ha, ↓reduceIte]
      · rw [if_pos ha]
        split
        · exact Or.inr rfl
        · simp only [Left, ← e, ha]
          rfl

/-- The same for `as_match`. -/
theorem C48_memory_match (env : Env F D) (address grammar lexicon locale filter : Str) :
    Left env List.length (stdMatchAddress (Heap.roomy env) address grammar lexicon locale filter)
      (stdMatchAddress env address grammar lexicon locale filter) := by
  simp only [stdMatchAddress, show loadGrammar (Heap.roomy env) grammar = loadGrammar env grammar from rfl,
    show loadLexicon (Heap.roomy env) lexicon = loadLexicon env lexicon from rfl]
  split
  · exact Or.inl rfl
  · rfl
  · split
    · exact Or.inl rfl
    · rfl
    · next g _ _ l _ =>
      simp only [matchAddr, matchAddrWith, show phrasesOf (Heap.roomy env) l locale filter address =
        phrasesOf env l locale filter address from rfl, show (Heap.roomy env).dops = env.dops from rfl,
        show (Heap.roomy env).widen = env.widen from rfl]
      split
      · exact Or.inl rfl
      · rfl
      · split
        · exact Or.inl rfl
        · rfl
        · next toks _ =>
          split
          · rw [show @Env.sort F D (Heap.roomy env) = @Env.sort F D env from rfl]
            generalize env.sort (Wrapper.sortByScoresDesc env.dops) toks = s
            rw [if_neg (show ¬ ¬ (Heap.roomy env).alloc _ = true from fun h => h rfl)]
            by_cases ha : env.alloc s.length = true
            · rw [if_neg (show ¬ ¬ env.alloc s.length = true from fun h => h ha)]
              split
              · exact Or.inl rfl
              · simp only [Left, List.length_map, ha, ↓reduceIte]
            · rw [if_pos ha]
              split
              · exact Or.inr rfl
              · simp only [Left, List.length_map, ha]
                rfl
          · exact Or.inl rfl
/-- An environment in which memory is not granted for more than 50 rows. -/
def tightEnv : Env Rat Rat := { exEnv with alloc := fun n => decide (n ≤ 50) }

example : (∃ a, stdStandardize tightEnv c!"1 new york str" addrText townText c!"en" c!"SPACE" = some ⟨some a, none⟩ ∧ a.city = some c!"NY") ∧
    (∃ rows, stdParseAddress (Heap.roomy tightEnv) c!"1 new york str" townText c!"en" [] = some ⟨some rows, none⟩ ∧ rows.length = 52) ∧
    stdParseAddress tightEnv c!"1 new york str" townText c!"en" [] = some ⟨none, some c!"Out of memory!"⟩ :=
  ⟨of_retIs (by decide +kernel), of_retIs (by decide +kernel), by decide +kernel⟩

end AS.Props
