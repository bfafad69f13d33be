import Verif.Props.Elision
import Verif.Props.LexSamples
/-
Property C87 for the sample lexicons.
-/
namespace AS.Props
open AS AS.Wrapper AS.Tokenizer
variable {F D : Type}

/-- The text of some lines of a sample. -/
theorem lexText_of_check {s : LexSample} {witness : List Nat} (h : checkLex s witness = true) {icu : Icu}
    (hk : IcuKeeps icu '\t') (body : List Str) (hsub : ∀ l ∈ body, l ∈ s.body) :
    LexText icu (unlines (s.header :: body)) s.header (body.map (fun l => entryOf (canonLine icu s.locale l))) ∧
    headerLocale s.header = s.locale ∧ ∀ l ∈ body, (entryOf (canonLine icu s.locale l)).type ≠ [] := by
  unfold checkLex at h
  simp only [Bool.and_eq_true, decide_eq_true_eq, List.isPrefixOf_iff_prefix, Bool.not_eq_true', List.contains_eq_mem,
    decide_eq_false_iff_not, List.all_eq_true] at h
  obtain ⟨⟨⟨⟨⟨⟨⟨h1, h2⟩, _⟩, h4⟩, h5⟩, _⟩, _⟩, h8⟩ := h
  have hline : ∀ l ∈ body, c!"LEXENTRY:\t" <+: l ∧ '\n' ∉ l ∧ lineTypes l ≠ [] ∧ ∀ c ∈ lineTypes l, c ∈ s.classes := by
    intro l hl
    have := h8 l (hsub l hl)
    unfold lineOk at this
    simp only [Bool.and_eq_true, List.isPrefixOf_iff_prefix, Bool.not_eq_true', List.contains_eq_mem,
      decide_eq_false_iff_not] at this
    obtain ⟨⟨a, b⟩, c⟩ := this
    refine ⟨a, b, ?_⟩
    split at c
    · cases c
    · next x xs e =>
      rw [e]
      exact ⟨by simp, by simpa using c⟩
  have htypes : ∀ l ∈ body, (entryOf (canonLine icu s.locale l)).type = lineTypes l := fun l hl =>
    entry_types hk s.locale (hline l hl).1 (hline l hl).2.2.1
  refine ⟨?_, h4, fun l hl => by rw [htypes l hl]; exact (hline l hl).2.2.1⟩
  have hsp : splitOn '\n' (unlines (s.header :: body)) = s.header :: (body ++ [[]]) := by
    rw [splitOn_unlines]
    · rfl
    · intro l hl
      rcases List.mem_cons.1 hl with rfl | hl
      · exact h2
      · exact (hline l hl).2.1
  obtain ⟨hrest, hh⟩ := h1
  refine ⟨s.header, body ++ [[]], s.header, body ++ [[]], hsp, .plain ?_, ⟨[], rfl, by simp, ?_⟩, by simp, ?_, ?_⟩
  · rw [← hh]; simp
  · rw [← hh]; exact ⟨'\t' :: hrest, by simp⟩
  · have : s.header = c!"LEXICON:" ++ '\t' :: hrest := by rw [← hh]; simp
    rw [this, splitOn_append _ _ _ (by decide)]
    rfl
  · rw [h4, linesRead_snoc]
    refine bodyMeans_of (fun l hl => ⟨?_, ?_⟩)
    · obtain ⟨r, hr⟩ := (hline l hl).1
      exact ⟨'\t' :: r, by rw [← hr]; simp⟩
    · rw [htypes l hl]
      exact fun hm => h5 ((hline l hl).2.2.2 _ hm)

/-- A sample lexicon gives the same without the lines for words that end in the mark, for every address in which the mark
always stands before a letter. -/
theorem C87_samples (env : Env F D) (hread : ReadsPatterns env) (q : Char) (hq : Mark env.u q) (hk : IcuKeeps env.icu '\t')
    (x : LexSample) (hx : x ∈ lexSamples) (kept : Str → Bool)
    (hout : ∀ line ∈ x.body, kept line = false → Elided env.u q (entryOf (canonLine env.icu x.locale line)).word)
    (hchars : ∀ line ∈ x.body, ∀ c ∈ (entryOf (canonLine env.icu x.locale line)).word, c ∉ unescaped ∧ env.u.canon c = c)
    (hne : ∃ line ∈ x.body, kept line = true ∧ (entryOf (canonLine env.icu x.locale line)).word ≠ [])
    (ha : env.archive x.text = .notArchive) (ha' : env.archive (unlines (x.header :: x.body.filter kept)) = .notArchive)
    (address grammar locale filter : Str)
    (htab : '\t' ∉ textFor env locale x.locale address)
    (hcanon : ∀ c ∈ textFor env locale x.locale address, env.u.canon c = c)
    (helide : Elides env.u q (textFor env locale x.locale address)) :
    stdStandardize env address grammar x.text locale filter =
      stdStandardize env address grammar (unlines (x.header :: x.body.filter kept)) locale filter ∧
    stdParseAddress env address x.text locale filter =
      stdParseAddress env address (unlines (x.header :: x.body.filter kept)) locale filter ∧
    stdMatchAddress env address grammar x.text locale filter =
      stdMatchAddress env address grammar (unlines (x.header :: x.body.filter kept)) locale filter := by
  obtain ⟨p, hp, rfl⟩ := List.mem_map.1 hx
  obtain ⟨_, w, hw⟩ := pairs_checked p hp
  obtain ⟨t1, hloc, c1⟩ := lexText_of_check hw hk p.lexicon.body (fun _ h => h)
  obtain ⟨t2, _, c2⟩ := lexText_of_check hw hk (p.lexicon.body.filter kept) (fun _ h => (List.mem_filter.1 h).1)
  have sub : ∀ e ∈ (p.lexicon.body.map (fun l => entryOf (canonLine env.icu p.lexicon.locale l))) ++
      ((p.lexicon.body.filter kept).map (fun l => entryOf (canonLine env.icu p.lexicon.locale l))),
      ∃ line ∈ p.lexicon.body, e = entryOf (canonLine env.icu p.lexicon.locale line) := by
    intro e he
    rcases List.mem_append.1 he with h | h
    · obtain ⟨l, h1, h2⟩ := List.mem_map.1 h; exact ⟨l, h1, h2.symm⟩
    · obtain ⟨l, h1, h2⟩ := List.mem_map.1 h; exact ⟨l, (List.mem_filter.1 h1).1, h2.symm⟩
  obtain ⟨line, hl, hl1, hl2⟩ := hne
  refine C87_elided env hread q hq _ _ _ _ _ _ ha ha' t1 t2 rfl ?_ ?_ ⟨_, List.mem_map.2 ⟨line, hl, rfl⟩, hl2⟩
    ⟨_, List.mem_map.2 ⟨line, List.mem_filter.2 ⟨hl, hl1⟩, rfl⟩, hl2⟩ ?_ address grammar locale filter
    (by rw [hloc]; exact htab) (by rw [hloc]; exact hcanon) (by rw [hloc]; exact helide)
  · intro e he
    obtain ⟨l, h1, rfl⟩ := sub e he
    exact hchars l h1
  · intro e he
    obtain ⟨l, h1, rfl⟩ := sub e he
    exact c1 l h1
  · intro w hw
    rw [List.filter_map, List.filter_map, List.filter_filter]
    congr 1
    refine List.filter_congr fun l hl => ?_
    cases hk : kept l with
    | true => simp
    | false =>
      have : (entryOf (canonLine env.icu p.lexicon.locale l)).word ≠ w := fun ew => hw (ew ▸ hout l hl hk)
      simp [this]

/-- The line is for a word that ends in the mark after a letter. -/
def endsIn (q : Char) (line : Str) : Bool :=
  match splitOn '\t' line with
  | _ :: w :: _ => w.getLast? == some q && w.any Char.isAlpha
  | _ => false

/-- The lines of the sample lexicons for words that end in an apostrophe. -/
def apostrophes : List Nat := [3, 0, 0, 80, 105, 0, 0, 90, 0, 0, 0, 42, 0, 40, 90, 0, 0, 0, 0, 32, 23, 0, 53, 1, 13]

/-- And in a blank. -/
def trailing : List Nat := [2, 2, 1, 2, 5, 0, 0, 7, 2, 2, 3, 17, 0, 0, 7, 2, 0, 0, 0, 0, 1, 0, 0, 0, 0]

set_option maxRecDepth 1000000 in
/-- In 12 of the 25 sample lexicons there are 572 lines for words that end in an apostrophe after a letter, and in 13 there
are 53 for words that end in a blank. -/
theorem C87_counts : pairs.map (fun p => (p.lexicon.body.filter (endsIn '\'')).length) = apostrophes ∧
    pairs.map (fun p => (p.lexicon.body.filter (endsIn ' ')).length) = trailing ∧ apostrophes.sum = 572 ∧ trailing.sum = 53 := by
  decide +kernel

set_option maxRecDepth 1000000 in
/-- The hypotheses of `C87_samples`: data/sample/monaco.lex without its 90 lines for words that end in an apostrophe. -/
example : ReadsPatterns readingEnv ∧ Mark readingEnv.u '\'' ∧ IcuKeeps readingEnv.icu '\t' ∧
    Sample.Monaco.lexicon ∈ lexSamples ∧
    (∀ line ∈ Sample.Monaco.lexicon.body, (!endsIn '\'' line) = false →
      Elided readingEnv.u '\'' (entryOf (canonLine readingEnv.icu Sample.Monaco.lexicon.locale line)).word) ∧
    (∀ line ∈ Sample.Monaco.lexicon.body, ∀ c ∈ (entryOf (canonLine readingEnv.icu Sample.Monaco.lexicon.locale line)).word,
      c ∉ unescaped ∧ readingEnv.u.canon c = c) ∧
    (∃ line ∈ Sample.Monaco.lexicon.body, (!endsIn '\'' line) = true ∧
      (entryOf (canonLine readingEnv.icu Sample.Monaco.lexicon.locale line)).word ≠ []) ∧
    readingEnv.archive Sample.Monaco.lexicon.text = .notArchive ∧
    '\t' ∉ textFor readingEnv c!"fr" Sample.Monaco.lexicon.locale c!"5 avenue d'ostende" ∧
    (∀ c ∈ textFor readingEnv c!"fr" Sample.Monaco.lexicon.locale c!"5 avenue d'ostende", readingEnv.u.canon c = c) ∧
    Elides readingEnv.u '\'' (textFor readingEnv c!"fr" Sample.Monaco.lexicon.locale c!"5 avenue d'ostende") := by
  have et : textFor readingEnv c!"fr" Sample.Monaco.lexicon.locale c!"5 avenue d'ostende" = c!"5 AVENUE D'OSTENDE" := by
    show textFor exEnv _ _ _ = _
    decide +kernel
  rw [et]
  refine ⟨readingEnv_reads, mark_low (by decide) (by decide) (by decide) (by decide),
    asciiIcu_keeps _ (toUpper_low _ (by decide)), by simp [lexSamples, pairs, Sample.Monaco.pair], ?_, ?_, ?_, rfl, by decide, ?_, elides_check ?_⟩
  · show ∀ line ∈ Sample.Monaco.lexicon.body, (!endsIn '\'' line) = false →
      Elided asciiU '\'' (entryOf (canonLine asciiIcu Sample.Monaco.lexicon.locale line)).word
    decide +kernel
  · show ∀ line ∈ Sample.Monaco.lexicon.body, ∀ c ∈ (entryOf (canonLine asciiIcu Sample.Monaco.lexicon.locale line)).word,
      c ∉ unescaped ∧ asciiU.canon c = c
    decide +kernel
  · show ∃ line ∈ Sample.Monaco.lexicon.body, (!endsIn '\'' line) = true ∧
      (entryOf (canonLine asciiIcu Sample.Monaco.lexicon.locale line)).word ≠ []
    decide +kernel
  · show ∀ c ∈ _, asciiU.canon c = c
    decide +kernel
  · show ∀ p ∈ (_ : List (Char × Option Char)), p.1 = '\'' → ∃ c ∈ p.2, ¬ SepChar asciiU c
    decide +kernel

end AS.Props
