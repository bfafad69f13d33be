import Verif.Lemmas.SampleCheck
/-
The rules of a grammar text come from its lines; the scores and input classes of the sample grammars.
-/
namespace AS
variable {F : Type}

theorem rulesMean_line {fo : FloatOps F} {ls : List Str} {rr : List (Rule F)} (h : RulesMean fo ls rr) :
    ∀ r ∈ rr, ∃ l ∈ ls, RuleMeans fo l r := by
  induction h with
  | nil => intro r hr; cases hr
  | cons h1 _ ih =>
    intro r hr
    rcases List.mem_cons.1 hr with rfl | hr
    · exact ⟨_, List.mem_cons_self, h1⟩
    · obtain ⟨l, hl, h⟩ := ih r hr
      exact ⟨l, List.mem_cons_of_mem _ hl, h⟩

theorem sections_line {ct : CharTables} {fo : FloatOps F} {gs : List (Str × List Str)} {ms : List (Str × List (List Str))}
    {rs : List (Str × List (Rule F))} (h : Sections ct fo gs ms rs) :
    ∀ sec ∈ rs, ∀ r ∈ sec.2, ∃ g ∈ gs, ∃ l ∈ g.2, RuleMeans fo l r := by
  induction h with
  | nil => intro sec hs; cases hs
  | empty _ ih =>
    intro sec hs r hr
    obtain ⟨g, hg, h⟩ := ih sec hs r hr
    exact ⟨g, List.mem_cons_of_mem _ hg, h⟩
  | metas _ _ _ _ ih =>
    intro sec hs r hr
    obtain ⟨g, hg, h⟩ := ih sec hs r hr
    exact ⟨g, List.mem_cons_of_mem _ hg, h⟩
  | rules _ _ a3 _ ih =>
    intro sec hs r hr
    rcases List.mem_cons.1 hs with rfl | hs
    · obtain ⟨l, hl, h⟩ := rulesMean_line a3 r hr
      exact ⟨_, List.mem_cons_self, l, hl, h⟩
    · obtain ⟨g, hg, h⟩ := ih sec hs r hr
      exact ⟨g, List.mem_cons_of_mem _ hg, h⟩

/-- Every rule is what a line means. -/
theorem grammarMeans_line {ct : CharTables} {fo : FloatOps F} {lines : List Str} {ms : List (Str × List (List Str))}
    {rs : List (Str × List (Rule F))} (h : GrammarMeans ct fo lines ms rs) :
    ∀ sec ∈ rs, ∀ r ∈ sec.2, ∃ l ∈ lines, RuleMeans fo l r := by
  obtain ⟨gs, h1, _, h3⟩ := h
  intro sec hs r hr
  obtain ⟨g, hg, l, hl, h⟩ := sections_line h3 sec hs r hr
  exact ⟨l, (groups_agree h1 (fun _ _ _ _ => ⟨rfl, rfl⟩)).2.1 g hg l hl, h⟩

/-- No rule line begins with an arrow. -/
def inputsOk (lines : List Str) : Bool :=
  lines.all (fun l => match splitArrow (words l) with
    | [] :: _ :: _ => false
    | _ => true)

/-- The rules of a sample have a score `0.1` to `0.9` and at least one input class. -/
theorem sample_rules {s : Sample} {c : Cert} (h : checkSample s c = true) (hi : inputsOk s.lines = true) {ct : CharTables}
    {fo : FloatOps F} (hu : Usual ct fo) {g : Grammar F} (hg : Grammar.initialize ct fo (unlines s.lines) = .ok g) :
    ∀ sec ∈ g.rules, ∀ r ∈ sec.rules, (∃ d ∈ c!"123456789", r.score = fo.parse ['0', '.', d]) ∧ r.inClass ≠ [] := by
  obtain ⟨ht, _⟩ := checkSample_spec h
  obtain ⟨hn, _, _, hasc⟩ := textOk_positive hu ht
  obtain ⟨k1, _⟩ := (Props.C32_text_meaning ct fo hu.zero s.lines hn (unlines_noBom hasc) g.metaNames g.ruleSections).1
    ⟨g, hg, rfl, rfl⟩
  intro sec hs r hr
  obtain ⟨l, hl, ins, outs, before, score, rest, e, _, _, rfl⟩ :=
    grammarMeans_line k1 (sec.name, sec.rules) (List.mem_map.2 ⟨sec, hs, rfl⟩) r hr
  constructor
  · unfold textOk at ht
    rw [List.all_eq_true] at ht
    have := ht l hl
    rw [Bool.and_eq_true] at this
    have := this.2
    unfold scoreOk at this
    rw [e] at this
    simp only [List.getLast?_append, List.getLast?_singleton, Option.some_or] at this
    split at this
    · rename_i d hd
      cases hd
      exact ⟨d, by simpa using this, rfl⟩
    · cases this
    · rename_i hx; cases hx
  · unfold inputsOk at hi
    rw [List.all_eq_true] at hi
    have := hi l hl
    rw [e] at this
    cases ins with
    | nil => cases this
    | cons x xs => simp

end AS
