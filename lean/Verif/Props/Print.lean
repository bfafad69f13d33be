import Verif.Lemmas.GrammarPrint
/-
Property C61: a printed grammar.
-/
namespace AS.Props
open AS
variable {F : Type} (ct : CharTables) (fo : FloatOps F)

/-! ## C61 -/

/-- The lines of a printed grammar mean the sections of the grammar. -/
theorem printed_lines (h0 : fo.le0 fo.zero = true) (hd : ct.isSpace '-' = false) (text : Str) (g : Grammar F)
    (hg : Grammar.initialize ct fo text = .ok g) (hne : ∀ s ∈ g.metaNames, s.2 ≠ [])
    (hp : ∀ s ∈ g.ruleSections, ∀ r ∈ s.2, PrintsBack fo r.score) :
    ∃ ls : List Str, Grammar.print fo g = unlines ls ∧ (∀ l ∈ ls, '\n' ∉ l) ∧ NoBom (unlines ls) ∧
      GrammarMeans ct fo ls g.metaNames g.ruleSections ∧ ¬ Dangling g.metaNames g.ruleSections ∧
      Rooted g.metaNames g.ruleSections := by
  obtain ⟨L, hL, gs, hgs, _, hsec⟩ := constructed_means ct fo h0 text g hg
  obtain ⟨c1, c2⟩ := sections_contents ct fo hsec (groups_names ct hgs hL)
  obtain ⟨hroot, hdang, hnodup, hrules⟩ := C29_constructed_closed ct fo h0 text g hg
  have hmeans := printed_means ct fo h0 hd g.metaNames g.ruleSections
    (fun s hs => ⟨(c1 s hs).1.1, hne s hs, (c1 s hs).2⟩)
    (fun s hs => ⟨(c2 s hs).1.1, (c2 s hs).2, fun r hr => ⟨hrules s hs r hr, hp s hs r hr⟩⟩) hnodup
  have hnl : ∀ l ∈ g.metaNames.flatMap metaBlock ++ g.ruleSections.flatMap (ruleBlock fo), '\n' ∉ l := by
    have hh : ∀ n : Str, '\n' ∉ n → '\n' ∉ headerLine n := by
      intro n hn hm
      rcases List.mem_append.1 hm with hm | hm
      · rcases List.mem_cons.1 hm with e | hm
        · exact absurd e (by decide)
        · exact hn hm
      · exact absurd (List.mem_singleton.1 hm) (by decide)
    intro l hl
    rcases List.mem_append.1 hl with hl | hl
    · obtain ⟨s, hs, hl⟩ := List.mem_flatMap.1 hl
      rcases List.mem_cons.1 hl with rfl | hl
      · exact hh _ (c1 s hs).1.2
      · rcases List.mem_append.1 hl with hl | hl
        · obtain ⟨refs, hr, rfl⟩ := List.mem_map.1 hl
          refine refsLine_nl (fun n hn hm => ?_)
          have := (((c1 s hs).2 refs hr).2 n hn).2 _ hm
          rw [isRefChar, ct.space_not_word _ (ct.cspace_space '\n' (by decide))] at this
          revert this; decide
        · rw [List.mem_singleton.1 hl]; exact List.not_mem_nil
    · obtain ⟨s, hs, hl⟩ := List.mem_flatMap.1 hl
      rcases List.mem_cons.1 hl with rfl | hl
      · exact hh _ (c2 s hs).1.2
      · rcases List.mem_append.1 hl with hl | hl
        · obtain ⟨r, hr, rfl⟩ := List.mem_map.1 hl
          exact fun hm => (rulePrint_plain fo (hp s hs r hr) _ hm).2.2.2 rfl
        · rw [List.mem_singleton.1 hl]; exact List.not_mem_nil
  have hbom : NoBom (Grammar.print fo g) := by
    rw [print_eq]
    unfold NoBom
    cases e1 : g.metaNames with
    | cons s ms => simp [metaBlock, unlines, headerLine]
    | nil =>
      cases e2 : g.ruleSections with
      | cons s ms => simp [ruleBlock, unlines, headerLine]
      | nil => simp [unlines]
  rw [print_eq] at hbom
  exact ⟨_, print_eq fo g, hnl, hbom, hmeans, hdang, hroot⟩

/-- A printed grammar loads to one with the same sections, in the same order, with the same status, in which
every search finds the same and which prints the same, if all its sections have rules and its scores survive
printing. -/
theorem C61_print_reload (h0 : fo.le0 fo.zero = true) (hd : ct.isSpace '-' = false) (text : Str) (g : Grammar F)
    (hg : Grammar.initialize ct fo text = .ok g) (hne : ∀ s ∈ g.metaNames, s.2 ≠ [])
    (hp : ∀ s ∈ g.ruleSections, ∀ r ∈ s.2, PrintsBack fo r.score) :
    ∃ g', Grammar.initialize ct fo (Grammar.print fo g) = .ok g' ∧ g'.metaNames = g.metaNames ∧
      g'.ruleSections = g.ruleSections ∧ g'.status = g.status ∧
      (∀ node phrase, search g' node phrase = search g node phrase) ∧ Grammar.print fo g' = Grammar.print fo g := by
  obtain ⟨ls, hpr, hnl, hbom, hmeans, hdang, hroot⟩ := printed_lines ct fo h0 hd text g hg hne hp
  rw [hpr]
  obtain ⟨g', hg', e1, e2⟩ := (C32_text_meaning ct fo h0 _ hnl hbom _ _).2 ⟨hmeans, hdang, hroot⟩
  refine ⟨g', hg', e1, e2, ?_, ?_, by rw [← hpr, print_eq, print_eq, e1, e2]⟩
  · obtain ⟨s1, s2, _⟩ := C30_status_of_constructed ct fo h0 _ g hg
    obtain ⟨s1', s2', _⟩ := C30_status_of_constructed ct fo h0 _ g' hg'
    rw [e1, e2] at s1' s2'
    by_cases hu : Unreferenced g.metaNames g.ruleSections
    · rw [s1.2 hu, s1'.2 hu]
    · rw [s2.2 hu, s2'.2 hu]
  · intro node phrase
    obtain ⟨wf, _, _⟩ := C29_constructed_wf ct fo h0 _ g hg
    obtain ⟨wf', _, _⟩ := C29_constructed_wf ct fo h0 _ g' hg'
    exact search_sameSections wf' wf ⟨fun s => by rw [e1], fun s => by rw [e2]⟩ node phrase

/-- Without rules in every section this fails: the lines of a meta section may all be dropped; the printed
section is empty, and is not read back. -/
theorem C61_empty_section_lost : ∃ g : Grammar Rat, Grammar.initialize asciiTables ratOps c!"[ADDRESS]\n@A.\n" = .ok g ∧
    Grammar.print ratOps g = c!"[ADDRESS]\n\n" ∧
    ∃ e, Grammar.initialize asciiTables ratOps (Grammar.print ratOps g) = .error e := by
  obtain ⟨g, hg, hpr⟩ := exists_ok (r := Grammar.initialize asciiTables ratOps c!"[ADDRESS]\n@A.\n")
    (P := fun g => Grammar.print ratOps g = c!"[ADDRESS]\n\n") (by decide +kernel)
  refine ⟨g, hg, hpr, ?_⟩
  rw [hpr]
  cases e : Grammar.initialize asciiTables ratOps c!"[ADDRESS]\n\n" with
  | error m => exact ⟨m, rfl⟩
  | ok g =>
    exfalso
    have : (match Grammar.initialize asciiTables ratOps c!"[ADDRESS]\n\n" with | .ok _ => false | .error _ => true) = true := by
      decide +kernel
    rw [e] at this
    cases this

instance (x : Rat) : Decidable (PrintsBack ratOps x) := by unfold PrintsBack; infer_instance

/-- The hypotheses can be met; the rational numbers of the examples print only if they are integers. -/
example : ratOps.le0 ratOps.zero = true ∧ asciiTables.isSpace '-' = false ∧
    ∃ g, Grammar.initialize asciiTables ratOps (unlines [c!"# numbers", c!"[NUM]", c!"NUMBER -> HOUSE -> 3 ", c!" [ADDRESS]",
        c!"@NUM@STREET", c!"@STREET @OOPS!", c!"[STREET]", c!"WORD  TYPE -> STREET SUFTYP -> 8"]) = .ok g ∧
      (∀ s ∈ g.metaNames, s.2 ≠ []) ∧ (∀ s ∈ g.ruleSections, ∀ r ∈ s.2, PrintsBack ratOps r.score) ∧
      Grammar.print ratOps g = unlines [c!"[ADDRESS]", c!"@NUM @STREET", c!"", c!"[NUM]", c!"NUMBER -> HOUSE -> 3", c!"",
        c!"[STREET]", c!"WORD TYPE -> STREET SUFTYP -> 8", c!""] := by
  refine ⟨by decide, by decide, ?_⟩
  exact exists_ok (by decide +kernel)

end AS.Props
