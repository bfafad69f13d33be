import Verif.Lemmas.GrammarOrder
import Verif.Props.Grammar
import Verif.Props.Rule
/-
The lines of a printed grammar.
-/
namespace AS
variable {F : Type} (ct : CharTables) (fo : FloatOps F)

/-- A printed list of references. -/
def refsLine (names : List Str) : Str := joinWith c!" " (names.map (fun n => '@' :: n))

def headerLine (name : Str) : Str := '[' :: name ++ [']']

def metaBlock (s : Str × List (List Str)) : List Str := headerLine s.1 :: (s.2.map refsLine ++ [[]])

def ruleBlock (s : Str × List (Rule F)) : List Str := headerLine s.1 :: (s.2.map (Rule.print fo) ++ [[]])

theorem printMetaRuleLoop_eq : ∀ (r : MetaRule), printMetaRuleLoop false r = (r.map (·.name)).flatMap (fun n => ' ' :: '@' :: n)
  | [] => rfl
  | e :: es => by
    rw [printMetaRuleLoop, printMetaRuleLoop_eq es]
    simp

theorem refsLine_cons (n : Str) (ns : List Str) : refsLine (n :: ns) = '@' :: n ++ ns.flatMap (fun n => ' ' :: '@' :: n) := by
  induction ns generalizing n with
  | nil => simp [refsLine, joinWith]
  | cons m ms ih =>
    have := ih m
    simp only [refsLine, List.map_cons, joinWith] at this ⊢
    rw [this]
    simp

theorem printMetaRule_eq (r : MetaRule) : printMetaRule r = refsLine (r.map (·.name)) := by
  cases r with
  | nil => rfl
  | cons e es =>
    rw [printMetaRule, printMetaRuleLoop, printMetaRuleLoop_eq, List.map_cons, refsLine_cons]
    simp

theorem unlines_append (a b : List Str) : unlines (a ++ b) = unlines a ++ unlines b := by
  simp [unlines]

theorem unlines_flatMap {α : Type} (f : α → List Str) (l : List α) : unlines (l.flatMap f) = l.flatMap (fun a => unlines (f a)) := by
  induction l with
  | nil => rfl
  | cons a l ih => rw [List.flatMap_cons, unlines_append, ih, List.flatMap_cons]

/-- A printed grammar is a text of these lines. -/
theorem print_eq (g : Grammar F) : Grammar.print fo g =
    unlines (g.metaNames.flatMap metaBlock ++ g.ruleSections.flatMap (ruleBlock fo)) := by
  rw [Grammar.print, unlines_append, unlines_flatMap, unlines_flatMap]
  congr 1
  · rw [Grammar.metaNames, List.flatMap_map]
    congr 1
    funext s
    simp only [printMetaSection, metaBlock, headerLine, unlines, List.flatMap_cons, List.flatMap_append, List.map_map,
      List.flatMap_map, Function.comp_def, printMetaRule_eq]
    simp
  · rw [Grammar.ruleSections, List.flatMap_map]
    congr 1
    funext s
    simp only [printRuleSection, ruleBlock, headerLine, unlines, List.flatMap_cons, List.flatMap_append, List.flatMap_map]
    simp

/-! ### What the lines are -/

theorem headerLine_header {name : Str} (h : name ≠ []) : IsHeader ct (headerLine name) name :=
  ⟨h, [], [], by simp [headerLine], (by intro c hc; cases hc), (by intro c hc; cases hc)⟩

theorem not_comment_of_head {c : Char} {s : Str} (h1 : ct.isSpace c = false) (h2 : c ≠ '#') : ¬ IsComment ct (c :: s) := by
  rintro (h | ⟨a, b, h, ha⟩)
  · rw [h c List.mem_cons_self] at h1; cases h1
  · cases a with
    | nil => simp only [List.nil_append, List.cons.injEq] at h; exact h2 h.1
    | cons d a =>
      simp only [List.cons_append, List.cons.injEq] at h
      rw [h.1, ha d List.mem_cons_self] at h1; cases h1

theorem headerLine_not_comment (name : Str) : ¬ IsComment ct (headerLine name) :=
  not_comment_of_head ct ct.space_open (by decide)

theorem refsLine_refs {ns : List Str} (hne : ns ≠ []) (h : ∀ n ∈ ns, n ≠ [] ∧ ∀ c ∈ n, isRefChar ct c = true) :
    IsRefs ct (refsLine ns) ns := by
  refine ⟨hne, h, [] :: List.replicate (ns.length - 1) c!" ", [], ?_, ?_, (by intro c hc; cases hc), ?_⟩
  · cases ns with
    | nil => exact absurd rfl hne
    | cons n ns => simp
  · intro g hg
    rcases List.mem_cons.1 hg with rfl | hg
    · intro c hc; cases hc
    · rw [List.mem_replicate] at hg
      rw [hg.2]
      intro c hc
      rw [List.mem_singleton.1 hc]
      exact ct.cspace_space _ (by decide)
  · cases ns with
    | nil => exact absurd rfl hne
    | cons n ns =>
      rw [refsLine_cons]
      have : ∀ ms : List Str, ms.flatMap (fun n => ' ' :: '@' :: n) =
          (List.zipWith (fun g n => g ++ '@' :: n) (List.replicate ms.length c!" ") ms).flatten := by
        intro ms
        induction ms with
        | nil => rfl
        | cons m ms ih => simp [List.replicate_succ, ih]
      rw [this]
      simp

theorem refsLine_at (n : Str) (ns : List Str) : ∃ s, refsLine (n :: ns) = '@' :: s := ⟨_, refsLine_cons n ns⟩

theorem not_header_of_head {c : Char} {s : Str} (h1 : ct.isSpace c = false) (h2 : c ≠ '[') : ∀ n, ¬ IsHeader ct (c :: s) n := by
  rintro n ⟨_, a, b, h, ha, _⟩
  cases a with
  | nil => simp only [List.nil_append, List.cons_append, List.cons.injEq] at h; exact h2 h.1
  | cons d a =>
    simp only [List.cons_append, List.cons.injEq] at h
    rw [h.1, ha d List.mem_cons_self] at h1; cases h1

theorem refsLine_data {ns : List Str} (hne : ns ≠ []) : ¬ IsComment ct (refsLine ns) ∧ (∀ n, ¬ IsHeader ct (refsLine ns) n) ∧
    '@' ∈ refsLine ns := by
  cases ns with
  | nil => exact absurd rfl hne
  | cons n ns =>
    obtain ⟨s, hs⟩ := refsLine_at n ns
    rw [hs]
    exact ⟨not_comment_of_head ct ct.space_at (by decide), not_header_of_head ct ct.space_at (by decide), List.mem_cons_self⟩

theorem refsLine_nl {ns : List Str} (h : ∀ n ∈ ns, '\n' ∉ n) : '\n' ∉ refsLine ns := by
  cases ns with
  | nil => exact List.not_mem_nil
  | cons n ns =>
    rw [refsLine_cons]
    intro hm
    rcases List.mem_append.1 hm with hm | hm
    · rcases List.mem_cons.1 hm with e | hm
      · exact absurd e (by decide)
      · exact h n List.mem_cons_self hm
    · obtain ⟨m, hmm, hm⟩ := List.mem_flatMap.1 hm
      rcases List.mem_cons.1 hm with e | hm
      · exact absurd e (by decide)
      rcases List.mem_cons.1 hm with e | hm
      · exact absurd e (by decide)
      · exact h m (List.mem_cons_of_mem _ hmm) hm

theorem inNames_plain (t : InType) : ∀ c ∈ t.asString, c ≠ '@' ∧ c ≠ '#' ∧ c ≠ '[' ∧ c ≠ '\n' := by
  cases t <;> decide

theorem outNames_plain (t : OutType) : ∀ c ∈ t.asString, c ≠ '@' ∧ c ≠ '#' ∧ c ≠ '[' ∧ c ≠ '\n' := by
  cases t <;> decide

theorem printIn_plain (ts : List InType) : ∀ c ∈ Rule.printIn ts, c ≠ '@' ∧ c ≠ '#' ∧ c ≠ '[' ∧ c ≠ '\n' := by
  induction ts with
  | nil => intro c hc; cases hc
  | cons t ts ih =>
    intro c hc
    rw [Rule.printIn] at hc
    rcases List.mem_append.1 hc with hc | hc
    · rcases List.mem_append.1 hc with hc | hc
      · exact inNames_plain t c hc
      · rw [List.mem_singleton.1 hc]; decide
    · exact ih c hc

theorem printOut_plain (ts : List OutType) : ∀ c ∈ Rule.printOut ts, c ≠ '@' ∧ c ≠ '#' ∧ c ≠ '[' ∧ c ≠ '\n' := by
  induction ts with
  | nil => intro c hc; cases hc
  | cons t ts ih =>
    intro c hc
    rw [Rule.printOut] at hc
    rcases List.mem_append.1 hc with hc | hc
    · rcases List.mem_append.1 hc with hc | hc
      · exact outNames_plain t c hc
      · rw [List.mem_singleton.1 hc]; decide
    · exact ih c hc

theorem rulePrint_plain {r : Rule F} (h : PrintsBack fo r.score) :
    ∀ c ∈ Rule.print fo r, c ≠ '@' ∧ c ≠ '#' ∧ c ≠ '[' ∧ c ≠ '\n' := by
  intro c hc
  have arrow : ∀ c ∈ c!"-> ", c ≠ '@' ∧ c ≠ '#' ∧ c ≠ '[' ∧ c ≠ '\n' := by decide
  rw [Rule.print] at hc
  rcases List.mem_append.1 hc with hc | hc
  · rcases List.mem_append.1 hc with hc | hc
    · rcases List.mem_append.1 hc with hc | hc
      · rcases List.mem_append.1 hc with hc | hc
        · exact printIn_plain _ c hc
        · exact arrow c hc
      · exact printOut_plain _ c hc
    · exact arrow c hc
  · obtain ⟨h1, h2, h3, h4⟩ := h.2.1 c hc
    refine ⟨h2, h3, h4, ?_⟩
    rintro rfl
    exact absurd h1 (by decide)

theorem rulePrint_data {r : Rule F} (hd : ct.isSpace '-' = false) (h : PrintsBack fo r.score) :
    ¬ IsComment ct (Rule.print fo r) ∧ (∀ n, ¬ IsHeader ct (Rule.print fo r) n) ∧ '@' ∉ Rule.print fo r := by
  have pl := rulePrint_plain fo h
  refine ⟨?_, ?_, fun hm => (pl _ hm).1 rfl⟩
  · rintro (hb | ⟨a, b, e, _⟩)
    · have : '-' ∈ Rule.print fo r := by simp [Rule.print]
      rw [hb _ this] at hd; cases hd
    · exact (pl '#' (by rw [e]; exact List.mem_append_right _ List.mem_cons_self)).2.1 rfl
  · rintro n ⟨_, a, b, e, _⟩
    refine (pl '[' ?_).2.2.1 rfl
    rw [e]; simp

/-! ### Grouping -/

theorem groups_block {name h : Str} {body ls : List Str} {gs : List (Str × List Str)} (hc : ¬ IsComment ct h)
    (hh : IsHeader ct h name) (hb : ∀ l ∈ body, ¬ IsComment ct l ∧ ∀ n, ¬ IsHeader ct l n)
    (hg : Groups ct ls [] gs) : Groups ct (h :: (body ++ [[]]) ++ ls) [] ((name, body) :: gs) := by
  refine Groups.header hc hh ?_
  induction body with
  | nil => exact Groups.comment (Or.inl (by intro c hc; cases hc)) hg
  | cons l body ih =>
    exact Groups.data (hb l List.mem_cons_self).1 (hb l List.mem_cons_self).2
      (ih (fun l hl => hb l (List.mem_cons_of_mem _ hl)))

/-- What a printed grammar means. -/
theorem printed_means (h0 : fo.le0 fo.zero = true) (hd : ct.isSpace '-' = false)
    (ms : List (Str × List (List Str))) (rs : List (Str × List (Rule F)))
    (hm : ∀ s ∈ ms, s.1 ≠ [] ∧ s.2 ≠ [] ∧ ∀ refs ∈ s.2, refs ≠ [] ∧ ∀ n ∈ refs, n ≠ [] ∧ ∀ c ∈ n, isRefChar ct c = true)
    (hr : ∀ s ∈ rs, s.1 ≠ [] ∧ s.2 ≠ [] ∧ ∀ r ∈ s.2, (∃ l, RuleMeans fo l r) ∧ PrintsBack fo r.score)
    (hn : (ms.map (·.1) ++ rs.map (·.1)).Nodup) :
    GrammarMeans ct fo (ms.flatMap metaBlock ++ rs.flatMap (ruleBlock fo)) ms rs := by
  refine ⟨ms.map (fun s => (s.1, s.2.map refsLine)) ++ rs.map (fun s => (s.1, s.2.map (Rule.print fo))), ?_, ?_, ?_⟩
  · have h2 : Groups ct (rs.flatMap (ruleBlock fo)) [] (rs.map (fun s => (s.1, s.2.map (Rule.print fo)))) := by
      clear hn
      induction rs with
      | nil => exact .nil
      | cons s rs ih =>
        rw [List.flatMap_cons, List.map_cons]
        refine groups_block ct (headerLine_not_comment ct _) (headerLine_header ct (hr s List.mem_cons_self).1) ?_
          (ih (fun s hs => hr s (List.mem_cons_of_mem _ hs)))
        intro l hl
        obtain ⟨r, hrr, rfl⟩ := List.mem_map.1 hl
        obtain ⟨a, b, _⟩ := rulePrint_data ct fo hd ((hr s List.mem_cons_self).2.2 r hrr).2
        exact ⟨a, b⟩
    clear hn
    induction ms with
    | nil => exact h2
    | cons s ms ih =>
      rw [List.flatMap_cons, List.map_cons, List.append_assoc]
      refine groups_block ct (headerLine_not_comment ct _) (headerLine_header ct (hm s List.mem_cons_self).1) ?_
        (ih (fun s hs => hm s (List.mem_cons_of_mem _ hs)))
      intro l hl
      obtain ⟨r, hrr, rfl⟩ := List.mem_map.1 hl
      obtain ⟨a, b, _⟩ := refsLine_data ct ((hm s List.mem_cons_self).2.2 r hrr).1
      exact ⟨a, b⟩
  · have : (ms.map (fun s => (s.1, s.2.map refsLine)) ++ rs.map (fun s => (s.1, s.2.map (Rule.print fo)))).Pairwise
        (fun a b => a.1 ≠ b.1) := by
      rw [← List.pairwise_map (f := Prod.fst) (R := (· ≠ ·))]
      rw [List.map_append, List.map_map, List.map_map]
      exact hn
    refine List.Pairwise.imp ?_ this
    intro a b h _
    exact fun e => h e.symm
  · have h2 : Sections ct fo (rs.map (fun s => (s.1, s.2.map (Rule.print fo)))) [] rs := by
      clear hn
      induction rs with
      | nil => exact .nil
      | cons s rs ih =>
        obtain ⟨k1, k2, k3⟩ := hr s List.mem_cons_self
        refine Sections.rules (by simpa using k2) ?_ ?_ (ih (fun s hs => hr s (List.mem_cons_of_mem _ hs)))
        · intro l hl
          obtain ⟨r, hrr, rfl⟩ := List.mem_map.1 hl
          exact (rulePrint_data ct fo hd (k3 r hrr).2).2.2
        · rw [rulesMean_iff fo h0, List.map_map]
          apply List.map_congr_left
          intro r hrr
          obtain ⟨⟨l, hl⟩, p1, p2, p3, p4⟩ := k3 r hrr
          have hv := (Props.C26_rule_line_meaning fo h0 l r).2 hl
          obtain ⟨_, _, _, _, _, e1, e2, e3, rfl⟩ := hl
          exact Props.C28_rule_roundtrip fo h0 _ (by simp [e2]) e3 p1 (fun c hc => (p2 c hc).1) p3 p4
    clear hn
    induction ms with
    | nil => exact h2
    | cons s ms ih =>
      obtain ⟨k1, k2, k3⟩ := hm s List.mem_cons_self
      refine Sections.metas (by simpa using k2) ?_ ?_ (ih (fun s hs => hm s (List.mem_cons_of_mem _ hs)))
      · intro l hl
        obtain ⟨r, hrr, rfl⟩ := List.mem_map.1 hl
        exact (refsLine_data ct (k3 r hrr).1).2.2
      · have : ∀ rr : List (List Str), (∀ refs ∈ rr, refs ≠ [] ∧ ∀ n ∈ refs, n ≠ [] ∧ ∀ c ∈ n, isRefChar ct c = true) →
            MetasMean ct (rr.map refsLine) rr := by
          intro rr hh
          induction rr with
          | nil => exact .nil
          | cons x rr ih =>
            exact .cons (refsLine_refs ct (hh x List.mem_cons_self).1 (hh x List.mem_cons_self).2)
              (ih (fun x hx => hh x (List.mem_cons_of_mem _ hx)))
        exact this _ k3

/-! ### What a loaded grammar is made of -/

theorem groups_names {ls pre : List Str} {gs : List (Str × List Str)} (h : Groups ct ls pre gs) (hn : ∀ l ∈ ls, '\n' ∉ l) :
    ∀ g ∈ gs, g.1 ≠ [] ∧ '\n' ∉ g.1 := by
  induction h with
  | nil => intro g hg; cases hg
  | comment _ _ ih => exact ih (fun l hl => hn l (List.mem_cons_of_mem _ hl))
  | data _ _ _ ih => exact ih (fun l hl => hn l (List.mem_cons_of_mem _ hl))
  | header _ hh _ ih =>
    intro g hg
    rcases List.mem_cons.1 hg with rfl | hg
    · obtain ⟨h1, a, b, e, _⟩ := hh
      refine ⟨h1, fun hm => hn _ List.mem_cons_self ?_⟩
      rw [e]
      exact List.mem_append_left _ (List.mem_append_right _ (List.mem_cons_of_mem _ hm))
    · exact ih (fun l hl => hn l (List.mem_cons_of_mem _ hl)) g hg

theorem metasMean_refs {ls : List Str} {mm : List (List Str)} (h : MetasMean ct ls mm) :
    ∀ refs ∈ mm, refs ≠ [] ∧ ∀ n ∈ refs, n ≠ [] ∧ ∀ c ∈ n, isRefChar ct c = true := by
  induction h with
  | nil => intro r hr; cases hr
  | skip _ _ ih => exact ih
  | cons h _ ih =>
    intro r hr
    rcases List.mem_cons.1 hr with rfl | hr
    · exact ⟨h.1, h.2.1⟩
    · exact ih r hr

theorem rulesMean_ne {ls : List Str} {rr : List (Rule F)} (h : RulesMean fo ls rr) (hne : ls ≠ []) : rr ≠ [] := by
  cases h with
  | nil => exact absurd rfl hne
  | cons _ _ => exact List.cons_ne_nil _ _

theorem sections_contents {gs : List (Str × List Str)} {ms : List (Str × List (List Str))} {rs : List (Str × List (Rule F))}
    (h : Sections ct fo gs ms rs) (hg : ∀ g ∈ gs, g.1 ≠ [] ∧ '\n' ∉ g.1) :
    (∀ s ∈ ms, (s.1 ≠ [] ∧ '\n' ∉ s.1) ∧ ∀ refs ∈ s.2, refs ≠ [] ∧ ∀ n ∈ refs, n ≠ [] ∧ ∀ c ∈ n, isRefChar ct c = true) ∧
    (∀ s ∈ rs, (s.1 ≠ [] ∧ '\n' ∉ s.1) ∧ s.2 ≠ []) := by
  induction h with
  | nil => exact ⟨(by intro s hs; cases hs), (by intro s hs; cases hs)⟩
  | empty _ ih => exact ih (fun g hm => hg g (List.mem_cons_of_mem _ hm))
  | metas _ _ hm _ ih =>
    obtain ⟨i1, i2⟩ := ih (fun g hm => hg g (List.mem_cons_of_mem _ hm))
    refine ⟨fun s hs => ?_, i2⟩
    rcases List.mem_cons.1 hs with rfl | hs
    · exact ⟨hg _ List.mem_cons_self, metasMean_refs ct hm⟩
    · exact i1 s hs
  | rules hne _ hm _ ih =>
    obtain ⟨i1, i2⟩ := ih (fun g hm => hg g (List.mem_cons_of_mem _ hm))
    refine ⟨i1, fun s hs => ?_⟩
    rcases List.mem_cons.1 hs with rfl | hs
    · exact ⟨hg _ List.mem_cons_self, rulesMean_ne fo hm hne⟩
    · exact i2 s hs

/-- A constructed grammar comes from lines. -/
theorem constructed_means (h0 : fo.le0 fo.zero = true) (text : Str) (g : Grammar F)
    (h : Grammar.initialize ct fo text = .ok g) :
    ∃ L : List Str, (∀ l ∈ L, '\n' ∉ l) ∧ GrammarMeans ct fo L g.metaNames g.ruleSections := by
  obtain ⟨p, ps, _, h1, h2⟩ := splitLines_spec text
  rw [initialize_eq ct fo text p ps h1 h2] at h
  cases hb : stripBom p with
  | error e => rw [hb] at h; cases h
  | ok p' =>
    rw [hb] at h
    obtain ⟨L, hL⟩ := Props.linesAfterBom_cons p' p ps
    have hp' : '\n' ∉ p' := by
      have hp := h1 p List.mem_cons_self
      unfold stripBom at hb
      split at hb
      · cases hb; exact List.not_mem_nil
      · split at hb
        · split at hb
          · cases hb
          · split at hb
            · cases hb
              exact fun hm => hp (List.mem_cons_of_mem _ (List.mem_cons_of_mem _ hm))
            · cases hb
        · cases hb; exact hp
    have hnl : ∀ l ∈ linesAfterBom p' p ps, '\n' ∉ l := by
      intro l hl
      unfold linesAfterBom at hl
      split at hl
      · split at hl
        · rw [List.mem_singleton.1 hl]; exact hp'
        · rcases List.mem_cons.1 hl with rfl | hl
          · exact hp'
          · rw [List.mem_singleton.1 hl]; exact hp'
      · next q qs =>
        rcases List.mem_cons.1 hl with rfl | hl
        · exact hp'
        · rw [withRepeat_eq] at hl
          refine h1 l (List.mem_cons_of_mem _ ?_)
          split at hl
          · rwa [List.append_nil] at hl
          · rcases List.mem_append.1 hl with hl | hl
            · exact hl
            · rw [List.mem_singleton.1 hl]; exact List.getLast_mem _
    rw [hL] at hnl
    simp only [hL, finishLoad_first] at h
    cases hf : finishLoad fo (loadLines ct fo {} (p' :: L)) with
    | error e => rw [hf] at h; cases h
    | ok g' =>
      rw [hf] at h
      simp only [Except.map, Except.ok.injEq] at h
      obtain ⟨ms, rs, hm, _, _, rfl, rfl, _⟩ := finishLoad_ok ct fo h0 _ g' hf
      refine ⟨_, hnl, ?_⟩
      rw [← h]
      exact hm

end AS
