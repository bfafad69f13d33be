import Verif.Lemmas.GrammarText
import Verif.Props.Best
/-
Properties C29–C34: loading a grammar.

`h0` says that the comparison `score <= 0` holds of the float 0.
-/
namespace AS.Props
variable {F : Type} (ct : CharTables) (fo : FloatOps F)

/-- A small grammar text. -/
def exText : List Str :=
  [c!"# example", c!"[ADDRESS]", c!"@NUM @STREET", c!"@STREET @OOPS!", c!"", c!"[NUM]", c!"NUMBER -> HOUSE -> 0.9",
   c!"[STREET]", c!"WORD -> STREET -> 0.5", c!"WORD TYPE -> STREET SUFTYP -> 0.8"]

theorem linesAfterBom_cons (p' p : Str) (ps : List Str) : ∃ L, linesAfterBom p' p ps = p' :: L := by
  cases ps with
  | nil =>
    unfold linesAfterBom
    by_cases h : p = []
    · exact ⟨[], by simp [h]⟩
    · exact ⟨[p'], by simp [h]⟩
  | cons q qs => exact ⟨_, rfl⟩

/-- Whatever the text, a constructed grammar comes from a list of lines. -/
theorem initialize_ok (text : Str) (g : Grammar F) (h : Grammar.initialize ct fo text = .ok g) :
    ∃ L g', finishLoad fo (loadLines ct fo {} L) = .ok g' ∧ ∃ x, g = { g' with md5in := x } := by
  obtain ⟨p, ps, _, h1, h2⟩ := splitLines_spec text
  rw [initialize_eq ct fo text p ps h1 h2] at h
  cases hb : stripBom p with
  | error e => rw [hb] at h; cases h
  | ok p' =>
    rw [hb] at h
    obtain ⟨L, hL⟩ := linesAfterBom_cons p' p ps
    simp only [hL, finishLoad_first] at h
    cases hf : finishLoad fo (loadLines ct fo {} (p' :: L)) with
    | error e => rw [hf] at h; cases h
    | ok g' =>
      rw [hf] at h
      simp only [Except.map, Except.ok.injEq] at h
      exact ⟨_, g', hf, _, h.symm⟩

/-- For the examples. -/
theorem exists_ok {ε α : Type} {P : α → Prop} [DecidablePred P] {r : Except ε α}
    (h : (match r with | .ok a => decide (P a) | .error _ => false) = true) : ∃ a, r = .ok a ∧ P a := by
  cases r with
  | error e => simp at h
  | ok a => exact ⟨a, rfl, by simpa using h⟩

/-- For the examples. -/
theorem eq_error {ε α : Type} [DecidableEq ε] {e : ε} {r : Except ε α}
    (h : (match r with | .ok _ => false | .error e' => decide (e' = e)) = true) : r = .error e := by
  cases r with
  | error e' => simp at h; rw [h]
  | ok a => simp at h

/-! ## C29 -/

/-- A constructed grammar satisfies what searching assumes. -/
theorem C29_constructed_wf (h0 : fo.le0 fo.zero = true) (text : Str) (g : Grammar F)
    (h : Grammar.initialize ct fo text = .ok g) : WfGrammar g ∧ Balanced g ∧ HasRoot g := by
  obtain ⟨L, g', hf, x, rfl⟩ := initialize_ok ct fo text g h
  obtain ⟨ms, rs, _, _, _, _, _, _, _, _, _, wf, hb, hr, _⟩ := finishLoad_ok ct fo h0 L g' hf
  exact ⟨⟨wf.distinct, wf.nonempty, wf.linked, wf.indexed⟩, hb, hr⟩

/-- A constructed grammar has a section ADDRESS, no section name occurs twice, every reference names a
section and every rule is the meaning of a well-formed rule line. -/
theorem C29_constructed_closed (h0 : fo.le0 fo.zero = true) (text : Str) (g : Grammar F)
    (h : Grammar.initialize ct fo text = .ok g) :
    Rooted g.metaNames g.ruleSections ∧ ¬ Dangling g.metaNames g.ruleSections ∧
    (g.metaNames.map (·.1) ++ g.ruleSections.map (·.1)).Nodup ∧
    ∀ s ∈ g.ruleSections, ∀ r ∈ s.2, ∃ line, RuleMeans fo line r := by
  obtain ⟨L, g', hf, x, rfl⟩ := initialize_ok ct fo text g h
  obtain ⟨ms, rs, _, hd, hr, e1, e2, _, _, _, _, wf, _, _, hm⟩ := finishLoad_ok ct fo h0 L g' hf
  have d : g'.names.Nodup := wf.distinct
  rw [names_eq] at d
  have k1 : ({ g' with md5in := x } : Grammar F).metaNames = g'.metaNames := rfl
  have k2 : ({ g' with md5in := x } : Grammar F).ruleSections = g'.ruleSections := rfl
  rw [k1, k2]
  refine ⟨by rw [e1, e2]; exact hr, by rw [e1, e2]; exact hd, d, ?_⟩
  intro s hs r hrr
  obtain ⟨s', hs', rfl⟩ := List.mem_map.1 hs
  exact hm s' hs' r hrr

/-- A search in a constructed grammar from ADDRESS always delivers a list of results. -/
theorem C29_search_defined (h0 : fo.le0 fo.zero = true) (text : Str) (g : Grammar F)
    (h : Grammar.initialize ct fo text = .ok g) (phrase : List Token) :
    ∃ results, search g c!"ADDRESS" phrase = .ok results := by
  obtain ⟨wf, _, hr⟩ := C29_constructed_wf ct fo h0 text g h
  exact search_root wf hr phrase

example : ratOps.le0 ratOps.zero = true ∧ ∃ g, Grammar.initialize asciiTables ratOps (unlines exText) = .ok g ∧
    g.metaNames = [(c!"ADDRESS", [[c!"NUM", c!"STREET"]])] ∧
    g.ruleSections = [(c!"NUM", [⟨[.NUMBER], [.HOUSE], 9 / 10⟩]),
      (c!"STREET", [⟨[.WORD], [.STREET], 1 / 2⟩, ⟨[.WORD, .TYPE], [.STREET, .SUFTYP], 4 / 5⟩])] :=
  ⟨by decide +kernel, exists_ok (by decide +kernel)⟩

/-! ## C30 -/

/-- The first line does not start with a byte order mark. -/
def NoBom (text : Str) : Prop := text.head? ≠ some '\uFEFF'

theorem stripBom_noBom {l : Str} (h : NoBom l) : stripBom l = .ok l := by
  cases l with
  | nil => rfl
  | cons c cs =>
    have : ¬ c = '\uFEFF' := by
      intro e; exact h (by rw [e]; rfl)
    simp [stripBom, this]

theorem withRepeat_blank (ls : List Str) : withRepeat (ls ++ [[]]) = ls ++ [[]] := by
  cases ls with
  | nil => rfl
  | cons l ls => rw [List.cons_append, withRepeat_eq]; simp [List.getLast_cons]

theorem initialize_unlines (ls : List Str) (hn : ∀ l ∈ ls, '\n' ∉ l) (hb : NoBom (unlines ls)) :
    Grammar.initialize ct fo (unlines ls) = finishLoad fo (loadLines ct fo {} (ls ++ [[]])) := by
  have hn' : ∀ l ∈ ls ++ [[]], '\n' ∉ l := by
    intro l hl
    rcases List.mem_append.1 hl with h | h
    · exact hn l h
    · rw [List.mem_singleton] at h; subst h; simp
  cases hls : ls ++ [[]] with
  | nil => simp at hls
  | cons p ps =>
    rw [hls] at hn'
    rw [initialize_eq ct fo (unlines ls) p ps hn' (by rw [unlines_eq, hls])]
    have hp : stripBom p = .ok p := by
      refine stripBom_noBom ?_
      cases ls with
      | nil => cases hls; simp [NoBom]
      | cons l ls =>
        cases hls
        unfold NoBom at hb ⊢
        cases p with
        | nil => simp
        | cons c cs => simpa [unlines] using hb
    rw [hp]
    simp only [linesAfterBom_same, ← hls, withRepeat_blank]
    rw [hls]
    rfl

/-- The check of a well-formed text: it is fatal, and the issues are thrown, iff a reference is
undefined or ADDRESS is missing; otherwise it is a warning iff some section other than ADDRESS is
referenced nowhere, and there are issues iff it is not OK. -/
theorem C30_check_exact (h0 : fo.le0 fo.zero = true) (ls : List Str) (hn : ∀ l ∈ ls, '\n' ∉ l)
    (hb : NoBom (unlines ls)) (ms : List (Str × List (List Str))) (rs : List (Str × List (Rule F)))
    (hm : GrammarMeans ct fo ls ms rs) :
    (Dangling ms rs ∨ ¬ Rooted ms rs →
      ∃ issues, issues ≠ [] ∧ Grammar.initialize ct fo (unlines ls) = .error (.fatal issues)) ∧
    (¬ Dangling ms rs → Rooted ms rs → ∃ g, Grammar.initialize ct fo (unlines ls) = .ok g ∧
      (g.status = .CHECK_WARN ↔ Unreferenced ms rs) ∧ (g.status = .CHECK_OK ↔ ¬ Unreferenced ms rs) ∧
      (g.issues = [] ↔ g.status = .CHECK_OK)) := by
  rw [initialize_unlines ct fo ls hn hb]
  obtain ⟨k1, k2⟩ := finishLoad_means ct fo h0 (ls ++ [[]]) ms rs ((grammarMeans_append_blank ct fo ls ms rs).2 hm)
  refine ⟨k1, ?_⟩
  intro hd hr
  obtain ⟨g, e, _, _, _, h1, h2, h3, _⟩ := k2 (fun h => h.elim hd (fun h => h hr))
  exact ⟨g, e, h2, h1, h3⟩

/-- Every constructed grammar: its status and issues are those of its own sections. -/
theorem C30_status_of_constructed (h0 : fo.le0 fo.zero = true) (text : Str) (g : Grammar F)
    (h : Grammar.initialize ct fo text = .ok g) :
    (g.status = .CHECK_WARN ↔ Unreferenced g.metaNames g.ruleSections) ∧
    (g.status = .CHECK_OK ↔ ¬ Unreferenced g.metaNames g.ruleSections) ∧ (g.issues = [] ↔ g.status = .CHECK_OK) := by
  obtain ⟨L, g', hf, x, rfl⟩ := initialize_ok ct fo text g h
  obtain ⟨ms, rs, _, _, _, e1, e2, _, h1, h2, h3, _⟩ := finishLoad_ok ct fo h0 L g' hf
  subst e1 e2
  exact ⟨h2, h1, h3⟩

example : ∃ g, Grammar.initialize asciiTables ratOps (unlines exText) = .ok g ∧ g.status = .CHECK_OK ∧ g.issues = [] :=
  exists_ok (by decide +kernel)

example : ∃ g, Grammar.initialize asciiTables ratOps
      (unlines [c!"[ADDRESS]", c!"WORD -> STREET -> 0.5", c!"[X]", c!"WORD -> STREET -> 0.5"]) = .ok g ∧
    g.status = .CHECK_WARN ∧ g.issues = c!"Rule 'X' defined by not referenced!\n" :=
  exists_ok (by decide +kernel)

example : Grammar.initialize asciiTables ratOps (unlines [c!"[A]", c!"@B"]) =
    .error (.fatal c!"Missing rule: B : referenced at [A]\nRule 'ADDRESS' is not defined!\nRule 'A' defined by not referenced!\n") :=
  eq_error (by decide +kernel)

/-! ## C31 -/

/-- Looking up the name of a section finds that section and no other. -/
theorem C31_lookup_found (h0 : fo.le0 fo.zero = true) (text : Str) (g : Grammar F)
    (h : Grammar.initialize ct fo text = .ok g) (i : Nat) :
    (∀ sec, g.metas[i]? = some sec → stringToSectionPtr g sec.name = some { name := sec.name, mptr := some i }) ∧
    (∀ sec, g.rules[i]? = some sec → stringToSectionPtr g sec.name = some { name := sec.name, rptr := some i }) := by
  obtain ⟨wf, _, _⟩ := C29_constructed_wf ct fo h0 text g h
  have hd := wf.distinct
  rw [List.nodup_append] at hd
  obtain ⟨d1, d2, d3⟩ := hd
  have inj : ∀ {α : Type} (l : List α) (f : α → Str), (l.map f).Nodup → ∀ (a b : Nat) (x y : α),
      l[a]? = some x → l[b]? = some y → f x = f y → a = b := by
    intro α l f hl a b x y ha hb' he
    have ha' : a < (l.map f).length := by
      rw [List.length_map]; exact (List.getElem?_eq_some_iff.1 ha).1
    have hb'' : b < (l.map f).length := by
      rw [List.length_map]; exact (List.getElem?_eq_some_iff.1 hb').1
    have heq : (l.map f)[a] = (l.map f)[b] := by
      rw [List.getElem_map, List.getElem_map, (List.getElem?_eq_some_iff.1 ha).2, (List.getElem?_eq_some_iff.1 hb').2, he]
    have hp := List.pairwise_iff_getElem.1 hl
    rcases Nat.lt_trichotomy a b with h | h | h
    · exact absurd heq (hp a b ha' hb'' h)
    · exact h
    · exact absurd heq.symm (hp b a hb'' ha' h)
  have key : ∀ name, match mapFind name g.sectionIndex with
      | some k => (∃ sec, g.metas[k]? = some sec ∧ sec.name = name) ∨ (∃ sec, g.rules[k]? = some sec ∧ sec.name = name)
      | none => (∀ sec ∈ g.metas, sec.name ≠ name) ∧ (∀ sec ∈ g.rules, sec.name ≠ name) := wf.indexed
  constructor
  · intro sec hs
    have hx := key sec.name
    unfold stringToSectionPtr
    cases hk : mapFind sec.name g.sectionIndex with
    | none => rw [hk] at hx; exact absurd rfl (hx.1 sec (List.mem_of_getElem? hs))
    | some k =>
      rw [hk] at hx
      simp only at hx ⊢
      rcases hx with ⟨s, e1, e2⟩ | ⟨s, e1, e2⟩
      · have : k = i := inj g.metas (·.name) d1 k i s sec e1 hs e2
        subst this
        rw [if_pos (by simp [hs])]
      · exact absurd e2.symm (d3 _ (List.mem_map.2 ⟨sec, List.mem_of_getElem? hs, rfl⟩) _
          (List.mem_map.2 ⟨s, List.mem_of_getElem? e1, rfl⟩))
  · intro sec hs
    have hx := key sec.name
    unfold stringToSectionPtr
    cases hk : mapFind sec.name g.sectionIndex with
    | none => rw [hk] at hx; exact absurd rfl (hx.2 sec (List.mem_of_getElem? hs))
    | some k =>
      rw [hk] at hx
      simp only at hx ⊢
      have nometa : ¬ (g.metas[k]?).map (·.name) = some sec.name := by
        intro h1
        obtain ⟨s, e1, e2⟩ := Option.map_eq_some_iff.1 h1
        exact d3 _ (List.mem_map.2 ⟨s, List.mem_of_getElem? e1, rfl⟩) _
          (List.mem_map.2 ⟨sec, List.mem_of_getElem? hs, rfl⟩) e2
      rw [if_neg nometa]
      rcases hx with ⟨s, e1, e2⟩ | ⟨s, e1, e2⟩
      · exact absurd (by simp [e1, e2]) nometa
      · have : k = i := inj g.rules (·.name) d2 k i s sec e1 hs e2
        subst this
        rw [if_pos (by simp [hs])]

/-- Looking up a name fails exactly if there is no section of that name. -/
theorem C31_lookup_missing (h0 : fo.le0 fo.zero = true) (text : Str) (g : Grammar F)
    (h : Grammar.initialize ct fo text = .ok g) (name : Str) :
    stringToSectionPtr g name = none ↔ name ∉ g.metaNames.map (·.1) ++ g.ruleSections.map (·.1) := by
  have hfound := C31_lookup_found ct fo h0 text g h
  constructor
  · intro hnone hmem
    rw [← names_eq] at hmem
    rcases List.mem_append.1 hmem with h | h
    · obtain ⟨s, hs, rfl⟩ := List.mem_map.1 h
      obtain ⟨i, hi⟩ := List.getElem?_of_mem hs
      rw [(hfound i).1 s hi] at hnone
      cases hnone
    · obtain ⟨s, hs, rfl⟩ := List.mem_map.1 h
      obtain ⟨i, hi⟩ := List.getElem?_of_mem hs
      rw [(hfound i).2 s hi] at hnone
      cases hnone
  · intro hmem
    rw [← names_eq] at hmem
    obtain ⟨wf, _, _⟩ := C29_constructed_wf ct fo h0 text g h
    have hx := IndexOk.find (g := g) ⟨wf.distinct, wf.indexed⟩ name
    unfold stringToSectionPtr
    cases hk : mapFind name g.sectionIndex with
    | none => rfl
    | some k => rw [hk] at hx; exact absurd (hx.1 rfl) hmem

/-- In the example, meta and rule sections share index 0 and are told apart. -/
example : ∃ g, Grammar.initialize asciiTables ratOps (unlines exText) = .ok g ∧
    stringToSectionPtr g c!"ADDRESS" = some { name := c!"ADDRESS", mptr := some 0 } ∧
    stringToSectionPtr g c!"NUM" = some { name := c!"NUM", rptr := some 0 } ∧
    stringToSectionPtr g c!"NONE" = none :=
  exists_ok (by decide +kernel)

/-! ## C32 -/

/-- A text of terminated lines is accepted, and then with these sections, exactly if the lines define
these sections, no reference is undefined and there is a section ADDRESS. -/
theorem C32_text_meaning (h0 : fo.le0 fo.zero = true) (ls : List Str) (hn : ∀ l ∈ ls, '\n' ∉ l)
    (hb : NoBom (unlines ls)) (ms : List (Str × List (List Str))) (rs : List (Str × List (Rule F))) :
    (∃ g, Grammar.initialize ct fo (unlines ls) = .ok g ∧ g.metaNames = ms ∧ g.ruleSections = rs) ↔
    (GrammarMeans ct fo ls ms rs ∧ ¬ Dangling ms rs ∧ Rooted ms rs) := by
  rw [initialize_unlines ct fo ls hn hb, ← grammarMeans_append_blank]
  constructor
  · rintro ⟨g, h, rfl, rfl⟩
    obtain ⟨ms, rs, h1, h2, h3, rfl, rfl, _⟩ := finishLoad_ok ct fo h0 _ g h
    exact ⟨h1, h2, h3⟩
  · rintro ⟨h1, h2, h3⟩
    obtain ⟨_, k2⟩ := finishLoad_means ct fo h0 _ ms rs h1
    obtain ⟨g, e, e1, e2, _⟩ := k2 (fun h => h.elim h2 (fun h => h h3))
    exact ⟨g, e, e1, e2⟩

/-- What is digested is the concatenation of the lines. -/
theorem C32_digest_input (h0 : fo.le0 fo.zero = true) (ls : List Str) (hn : ∀ l ∈ ls, '\n' ∉ l)
    (hb : NoBom (unlines ls)) (g : Grammar F) (h : Grammar.initialize ct fo (unlines ls) = .ok g) :
    g.md5in = ls.flatten := by
  rw [initialize_unlines ct fo ls hn hb] at h
  obtain ⟨ms, rs, _, _, _, _, _, e, _⟩ := finishLoad_ok ct fo h0 _ g h
  simpa using e

/-- A line with `@` that is not a list of references is dropped. -/
theorem C32_odd_meta_line_dropped (ls ls' : List Str) (l : Str) (hl : ∀ ns, ¬ IsRefs ct l ns) (mm : List (List Str)) :
    MetasMean ct (ls ++ l :: ls') mm ↔ MetasMean ct (ls ++ ls') mm := by
  rw [metasMean_iff, metasMean_iff]
  simp [(refsOf?_none ct l).2 hl]

/-- A text the loader rejects: it means nothing, or has an undefined reference, or no ADDRESS. -/
theorem C32_rejected (h0 : fo.le0 fo.zero = true) (ls : List Str) (hn : ∀ l ∈ ls, '\n' ∉ l)
    (hb : NoBom (unlines ls)) :
    (∃ e, Grammar.initialize ct fo (unlines ls) = .error e) ↔
    ∀ ms rs, GrammarMeans ct fo ls ms rs → Dangling ms rs ∨ ¬ Rooted ms rs := by
  constructor
  · rintro ⟨e, h⟩ ms rs hm
    by_cases hc : Dangling ms rs ∨ ¬ Rooted ms rs
    · exact hc
    · have hr : Rooted ms rs := by
        by_cases hr : Rooted ms rs
        · exact hr
        · exact absurd (Or.inr hr) hc
      obtain ⟨g, hg, _⟩ := (C32_text_meaning ct fo h0 ls hn hb ms rs).2 ⟨hm, fun h => hc (Or.inl h), hr⟩
      rw [hg] at h
      cases h
  · intro hall
    cases h : Grammar.initialize ct fo (unlines ls) with
    | error e => exact ⟨e, rfl⟩
    | ok g =>
      obtain ⟨h1, h2, h3⟩ := (C32_text_meaning ct fo h0 ls hn hb _ _).1 ⟨g, h, rfl, rfl⟩
      rcases hall _ _ h1 with h | h
      · exact absurd h h2
      · exact absurd h3 h

example : (∀ l ∈ exText, '\n' ∉ l) ∧ NoBom (unlines exText) := by
  unfold NoBom; decide

example : Grammar.initialize asciiTables ratOps (unlines [c!"[ADDRESS]", c!"@NUM", c!"WORD -> STREET -> 0.5"]) =
    .error .mixing ∧
    Grammar.initialize asciiTables ratOps (unlines [c!"WORD -> STREET -> 0.5"]) = .error .syntaxError ∧
    Grammar.initialize asciiTables ratOps (unlines [c!"[A]", c!"WORD -> STREET -> 0.5", c!"[A]"]) =
      .error .duplicateSection :=
  ⟨eq_error (by decide +kernel), eq_error (by decide +kernel), eq_error (by decide +kernel)⟩

/-! ## C33 -/

/-- A text without final newline is read as if its last line were repeated. -/
theorem C33_last_line_repeated (text last : Str) (hb : NoBom text)
    (hl : (splitLines text).getLast? = some last) (hne : last ≠ []) :
    Grammar.initialize ct fo text = Grammar.initialize ct fo (text ++ '\n' :: last ++ ['\n']) := by
  obtain ⟨p, ps, h0, h1, h2⟩ := splitLines_spec text
  rw [h0] at hl
  have hlast : (p :: ps).getLast (by simp) = last := by
    rw [List.getLast?_eq_some_getLast (by simp)] at hl
    exact Option.some.inj hl
  have hmem : last ∈ p :: ps := by rw [← hlast]; exact List.getLast_mem _
  have hjoin : text ++ '\n' :: last ++ ['\n'] = joinWith ['\n'] (p :: (ps ++ [last, []])) := by
    rw [h2]
    clear h0 h1 h2 hl hlast hmem hb
    induction ps generalizing p with
    | nil => simp [joinWith]
    | cons q qs ih =>
      rw [List.cons_append, joinWith_nl_cons, joinWith_nl_cons, ← ih q]
      simp
  have hp : stripBom p = .ok p := by
    refine stripBom_noBom ?_
    unfold NoBom at hb ⊢
    rw [h2] at hb
    cases p with
    | nil => simp
    | cons c cs => cases ps <;> simpa [joinWith] using hb
  have h1' : ∀ q ∈ p :: (ps ++ [last, []]), '\n' ∉ q := by
    intro q hq
    rcases List.mem_cons.1 hq with rfl | hq
    · exact h1 _ (List.mem_cons_self ..)
    · rcases List.mem_append.1 hq with hq | hq
      · exact h1 _ (List.mem_cons_of_mem _ hq)
      · simp only [List.mem_cons, List.not_mem_nil, or_false] at hq
        rcases hq with rfl | rfl
        · exact h1 _ hmem
        · simp
  rw [initialize_eq ct fo _ p ps h1 h2, initialize_eq ct fo _ p _ h1' hjoin, hp]
  simp only [linesAfterBom_same]
  have e1 : withRepeat (p :: ps) = p :: (ps ++ [last]) := by
    rw [withRepeat_eq, hlast, if_neg hne]; rfl
  have e2 : withRepeat (p :: (ps ++ [last, []])) = p :: (ps ++ [last]) ++ [[]] := by
    have := withRepeat_blank (p :: (ps ++ [last]))
    simpa using this
  rw [e1, e2]
  have e3 : p :: (ps ++ [last]) ++ [[]] = p :: (ps ++ [last] ++ [[]]) := rfl
  rw [e3, loadFirst_same, loadFirst_same, ← e3]
  congr 1
  -- a final blank line changes nothing
  have : ∀ (L : List Str) (st : LoadState F), loadLines ct fo st L = loadLines ct fo st (L ++ [[]]) := by
    intro L
    induction L with
    | nil => intro st; simp [loadLines, loadLine, isCommentLine]
    | cons l L ih =>
      intro st
      rw [List.cons_append, loadLines, loadLines]
      cases loadLine ct fo { st with grammarIn := st.grammarIn ++ l } l with
      | error e => rfl
      | ok st => exact ih st
  exact this _ {}

/-- So a last rule is in its section twice. -/
example : ∃ g, Grammar.initialize asciiTables ratOps c!"[ADDRESS]\nWORD -> STREET -> 0.5" = .ok g ∧
    g.ruleSections = [(c!"ADDRESS", [⟨[.WORD], [.STREET], 1 / 2⟩, ⟨[.WORD], [.STREET], 1 / 2⟩])] :=
  exists_ok (by decide +kernel)

/-- And a text that ends in a header is accepted although that header is read twice. -/
example : ∃ g, Grammar.initialize asciiTables ratOps c!"[ADDRESS]\nWORD -> STREET -> 0.5\n[X]" = .ok g ∧
    g.ruleSections.map (·.1) = [c!"ADDRESS"] :=
  exists_ok (by decide +kernel)

example : NoBom c!"[ADDRESS]\nWORD -> STREET -> 0.5" ∧
    (splitLines c!"[ADDRESS]\nWORD -> STREET -> 0.5").getLast? = some c!"WORD -> STREET -> 0.5" ∧
    c!"WORD -> STREET -> 0.5" ≠ [] := by unfold NoBom; decide

/-! ## C34 -/

/-- A byte order mark and the character after it are dropped. -/
theorem C34_bom_swallows (c : Char) (text : Str) (hc : c ≠ '\n') (hascii : c.toNat < 128) (hb : NoBom text) :
    Grammar.initialize ct fo ('\uFEFF' :: c :: text) =
      (Grammar.initialize ct fo text).map (fun g => { g with md5in := '\uFEFF' :: c :: g.md5in }) := by
  obtain ⟨p, ps, h0, h1, h2⟩ := splitLines_spec text
  have hp : stripBom p = .ok p := by
    refine stripBom_noBom ?_
    unfold NoBom at hb ⊢
    rw [h2] at hb
    cases p with
    | nil => simp
    | cons c cs => cases ps <;> simpa [joinWith] using hb
  have h1' : ∀ q ∈ ('\uFEFF' :: c :: p) :: ps, '\n' ∉ q := by
    intro q hq
    rcases List.mem_cons.1 hq with rfl | hq
    · simp only [List.mem_cons, not_or]
      exact ⟨by decide, fun e => hc e.symm, h1 p (List.mem_cons_self ..)⟩
    · exact h1 q (List.mem_cons_of_mem _ hq)
  have h2' : '\uFEFF' :: c :: text = joinWith ['\n'] (('\uFEFF' :: c :: p) :: ps) := by
    rw [h2]; cases ps <;> simp [joinWith]
  have hp' : stripBom ('\uFEFF' :: c :: p) = .ok p := by simp [stripBom, hascii]
  rw [initialize_eq ct fo _ p ps h1 h2, initialize_eq ct fo _ _ ps h1' h2', hp, hp']
  simp only
  have digest : ∀ L, finishLoad fo (loadFirst ct fo ('\uFEFF' :: c :: p) {} (p :: L)) =
      (finishLoad fo (loadFirst ct fo p {} (p :: L))).map (fun g => { g with md5in := '\uFEFF' :: c :: g.md5in }) := by
    intro L
    rw [finishLoad_first, finishLoad_first]
    cases finishLoad fo (loadLines ct fo {} (p :: L)) <;> rfl
  cases ps with
  | cons q qs => exact digest _
  | nil =>
    simp only [linesAfterBom, List.cons_ne_nil, ↓reduceIte]
    by_cases hpe : p = []
    · subst hpe
      rw [digest]
      simp only [↓reduceIte]
      congr 2
    · rw [if_neg hpe]; exact digest _

/-- If nothing, a newline or a character of more than one byte follows the mark, loading fails. -/
theorem C34_bom_fails (text : Str) (h : ∀ c, text.head? = some c → c = '\n' ∨ 128 ≤ c.toNat) :
    Grammar.initialize ct fo ('\uFEFF' :: text) = .error .outOfRange := by
  obtain ⟨p, ps, h0, h1, h2⟩ := splitLines_spec text
  have h1' : ∀ q ∈ ('\uFEFF' :: p) :: ps, '\n' ∉ q := by
    intro q hq
    rcases List.mem_cons.1 hq with rfl | hq
    · simp only [List.mem_cons, not_or]
      exact ⟨by decide, h1 p (List.mem_cons_self ..)⟩
    · exact h1 q (List.mem_cons_of_mem _ hq)
  have h2' : '\uFEFF' :: text = joinWith ['\n'] (('\uFEFF' :: p) :: ps) := by
    rw [h2]; cases ps <;> simp [joinWith]
  rw [initialize_eq ct fo _ _ ps h1' h2']
  have : stripBom ('\uFEFF' :: p) = .error .outOfRange := by
    cases p with
    | nil => rfl
    | cons c cs =>
      have hc : text.head? = some c := by rw [h2]; cases ps <;> simp [joinWith]
      rcases h c hc with rfl | hc
      · exact absurd (List.mem_cons_self ..) (h1 ('\n' :: cs) (List.mem_cons_self ..))
      · have : ¬ c.toNat < 128 := by omega
        simp [stripBom, this]
  rw [this]

/-- The same grammar with and without a byte order mark. -/
example : Grammar.initialize asciiTables ratOps ('\uFEFF' :: c!"[ADDRESS]\nWORD -> STREET -> 0.5\n") =
      .error .syntaxError ∧
    (∃ g, Grammar.initialize asciiTables ratOps c!"[ADDRESS]\nWORD -> STREET -> 0.5\n" = .ok g ∧ g.issues = []) ∧
    '[' ≠ '\n' ∧ '['.toNat < 128 ∧ NoBom c!"ADDRESS]\nWORD -> STREET -> 0.5\n" :=
  ⟨eq_error (by decide +kernel), exists_ok (by decide +kernel), by unfold NoBom; decide⟩

end AS.Props
