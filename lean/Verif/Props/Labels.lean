import Verif.Lemmas.Labels
import Verif.Props.Naming
import Verif.Props.Further
import Verif.Props.Whole
import Verif.Props.Compiled
/-
Property C113: the input classes are labels.
-/
namespace AS.Props
open AS AS.Wrapper AS.Tokenizer
variable {F D : Type} {fo : FloatOps F} {ct : CharTables} {σ : InType → InType}

/-! ### The lexicons -/

theorem labels_loaded {env : Env F D} {text text' h h' : Str} {es es' : List LexEntry}
    (ha : env.archive text = .notArchive) (ha' : env.archive text' = .notArchive)
    (ht : LexText env.icu text h es) (ht' : LexText env.icu text' h' es') (hloc : headerLocale h = headerLocale h')
    (hu : RelabelledUse σ es es') : ∃ l l', loadLexicon env text = .ok l ∧ loadLexicon env text' = .ok l' ∧
      FindsLabels σ l l' ∧ lexRe env l = lexRe env l' ∧ l.locale = l'.locale := by
  obtain ⟨l, h1, h2, H, C⟩ := loadLexicon_text ha ht
  obtain ⟨l', h1', h2', H', C'⟩ := loadLexicon_text ha' ht'
  have hmem : ∀ (es : List LexEntry) w c, (∃ e ∈ (held (es.map LexOp.ins)).filter (fun e => e.word = w), c ∈ e.type) ↔
      standardOf es w c ≠ none := by
    intro es w c
    rw [← Option.isSome_iff_ne_none, standardOf_some]
    simp only [List.mem_filter, mem_heldIns, decide_eq_true_eq, and_assoc]
  have e1 : (trieOf (l.lex.map (·.1))).getRegexp = (trieOf (l'.lex.map (·.1))).getRegexp := by
    refine pattern_canon fun w _ => ?_
    rw [H.key_iff, H'.key_iff]
    simp only [mem_heldIns]
    exact hu.listed w
  have e2 : (trieOf (Lexicon.attachedWords LexEntry.isPrefixAttached l.lex)).getRegexp =
      (trieOf (Lexicon.attachedWords LexEntry.isPrefixAttached l'.lex)).getRegexp := by
    refine pattern_canon fun w _ => ?_
    rw [H.attached_iff, H'.attached_iff]
    simp only [mem_heldIns, LexEntry.isPrefixAttached, List.contains_eq_mem, decide_eq_true_eq]
    exact hu.front w
  have e3 : (trieOf (Lexicon.attachedWords LexEntry.isSuffixAttached l.lex)).getRegexp =
      (trieOf (Lexicon.attachedWords LexEntry.isSuffixAttached l'.lex)).getRegexp := by
    refine pattern_canon fun w _ => ?_
    rw [H.attached_iff, H'.attached_iff]
    simp only [mem_heldIns, LexEntry.isSuffixAttached, List.contains_eq_mem, decide_eq_true_eq]
    exact hu.behind w
  have hre : lexRe env l = lexRe env l' := by
    unfold lexRe
    rw [C.regex.1, C'.regex.1, C.regexPrefixAtt.1, C'.regexPrefixAtt.1, C.regexSuffixAtt.1, C'.regexSuffixAtt.1]
    unfold Lexicon.freshRegex Lexicon.freshPrefix Lexicon.freshSuffix
    rw [e1, e2, e3]
  refine ⟨l, l', h1, h1', ⟨?_, ?_⟩, hre, by rw [h2, h2', hloc]⟩
  · intro w c
    rw [H.find, H'.find, hmem, hmem, hu.standard]
  · intro w c
    rw [H.find, H'.find, stdLoop_find, stdLoop_find, List.find?_filter, List.find?_filter, find_held, find_held]
    have := hu.standard w c
    unfold standardOf at this
    simpa only [decide_eq_true_eq] using congrArg some this

/-! ### The grammars -/

/-- The data lines of a section. -/
inductive RelabelledData (fo : FloatOps F) (σ : InType → InType) : List Str → List Str → Prop
  | nil : RelabelledData fo σ [] []
  | same {l : Str} {ls ls' : List Str} : '@' ∈ l → RelabelledData fo σ ls ls' → RelabelledData fo σ (l :: ls) (l :: ls')
  | rule {l l' : Str} {r : Rule F} {ls ls' : List Str} : '@' ∉ l → '@' ∉ l' → RuleMeans fo l r → RuleMeans fo l' (r.relabel σ) →
      RelabelledData fo σ ls ls' → RelabelledData fo σ (l :: ls) (l' :: ls')

theorem groupLines_relabelled {ls ls' : List Str} (h : RelabelledLines ct fo σ ls ls') :
    RelabelledData fo σ (groupLines ct ls).1 (groupLines ct ls').1 ∧
      Along (fun a b : Str × List Str => a.1 = b.1 ∧ RelabelledData fo σ a.2 b.2) (groupLines ct ls).2 (groupLines ct ls').2 := by
  induction h with
  | nil => exact ⟨.nil, .nil⟩
  | @same l _ _ h1 _ ih =>
    by_cases hc : IsComment ct l
    · rw [groupLines_comment hc, groupLines_comment hc]; exact ih
    · by_cases hh : ∃ n, IsHeader ct l n
      · obtain ⟨n, hh⟩ := hh
        rw [groupLines_header ct hh, groupLines_header ct hh]
        exact ⟨.nil, .cons ⟨rfl, ih.1⟩ ih.2⟩
      · have hd : DataLine ct l := ⟨hc, fun n hn => hh ⟨n, hn⟩⟩
        rw [groupLines_data hd, groupLines_data hd]
        rcases h1 with h1 | h1 | h1
        · exact absurd h1 hc
        · exact absurd h1 hh
        · exact ⟨.same h1 ih.1, ih.2⟩
  | rule h1 h2 h3 h4 h5 h6 _ ih =>
    rw [groupLines_data h1, groupLines_data h2]
    exact ⟨.rule h3 h4 h5 h6 ih.1, ih.2⟩

theorem relabelledData_at {ls ls' : List Str} (h : RelabelledData fo σ ls ls') :
    (ls = [] ↔ ls' = []) ∧ ((∀ l ∈ ls, '@' ∈ l) → ls' = ls) ∧ ((∀ l ∈ ls, '@' ∉ l) → ∀ l ∈ ls', '@' ∉ l) := by
  induction h with
  | nil => simp
  | same h1 _ ih =>
    refine ⟨by simp, ?_, ?_⟩
    · intro h
      rw [ih.2.1 (fun x hx => h x (List.mem_cons_of_mem _ hx))]
    · intro h
      exact absurd h1 (h _ List.mem_cons_self)
  | rule h1 h2 _ _ _ ih =>
    refine ⟨by simp, ?_, ?_⟩
    · intro h
      exact absurd (h _ List.mem_cons_self) h1
    · intro h l hl
      rcases List.mem_cons.1 hl with rfl | hl
      · exact h2
      · exact ih.2.2 (fun x hx => h x (List.mem_cons_of_mem _ hx)) l hl

theorem relabelledData_rules (h0 : fo.le0 fo.zero = true) {ls ls' : List Str} (h : RelabelledData fo σ ls ls') :
    (∀ l ∈ ls, '@' ∉ l) → ∀ rr, RulesMean fo ls rr → RulesMean fo ls' (rr.map (Rule.relabel σ)) := by
  induction h with
  | nil => intro _ rr h; cases h; exact .nil
  | same h1 _ ih => intro h; exact absurd h1 (h _ List.mem_cons_self)
  | rule h1 h2 h3 h4 _ ih =>
    intro h rr hr
    cases hr with
    | cons a b =>
      rw [List.map_cons, ← ruleMeans_unique h0 h3 a]
      exact .cons h4 (ih (fun x hx => h x (List.mem_cons_of_mem _ hx)) _ b)

theorem sections_relabelled (h0 : fo.le0 fo.zero = true) {gs gs' : List (Str × List Str)}
    (h : Along (fun a b : Str × List Str => a.1 = b.1 ∧ RelabelledData fo σ a.2 b.2) gs gs') :
    ∀ {ms : List (Str × List (List Str))} {rs : List (Str × List (Rule F))}, Sections ct fo gs ms rs →
    Sections ct fo gs' ms (rs.map (fun s => (s.1, s.2.map (Rule.relabel σ)))) := by
  induction h with
  | nil => intro ms rs h; cases h; exact .nil
  | @cons a b _ _ h1 _ ih =>
    intro ms rs h
    obtain ⟨an, al⟩ := a
    obtain ⟨bn, bl⟩ := b
    obtain ⟨e, h1⟩ := h1
    simp only at e h1
    subst e
    obtain ⟨k1, k2, k3⟩ := relabelledData_at h1
    cases h with
    | empty h =>
      have := k1.1 rfl
      subst this
      exact .empty (ih h)
    | metas a b c d =>
      have := k2 b
      subst this
      exact .metas a b c (ih d)
    | rules a b c d => exact .rules (fun e => a (k1.2 e)) (k3 b) (relabelledData_rules h0 h1 b _ c) (ih d)

theorem noRepeat_relabelled {gs gs' : List (Str × List Str)}
    (h : Along (fun a b : Str × List Str => a.1 = b.1 ∧ RelabelledData fo σ a.2 b.2) gs gs') (hn : NoRepeat gs) : NoRepeat gs' := by
  have names : ∀ {gs gs' : List (Str × List Str)},
      Along (fun a b : Str × List Str => a.1 = b.1 ∧ RelabelledData fo σ a.2 b.2) gs gs' → ∀ g' ∈ gs', ∃ g ∈ gs, g.1 = g'.1 := by
    intro gs gs' h
    induction h with
    | nil => simp
    | @cons a b _ _ h1 _ ih =>
      intro g' hg'
      rcases List.mem_cons.1 hg' with rfl | hg'
      · exact ⟨a, List.mem_cons_self, h1.1⟩
      · obtain ⟨g, hg, e⟩ := ih g' hg'
        exact ⟨g, List.mem_cons_of_mem _ hg, e⟩
  induction h with
  | nil => exact hn
  | @cons a b gs gs' h1 h2 ih =>
    obtain ⟨n1, n2⟩ := List.pairwise_cons.1 hn
    refine List.pairwise_cons.2 ⟨?_, ih n2⟩
    intro g' hg' hne e
    obtain ⟨g, hg, e1⟩ := names h2 g' hg'
    exact n1 g hg (fun e => hne ((relabelledData_at h1.2).1.1 e)) (by rw [e1, e, h1.1])

/-- A grammar text that is accepted is accepted with the exchanged classes, and gives the grammar with the exchanged classes. -/
theorem C113_text (ct : CharTables) (fo : FloatOps F) (h0 : fo.le0 fo.zero = true) {ls ls' : List Str}
    (h : RelabelledLines ct fo σ ls ls') (hn : ∀ l ∈ ls, '\n' ∉ l) (hn' : ∀ l ∈ ls', '\n' ∉ l) (hb : NoBom (unlines ls))
    (hb' : NoBom (unlines ls')) (g : Grammar F) (hg : Grammar.initialize ct fo (unlines ls) = .ok g) :
    ∃ g', Grammar.initialize ct fo (unlines ls') = .ok g' ∧ RelabelledGrammar σ g g' := by
  obtain ⟨⟨gs, k1, k2, k3⟩, hd, hr⟩ := (C32_text_meaning ct fo h0 _ hn hb _ _).1 ⟨g, hg, rfl, rfl⟩
  obtain ⟨r1, r2⟩ := groupLines_relabelled h
  rw [groups_iff] at k1
  have hpre : (groupLines ct ls').1 = [] := (relabelledData_at r1).1.1 (by rw [k1])
  have hgs : (groupLines ct ls).2 = gs := by rw [k1]
  rw [hgs] at r2
  have names : (g.ruleSections.map (fun s => (s.1, s.2.map (Rule.relabel σ)))).map (·.1) = g.ruleSections.map (·.1) := by
    rw [List.map_map]; rfl
  obtain ⟨g', hg', e1, e2⟩ := (C32_text_meaning ct fo h0 _ hn' hb' _ _).2
    ⟨⟨_, (groups_iff ct _ _ _).2 (Prod.ext hpre rfl), noRepeat_relabelled r2 k2, sections_relabelled h0 r2 k3⟩, by
      unfold Dangling; rw [names]; exact hd, by unfold Rooted; rw [names]; exact hr⟩
  exact ⟨g', hg', e1, e2⟩

/-! ### Derivations -/

theorem inputs_relabel (rs : List (Rule F)) : inputs (rs.map (Rule.relabel σ)) = (inputs rs).map σ := by
  unfold inputs
  rw [List.flatMap_map, List.map_flatMap]
  rfl

theorem outputs_relabel (rs : List (Rule F)) : outputs (rs.map (Rule.relabel σ)) = outputs rs := by
  unfold outputs
  rw [List.flatMap_map]
  rfl

theorem average_relabel (rs : List (Rule F)) : average fo (rs.map (Rule.relabel σ)) = average fo rs := by
  unfold average
  rw [List.map_map, List.length_map]
  rfl

theorem relabel_inj (hσ : Relabels σ) {r s : Rule F} (h : r.relabel σ = s.relabel σ) : r = s := by
  obtain ⟨i, o, x⟩ := r
  obtain ⟨j, p, y⟩ := s
  simp only [Rule.relabel, Rule.mk.injEq] at h
  obtain ⟨h1, rfl, rfl⟩ := h
  rw [(List.map_inj_right (fun a b => hσ.inj a b)).1 h1]

theorem derives_relabel {g g' : Grammar F} (h : RelabelledGrammar σ g g') {ss : List Str} {rs : List (Rule F)} {m : Nat}
    (hd : Derives g ss rs m) : Derives g' ss (rs.map (Rule.relabel σ)) m := by
  induction hd with
  | done => exact .done
  | @rule s ss sec r rs m h1 h2 h3 _ ih =>
    have : (sec.name, sec.rules.map (Rule.relabel σ)) ∈ g'.ruleSections := by
      rw [h.rules]
      exact List.mem_map.2 ⟨(sec.name, sec.rules), List.mem_map.2 ⟨sec, h1, rfl⟩, rfl⟩
    obtain ⟨sec', k1, k2⟩ := List.mem_map.1 this
    simp only [Prod.mk.injEq] at k2
    rw [List.map_cons]
    exact .rule k1 (by rw [k2.1, h2]) (by rw [k2.2]; exact List.mem_map.2 ⟨r, h3, rfl⟩) ih
  | @expand s ss sec refs rs m h1 h2 h3 _ ih =>
    have : (sec.name, sec.rules.map (fun r => r.map (·.name))) ∈ g'.metaNames := by
      rw [h.metas]
      exact List.mem_map.2 ⟨sec, h1, rfl⟩
    obtain ⟨sec', k1, k2⟩ := List.mem_map.1 this
    simp only [Prod.mk.injEq] at k2
    have h4 : refs.map (·.name) ∈ sec'.rules.map (fun r => r.map (·.name)) := by
      rw [k2.2]; exact List.mem_map.2 ⟨refs, h3, rfl⟩
    obtain ⟨refs', k3, k4⟩ := List.mem_map.1 h4
    exact .expand k1 (by rw [k2.1, h2]) k3 (by rw [k4]; exact ih)

theorem derives_relabelled {g g' : Grammar F} (h : RelabelledGrammar σ g g') {ss : List Str} {rs' : List (Rule F)} {m : Nat}
    (hd : Derives g' ss rs' m) : ∃ rs, rs' = rs.map (Rule.relabel σ) ∧ Derives g ss rs m := by
  induction hd with
  | done => exact ⟨[], rfl, .done⟩
  | @rule s ss sec r rs m h1 h2 h3 _ ih =>
    obtain ⟨rs, rfl, ih⟩ := ih
    have : (sec.name, sec.rules) ∈ g'.ruleSections := List.mem_map.2 ⟨sec, h1, rfl⟩
    rw [h.rules] at this
    obtain ⟨x, k1, k2⟩ := List.mem_map.1 this
    obtain ⟨sec0, k3, rfl⟩ := List.mem_map.1 k1
    simp only [Prod.mk.injEq] at k2
    rw [← k2.2] at h3
    obtain ⟨r0, k4, rfl⟩ := List.mem_map.1 h3
    exact ⟨r0 :: rs, rfl, .rule k3 (by rw [k2.1, h2]) k4 ih⟩
  | @expand s ss sec refs rs m h1 h2 h3 _ ih =>
    obtain ⟨rs, rfl, ih⟩ := ih
    have : (sec.name, sec.rules.map (fun r => r.map (·.name))) ∈ g'.metaNames := List.mem_map.2 ⟨sec, h1, rfl⟩
    rw [h.metas] at this
    obtain ⟨sec0, k1, k2⟩ := List.mem_map.1 this
    simp only [Prod.mk.injEq] at k2
    have h4 : refs.map (·.name) ∈ sec0.rules.map (fun r => r.map (·.name)) := by
      rw [k2.2]; exact List.mem_map.2 ⟨refs, h3, rfl⟩
    obtain ⟨refs0, k3, k4⟩ := List.mem_map.1 h4
    exact ⟨rs, rfl, .expand k1 (by rw [k2.1, h2]) k3 (by rw [k4]; exact ih)⟩

theorem map_relabel_inj (hσ : Relabels σ) {rs ss : List (Rule F)} (h : rs.map (Rule.relabel σ) = ss.map (Rule.relabel σ)) : rs = ss :=
  (List.map_inj_right (fun _ _ => relabel_inj hσ)).1 h

/-- What the search finds for tokens with the exchanged classes: the same derivations, with the exchanged classes. -/
theorem C113_search (hσ : Relabels σ) {g g' : Grammar F} (wf : WfGrammar g) (wf' : WfGrammar g') (h : RelabelledGrammar σ g g')
    {phrase phrase' : List Token} (ha : Along (RelabelledToken σ) phrase phrase')
    (hsize : sizeProd (phrase.map (·.inclass)) < 2 ^ 32) (node : Str) (results results' : List (SearchPath F))
    (hr : search g node phrase = .ok results) (hr' : search g' node phrase' = .ok results') :
    (∀ rs, ⟨rs, [], []⟩ ∈ results ↔ ⟨rs.map (Rule.relabel σ), [], []⟩ ∈ results') ∧
    ∀ rs', ⟨rs', [], []⟩ ∈ results' → ∃ rs : List (Rule F), rs' = rs.map (Rule.relabel σ) := by
  have hsize' : sizeProd (phrase'.map (·.inclass)) < 2 ^ 32 := by rw [sizeProd_labels ha]; exact hsize
  have hlen : phrase'.length = phrase.length := ha.length.symm
  refine ⟨fun rs => ?_, fun rs' hm => ?_⟩
  · rw [C37_search_exact wf node phrase hsize results hr, C37_search_exact wf' node phrase' hsize' results' hr', hlen]
    constructor
    · rintro ⟨m, h1, h2, h3⟩
      exact ⟨m, derives_relabel h h1, h2, by rw [inputs_relabel]; exact (picks_labels hσ ha _).2 h3⟩
    · rintro ⟨m, h1, h2, h3⟩
      obtain ⟨rs2, e, h4⟩ := derives_relabelled h h1
      rw [← map_relabel_inj hσ e] at h4
      exact ⟨m, h4, h2, (picks_labels hσ ha _).1 (by rw [← inputs_relabel]; exact h3)⟩
  · obtain ⟨m, h1, _, _⟩ := (C37_search_exact wf' node phrase' hsize' results' hr' rs').1 hm
    obtain ⟨rs, e, _⟩ := derives_relabelled h h1
    exact ⟨rs, e⟩

/-! ### Addresses -/

/-- The token lists of an address without tabs: the same, with the exchanged classes. -/
theorem C113_tokens (env : Env F D) (hk : IcuKeeps env.icu '\t') (ls ls' : List Str) (text text' filter filter' : Str)
    (h : RelabelledTexts env σ ls ls' text text' filter filter') (locale address : Str) (hn : '\t' ∉ address) :
    ∃ l l', loadLexicon env text = .ok l ∧ loadLexicon env text' = .ok l' ∧
      ((phrasesOf env l locale filter address = .undefined ∧ phrasesOf env l' locale filter' address = .undefined) ∨
      ∃ ps ps', phrasesOf env l locale filter address = .ok ps ∧ phrasesOf env l' locale filter' address = .ok ps' ∧
        Along (Along (RelabelledToken σ)) ps ps') := by
  obtain ⟨hh, hh', es, es', t1, t2, t3, t4⟩ := h.entries
  obtain ⟨l, l', h1, h2, h3, h4, h5⟩ := labels_loaded h.archive.1 h.archive.2 t1 t2 t3 t4
  exact ⟨l, l', h1, h2, phrasesOf_labels h.classes hk h3 h4 h5 h.filtered locale hn⟩

theorem along_left {α β : Type} {R : α → β → Prop} {as : List α} {bs : List β} (h : Along R as bs) : ∀ a ∈ as, ∃ b ∈ bs, R a b := by
  induction h with
  | nil => simp
  | @cons a b _ _ r _ ih =>
    intro x hx
    rcases List.mem_cons.1 hx with rfl | hx
    · exact ⟨b, List.mem_cons_self, r⟩
    · obtain ⟨y, hy, k⟩ := ih x hx
      exact ⟨y, List.mem_cons_of_mem _ hy, k⟩

theorem along_right {α β : Type} {R : α → β → Prop} {as : List α} {bs : List β} (h : Along R as bs) : ∀ b ∈ bs, ∃ a ∈ as, R a b := by
  induction h with
  | nil => simp
  | @cons a b _ _ r _ ih =>
    intro x hx
    rcases List.mem_cons.1 hx with rfl | hx
    · exact ⟨a, List.mem_cons_self, r⟩
    · obtain ⟨y, hy, k⟩ := ih x hx
      exact ⟨y, List.mem_cons_of_mem _ hy, k⟩

theorem labels_grammars (env : Env F D) (h0 : env.fo.le0 env.fo.zero = true) {ls ls' : List Str} {text text' filter filter' : Str}
    (h : RelabelledTexts env σ ls ls' text text' filter filter') : ∃ g g', loadGrammar env (unlines ls) = .ok g ∧
      loadGrammar env (unlines ls') = .ok g' ∧ RelabelledGrammar σ g g' ∧ (WfGrammar g ∧ HasRoot g) ∧ (WfGrammar g' ∧ HasRoot g') := by
  obtain ⟨g, hg⟩ := h.accepted
  obtain ⟨g', hg', hR⟩ := C113_text _ env.fo h0 h.lines h.single.1 h.single.2 h.bom.1 h.bom.2 g hg
  obtain ⟨wf, _, hr⟩ := C29_constructed_wf _ env.fo h0 _ g hg
  obtain ⟨wf', _, hr'⟩ := C29_constructed_wf _ env.fo h0 _ g' hg'
  refine ⟨g, g', by unfold loadGrammar; rw [hg], by unfold loadGrammar; rw [hg'], hR, ⟨wf, hr⟩, ⟨wf', hr'⟩⟩

/-- An address is returned with the one if it is returned with the other. -/
theorem C113_returned (env : Env F D) (laws : LtLaws env.fo) (signs : SignLaws env.fo) (hal : env.alloc 1 = true)
    (h0 : env.fo.le0 env.fo.zero = true) (hk : IcuKeeps env.icu '\t') (ls ls' : List Str) (text text' filter filter' : Str)
    (h : RelabelledTexts env σ ls ls' text text' filter filter') (locale address : Str) (hn : '\t' ∉ address)
    (hsize : ∀ l phrases, loadLexicon env text = .ok l → phrasesOf env l locale filter address = .ok phrases →
      ∀ p ∈ phrases, sizeProd (p.map (·.inclass)) < 2 ^ 32) :
    (∃ x, stdStandardize env address (unlines ls) text locale filter = some ⟨some x, none⟩) ↔
      ∃ x, stdStandardize env address (unlines ls') text' locale filter' = some ⟨some x, none⟩ := by
  obtain ⟨l, l', h1, h2, h3⟩ := C113_tokens env hk ls ls' text text' filter filter' h locale address hn
  obtain ⟨g, g', k1, k2, hR, ⟨wf, hr⟩, ⟨wf', hr'⟩⟩ := labels_grammars env h0 h
  unfold stdStandardize
  rw [k1, k2, h1, h2]
  simp only
  rcases h3 with ⟨p1, p2⟩ | ⟨ps, ps', p1, p2, p3⟩
  · unfold standardizeAddr standardizeAddrWith; rw [p1, p2]
  · have iff : ∀ phrase ∈ ps, ∀ phrase', Along (RelabelledToken σ) phrase phrase' →
        (search g c!"ADDRESS" phrase = .ok [] ↔ search g' c!"ADDRESS" phrase' = .ok []) := by
      intro phrase hm phrase' ha
      obtain ⟨r, hr⟩ := search_root wf hr phrase
      obtain ⟨r', hr'⟩ := search_root wf' hr' phrase'
      obtain ⟨q1, q2⟩ := C113_search h.classes wf wf' hR ha (hsize l ps h1 p1 phrase hm) _ r r' hr hr'
      have shape : ∀ {G : Grammar F} (wf : WfGrammar G) (phrase : List Token) (res : List (SearchPath F)),
          search G c!"ADDRESS" phrase = .ok res → sizeProd (phrase.map (·.inclass)) < 2 ^ 32 → ∀ p ∈ res, ∃ rs, p = ⟨rs, [], []⟩ := by
        intro G wf phrase res hs hz p hp
        rcases search_spec wf c!"ADDRESS" phrase _ (Token.enumerate_eq phrase hz) with ⟨r, h', _, hmem⟩ | ⟨h', _⟩
        · rw [hs] at h'
          cases h'
          obtain ⟨rs, m, _, _, _, e⟩ := (hmem p).1 hp
          exact ⟨rs, e⟩
        · rw [hs] at h'; cases h'
      have hz := hsize l ps h1 p1 phrase hm
      rw [hr, hr']
      simp only [Outcome.ok.injEq]
      constructor
      · rintro rfl
        refine List.eq_nil_iff_forall_not_mem.2 fun p hp => ?_
        obtain ⟨rs', rfl⟩ := shape wf' phrase' r' hr' (by rw [sizeProd_labels ha]; exact hz) p hp
        obtain ⟨rs, rfl⟩ := q2 rs' hp
        exact absurd ((q1 rs).2 hp) (by simp)
      · rintro rfl
        refine List.eq_nil_iff_forall_not_mem.2 fun p hp => ?_
        obtain ⟨rs, rfl⟩ := shape wf phrase r hr hz p hp
        exact absurd ((q1 rs).1 hp) (by simp)
    have A := C48_address_iff_match env laws signs h0 hal _ g k1 l locale filter address ps p1
    have B := C48_address_iff_match env laws signs h0 hal _ g' k2 l' locale filter' address ps' p2
    constructor
    · rintro ⟨x, hx⟩
      rcases B with ⟨y, hy, _⟩ | ⟨_, hall⟩
      · exact ⟨y, hy⟩
      · rcases A with ⟨_, _, phrase, hm, ⟨results, hs, hne⟩, _⟩ | ⟨hno, _⟩
        · obtain ⟨phrase', hm', ha⟩ := along_left p3 phrase hm
          rw [(iff phrase hm phrase' ha).2 (hall phrase' hm')] at hs
          cases hs
          exact absurd rfl hne
        · rw [hx] at hno; cases hno
    · rintro ⟨x, hx⟩
      rcases A with ⟨y, hy, _⟩ | ⟨_, hall⟩
      · exact ⟨y, hy⟩
      · rcases B with ⟨_, _, phrase', hm', ⟨results, hs, hne⟩, _⟩ | ⟨hno, _⟩
        · obtain ⟨phrase, hm, ha⟩ := along_right p3 phrase' hm'
          rw [(iff phrase hm phrase' ha).1 (hall phrase hm)] at hs
          cases hs
          exact absurd rfl hne
        · rw [hx] at hno; cases hno

/-- The fields with the exchanged classes are those of a best reading with the classes as they were. -/
theorem C113_fields (env : Env F D) (laws : LtLaws env.fo) (signs : SignLaws env.fo)
    (htot : ∀ a b c, env.fo.lt env.fo.zero b = true → env.fo.lt a c = true → env.fo.lt a b = true ∨ env.fo.lt b c = true)
    (h0 : env.fo.le0 env.fo.zero = true) (hk : IcuKeeps env.icu '\t') (ls ls' : List Str) (text text' filter filter' : Str)
    (h : RelabelledTexts env σ ls ls' text text' filter filter') (locale address : Str) (hn : '\t' ∉ address)
    (a : StdAddr) (err : Option Str) (hx : stdStandardize env address (unlines ls') text' locale filter' = some ⟨some a, err⟩) :
    ∃ g l phrases phrase rs std, loadGrammar env (unlines ls) = .ok g ∧ loadLexicon env text = .ok l ∧
      phrasesOf env l locale filter address = .ok phrases ∧ BestReading env.fo g phrases phrase rs ∧
      (retag phrase (inputs rs) (outputs rs)).map l.standardize = std.map some ∧
      (∀ f, a.get f = if wordsFor f std = [] then none else some (upToNul (joinWith c!" " (wordsFor f std)))) ∧
      a.pattern = some (patternText (retag phrase ((inputs rs).map σ) (outputs rs))) := by
  obtain ⟨hh, hh', es, es', t1, t2, t3, t4⟩ := h.entries
  obtain ⟨l, l', h1, h2, h3, h4, h5⟩ := labels_loaded h.archive.1 h.archive.2 t1 t2 t3 t4
  obtain ⟨g, g', k1, k2, hR, _, _⟩ := labels_grammars env h0 h
  obtain ⟨_, _, ps', phrase', rs', m, std', e1, e2, e3, e4, e5, e6, _, e7, e8, _, e9, e10⟩ :=
    C65_explained env laws signs htot h0 address (unlines ls') text' locale filter' a err hx
  rw [k2] at e1
  cases e1
  rw [h2] at e2
  cases e2
  rcases phrasesOf_labels h.classes hk h3 h4 h5 h.filtered locale hn with ⟨_, p2⟩ | ⟨ps, ps2, p1, p2, p3⟩
  · rw [p2] at e3; cases e3
  rw [p2] at e3
  cases e3
  obtain ⟨phrase, hm, ha⟩ := along_right p3 phrase' e4
  obtain ⟨rs, rfl, hd⟩ := derives_relabelled hR e5
  rw [inputs_relabel] at e6 e8 e10
  rw [outputs_relabel] at e8 e10
  obtain ⟨std, s1, s2⟩ := standardize_labels h3 ha _ _ _ e8
  refine ⟨g, l, ps, phrase, rs, std, k1, h1, p1, ⟨hm, ⟨m, hd⟩, (picks_labels h.classes ha _).1 e6, ?_⟩, s1, ?_, ?_⟩
  · intro q hq hz ss n hs hle hp hpos
    obtain ⟨q', hq', haq⟩ := along_left p3 q hq
    have := e7 q' hq' (by rw [sizeProd_labels haq]; exact hz) _ n (derives_relabel hR hs) (by rw [← haq.length]; exact hle)
      (by rw [inputs_relabel]; exact (picks_labels h.classes haq _).2 hp) (by rw [average_relabel]; exact hpos)
    rwa [average_relabel, average_relabel] at this
  · intro f
    rw [e9, wordsFor_labels f s2]
  · rw [e10]
    have : ∀ {ts ts' : List Token}, Along (RelabelledToken σ) ts ts' → ∀ is os, retag ts' is os = retag ts is os := by
      intro ts ts' hts
      induction hts with
      | nil => intro is os; rfl
      | @cons t t' _ _ r _ ih =>
        intro is os
        cases is with
        | nil => rfl
        | cons i is =>
          cases os with
          | nil => rfl
          | cons o os => rw [retag, retag, ih, r.rest]
    rw [this ha]

/-- If there is only one best reading, the fields are the same. -/
theorem C113_same (env : Env F D) (laws : LtLaws env.fo) (signs : SignLaws env.fo)
    (htot : ∀ a b c, env.fo.lt env.fo.zero b = true → env.fo.lt a c = true → env.fo.lt a b = true ∨ env.fo.lt b c = true)
    (h0 : env.fo.le0 env.fo.zero = true) (hk : IcuKeeps env.icu '\t') (ls ls' : List Str) (text text' filter filter' : Str)
    (h : RelabelledTexts env σ ls ls' text text' filter filter') (locale address : Str) (hn : '\t' ∉ address)
    (hone : ∀ g l phrases, loadGrammar env (unlines ls) = .ok g → loadLexicon env text = .ok l →
      phrasesOf env l locale filter address = .ok phrases → ∀ p p' rs rs', BestReading env.fo g phrases p rs →
      BestReading env.fo g phrases p' rs' → p = p' ∧ rs = rs')
    (a a' : StdAddr) (err err' : Option Str) (hx : stdStandardize env address (unlines ls) text locale filter = some ⟨some a, err⟩)
    (hx' : stdStandardize env address (unlines ls') text' locale filter' = some ⟨some a', err'⟩) (f : Field) : a'.get f = a.get f := by
  obtain ⟨g, l, ps, phrase, rs, std, k1, k2, k3, k4, k5, k6, _⟩ :=
    C113_fields env laws signs htot h0 hk ls ls' text text' filter filter' h locale address hn a' err' hx'
  obtain ⟨_, _, _, phrase2, rs2, m, std2, e1, e2, e3, e4, e5, e6, _, e7, e8, _, e9, _⟩ :=
    C65_explained env laws signs htot h0 address (unlines ls) text locale filter a err hx
  rw [k1] at e1
  cases e1
  rw [k2] at e2
  cases e2
  rw [k3] at e3
  cases e3
  obtain ⟨rfl, rfl⟩ := hone g l ps k1 k2 k3 phrase phrase2 rs rs2 k4 ⟨e4, ⟨m, e5⟩, e6, e7⟩
  rw [k5] at e8
  have : std = std2 := (List.map_inj_right (fun _ _ e => Option.some.inj e)).1 e8
  rw [k6, e9, this]

/-! ### Cases -/

/-- Entries with the exchanged classes, one by one. -/
theorem relabelledUse_map (hσ : Relabels σ) (es : List LexEntry) :
    RelabelledUse σ es (es.map (fun e => { e with type := e.type.map σ })) := by
  have key : ∀ P : LexEntry → Prop, (∀ e : LexEntry, P { e with type := e.type.map σ } ↔ P e) →
      ((∃ e ∈ es, P e) ↔ ∃ e ∈ es.map (fun e => { e with type := e.type.map σ }), P e) := by
    intro P hP
    constructor
    · rintro ⟨e, he, h⟩; exact ⟨_, List.mem_map.2 ⟨e, he, rfl⟩, (hP e).2 h⟩
    · rintro ⟨e', he', h⟩
      obtain ⟨e, he, rfl⟩ := List.mem_map.1 he'
      exact ⟨e, he, (hP e).1 h⟩
  refine ⟨fun w => key _ fun e => Iff.rfl, fun w c => ?_, fun w => key _ fun e => Iff.rfl, fun w => key _ fun e => Iff.rfl⟩
  unfold standardOf
  rw [List.find?_map, Option.map_map]
  have : ((fun e : LexEntry => decide (e.word = w ∧ σ c ∈ e.type)) ∘ fun e : LexEntry => { e with type := e.type.map σ }) =
      fun e => decide (e.word = w ∧ c ∈ e.type) := by
    funext e
    simp only [Function.comp_apply, List.mem_map]
    refine decide_eq_decide.2 (and_congr_right fun _ => ⟨?_, fun h => ⟨c, h, rfl⟩⟩)
    rintro ⟨x, hx, e⟩
    rw [← hσ.inj _ _ e]
    exact hx
  rw [this]
  rfl

/-- The classes CITY and PROV for one another. -/
def swapCity (c : InType) : InType := if c = .CITY then .PROV else if c = .PROV then .CITY else c

theorem swapCity_relabels : Relabels swapCity := by
  have h : ∀ c, swapCity (swapCity c) = c := by intro c; cases c <;> rfl
  exact ⟨fun c d e => by rw [← h c, ← h d, e], fun d => ⟨swapCity d, h d⟩, by decide⟩

/-- `provText` with the two classes exchanged. -/
def cityText : Str := unlines [c!"LEXICON:\tT\tENG\ten\t2", c!"LEXENTRY:\tNEW YORK\tNEW YORK\tCITY\t",
  c!"LEXENTRY:\tNEW YORK\tNY\tPROV\t", c!"LEXENTRY:\tSTR\tSTRASSE\tTYPE\t"]

theorem cityText_means : LexText asciiIcu cityText c!"LEXICON:\tT\tENG\ten\t2"
    ([eProv, eNY, eStr].map (fun e => { e with type := e.type.map swapCity })) := by
  refine ⟨_, _, c!"LEXICON:\tT\tENG\ten\t2", _, rfl, .plain (by decide), ⟨[], rfl, by decide, by decide⟩, by decide, by decide +kernel, ?_⟩
  exact .entry (l := c!"LEXENTRY:\tNEW YORK\tNEW YORK\tCITY\t") (Or.inl (by decide)) (by decide +kernel)
    (.entry (l := c!"LEXENTRY:\tNEW YORK\tNY\tPROV\t") (Or.inl (by decide)) (by decide +kernel)
    (.entry (l := c!"LEXENTRY:\tSTR\tSTRASSE\tTYPE\t") (Or.inl (by decide)) (by decide +kernel) (.blank .nil)))

theorem data_of {ct : CharTables} {l : Str} (h : isCommentLine ct l = false ∧ sectionName? ct l = none) : DataLine ct l := by
  refine ⟨fun k => ?_, fun n k => ?_⟩
  · rw [(isCommentLine_iff _ l).2 k] at h; exact absurd h.1 (by simp)
  · rw [(sectionName?_iff _ l n).2 k] at h; exact absurd h.2 (by simp)

/-- A line that means a rule. -/
theorem rule_of {l : Str} {r : Rule Rat} (h : Rule.ofLine ratOps l = .ok r) : RuleMeans ratOps l r :=
  (C26_rule_line_meaning ratOps (by decide) l r).1 h

def lineCity (s : Str) : Str := c!"NUMBER CITY -> HOUSE CITY -> " ++ s
def lineProv (s : Str) : Str := c!"NUMBER PROV -> HOUSE PROV -> " ++ s
def lineCity' (s : Str) : Str := c!"NUMBER PROV -> HOUSE CITY -> " ++ s
def lineProv' (s : Str) : Str := c!"NUMBER CITY -> HOUSE PROV -> " ++ s

def swapLines (s : Str) : List Str := [c!"[ADDRESS]", c!"# towns", lineCity c!"0.5", lineProv s]
def swapLines' (s : Str) : List Str := [c!"[ADDRESS]", c!"# towns", lineCity' c!"0.5", lineProv' s]

theorem swap_lines (s : Str) (h : s = c!"0.8" ∨ s = c!"0.5") :
    RelabelledTexts exEnv swapCity (swapLines s) (swapLines' s) provText cityText c!"SPACE" c!"SPACE" := by
  have ok : ∃ g, Grammar.initialize exEnv.u.toCharTables exEnv.fo (unlines (swapLines s)) = .ok g := by
    rcases h with rfl | rfl
    · obtain ⟨g, hg, _⟩ := exists_ok (P := fun g : Grammar Rat => g.metas = [])
        (r := Grammar.initialize exEnv.u.toCharTables exEnv.fo (unlines (swapLines c!"0.8"))) (by decide +kernel)
      exact ⟨g, hg⟩
    · obtain ⟨g, hg, _⟩ := exists_ok (P := fun g : Grammar Rat => g.metas = [])
        (r := Grammar.initialize exEnv.u.toCharTables exEnv.fo (unlines (swapLines c!"0.5"))) (by decide +kernel)
      exact ⟨g, hg⟩
  refine ⟨swapCity_relabels, ?_, ?_, ?_, ok, ⟨rfl, rfl⟩, ⟨_, _, _, _, provText_means, cityText_means, rfl, relabelledUse_map swapCity_relabels _⟩,
    fun c => by cases c <;> decide +kernel⟩
  · refine .same (Or.inr (Or.inl ⟨c!"ADDRESS", (sectionName?_iff _ _ _).1 (by decide +kernel)⟩)) ?_
    refine .same (Or.inl ((isCommentLine_iff _ _).1 (by decide +kernel))) ?_
    refine .rule (r := ⟨[.NUMBER, .CITY], [.HOUSE, .CITY], 1 / 2⟩) (data_of (by decide +kernel)) (data_of (by decide +kernel)) (by decide +kernel)
      (by decide +kernel) (rule_of (by decide +kernel)) (rule_of (by decide +kernel)) ?_
    rcases h with rfl | rfl
    · exact .rule (r := ⟨[.NUMBER, .PROV], [.HOUSE, .PROV], 4 / 5⟩) (data_of (by decide +kernel)) (data_of (by decide +kernel)) (by decide +kernel)
        (by decide +kernel) (rule_of (by decide +kernel)) (rule_of (by decide +kernel)) .nil
    · exact .rule (r := ⟨[.NUMBER, .PROV], [.HOUSE, .PROV], 1 / 2⟩) (data_of (by decide +kernel)) (data_of (by decide +kernel)) (by decide +kernel)
        (by decide +kernel) (rule_of (by decide +kernel)) (rule_of (by decide +kernel)) .nil
  · rcases h with rfl | rfl <;> decide +kernel
  · rcases h with rfl | rfl <;> decide +kernel

/-- Between equally good readings the order of the classes decides, so then the fields may differ. -/
theorem C113_ties : ∃ (env : Env Rat Rat) (σ : InType → InType) (ls ls' : List Str) (text text' filter filter' locale address : Str)
    (a a' : StdAddr), RelabelledTexts env σ ls ls' text text' filter filter' ∧ IcuKeeps env.icu '\t' ∧ '\t' ∉ address ∧
    stdStandardize env address (unlines ls) text locale filter = some ⟨some a, none⟩ ∧
    stdStandardize env address (unlines ls') text' locale filter' = some ⟨some a', none⟩ ∧ a.city ≠ a'.city := by
  refine ⟨exEnv, swapCity, _, _, _, _, _, _, c!"en", c!"12 new york",
    { house_num := some c!"12", city := some c!"NY", pattern := some c!"NUMBER CITY -> HOUSE CITY" },
    { house_num := some c!"12", prov := some c!"NEW YORK", pattern := some c!"NUMBER CITY -> HOUSE PROV" },
    swap_lines c!"0.5" (Or.inr rfl), asciiIcu_keeps _ (toUpper_low _ (by decide)), by decide, by decide +kernel, by decide +kernel, by decide⟩

/-- In the example there is one best reading: "NEW YORK" is taken in the class PROV. -/
theorem swap_one : ∀ g l phrases, loadGrammar exEnv (unlines (swapLines c!"0.8")) = .ok g → loadLexicon exEnv provText = .ok l →
    phrasesOf exEnv l c!"en" c!"SPACE" c!"12 new york" = .ok phrases → ∀ p p' rs rs', BestReading exEnv.fo g phrases p rs →
    BestReading exEnv.fo g phrases p' rs' → p = p' ∧ rs = rs' := by
  intro g l phrases h1 h2 h3
  obtain ⟨g0, k1, k2, k3⟩ := exists_ok (P := fun g : Grammar Rat => g.metas = [] ∧ g.ruleSections =
      [(c!"ADDRESS", [⟨[.NUMBER, .CITY], [.HOUSE, .CITY], 1 / 2⟩, ⟨[.NUMBER, .PROV], [.HOUSE, .PROV], 4 / 5⟩])])
    (r := Grammar.initialize exEnv.u.toCharTables exEnv.fo (unlines (swapLines c!"0.8"))) (by decide +kernel)
  have e : g0 = g := by
    unfold loadGrammar at h1
    rw [k1] at h1
    cases h1
    rfl
  subst e
  have kp : outcomeIs (loadLexicon exEnv provText) (fun l => outcomeIs (phrasesOf exEnv l c!"en" c!"SPACE" c!"12 new york")
      (fun phrases => decide (phrases.map (·.map (·.inclass)) = [[[.NUMBER], [.CITY, .PROV]], [[.NUMBER], [.WORD], [.WORD]]]))) = true := by
    decide +kernel
  obtain ⟨l2, q1, q2⟩ := of_outcomeIs kp
  rw [h2] at q1
  cases q1
  obtain ⟨ps, q3, q4⟩ := of_outcomeIs q2
  rw [h3] at q3
  cases q3
  have q4 := of_decide_eq_true q4
  obtain ⟨pa, pb, rfl, ha, hb⟩ : ∃ pa pb, phrases = [pa, pb] ∧ pa.map (·.inclass) = [[.NUMBER], [.CITY, .PROV]] ∧
      pb.map (·.inclass) = [[.NUMBER], [.WORD], [.WORD]] := by
    clear h3 kp q2
    rcases phrases with _ | ⟨pa, _ | ⟨pb, _ | ⟨pc, ps⟩⟩⟩
    · simp at q4
    · simp at q4
    · simp only [List.map_cons, List.map_nil, List.cons.injEq, and_true] at q4
      exact ⟨pa, pb, rfl, q4.1, q4.2⟩
    · simp at q4
  have hder : ∀ rs m, Derives g0 [c!"ADDRESS"] rs m →
      rs = [⟨[.NUMBER, .CITY], [.HOUSE, .CITY], 1 / 2⟩] ∨ rs = [⟨[.NUMBER, .PROV], [.HOUSE, .PROV], 4 / 5⟩] := by
    intro rs m hd
    cases hd with
    | rule a b c d =>
      cases d
      have := List.mem_map_of_mem (f := fun s : RuleSection Rat => (s.name, s.rules)) a
      change _ ∈ g0.ruleSections at this
      rw [k3, List.mem_singleton, Prod.mk.injEq] at this
      rw [this.2] at c
      simp only [List.mem_cons, List.not_mem_nil, or_false] at c
      rcases c with rfl | rfl
      · exact Or.inl rfl
      · exact Or.inr rfl
    | expand a b c d => rw [k2] at a; cases a
  have hprov : ∃ m, Derives g0 [c!"ADDRESS"] [⟨[.NUMBER, .PROV], [.HOUSE, .PROV], 4 / 5⟩] m ∧ m ≤ 0 := by
    have : (c!"ADDRESS", [⟨[.NUMBER, .CITY], [.HOUSE, .CITY], 1 / 2⟩, ⟨[.NUMBER, .PROV], [.HOUSE, .PROV], 4 / 5⟩]) ∈ g0.ruleSections := by
      rw [k3]; simp
    obtain ⟨sec, a, b⟩ := List.mem_map.1 this
    simp only [Prod.mk.injEq] at b
    exact ⟨0, .rule a b.1 (by rw [b.2]; simp) .done, Nat.le_refl _⟩
  have only : ∀ p rs, BestReading exEnv.fo g0 [pa, pb] p rs → p = pa ∧ rs = [⟨[.NUMBER, .PROV], [.HOUSE, .PROV], 4 / 5⟩] := by
    intro p rs hbest
    obtain ⟨m, hd⟩ := hbest.derived
    have hlen : ∀ {cs : List InType} {ss : List (List InType)}, Picks cs ss → cs.length = ss.length := by
      intro cs ss h
      induction h with
      | nil => rfl
      | cons _ _ ih => simp [ih]
    have hp : p = pa := by
      rcases List.mem_cons.1 hbest.listed with h | h
      · exact h
      · exfalso
        have hpb := List.mem_singleton.1 h
        have hl := hlen hbest.picks
        rw [hpb, hb] at hl
        rcases hder rs m hd with rfl | rfl <;> cases hl
    refine ⟨hp, ?_⟩
    rcases hder rs m hd with rfl | rfl
    · exfalso
      obtain ⟨m', d', hm'⟩ := hprov
      have := hbest.unbeaten pa (by simp) (by rw [ha]; decide) _ m' d' (by omega)
        (by rw [ha]; exact .cons (by simp) (.cons (by simp) .nil)) (by decide +kernel)
      revert this
      decide +kernel
    · rfl
  intro p p' rs rs' hb1 hb2
  obtain ⟨rfl, rfl⟩ := only p rs hb1
  obtain ⟨rfl, rfl⟩ := only p' rs' hb2
  exact ⟨rfl, rfl⟩

/-- The hypotheses hold of the example, and the fields are the same. -/
example : RelabelledTexts exEnv swapCity (swapLines c!"0.8") (swapLines' c!"0.8") provText cityText c!"SPACE" c!"SPACE" ∧
    LtLaws exEnv.fo ∧ SignLaws exEnv.fo ∧ exEnv.alloc 1 = true ∧ exEnv.fo.le0 exEnv.fo.zero = true ∧ IcuKeeps exEnv.icu '\t' ∧
    (∀ a b c : Rat, exEnv.fo.lt exEnv.fo.zero b = true → exEnv.fo.lt a c = true → exEnv.fo.lt a b = true ∨ exEnv.fo.lt b c = true) ∧
    '\t' ∉ c!"12 new york" ∧
    (∀ l phrases, loadLexicon exEnv provText = .ok l → phrasesOf exEnv l c!"en" c!"SPACE" c!"12 new york" = .ok phrases →
      ∀ p ∈ phrases, sizeProd (p.map (·.inclass)) < 2 ^ 32) ∧
    stdStandardize exEnv c!"12 new york" (unlines (swapLines c!"0.8")) provText c!"en" c!"SPACE" = some ⟨some
      { house_num := some c!"12", prov := some c!"NEW YORK", pattern := some c!"NUMBER PROV -> HOUSE PROV" }, none⟩ ∧
    stdStandardize exEnv c!"12 new york" (unlines (swapLines' c!"0.8")) cityText c!"en" c!"SPACE" = some ⟨some
      { house_num := some c!"12", prov := some c!"NEW YORK", pattern := some c!"NUMBER CITY -> HOUSE PROV" }, none⟩ :=
  ⟨swap_lines c!"0.8" (Or.inl rfl), ratOps_laws, ratOps_signs, rfl, by decide, asciiIcu_keeps _ (toUpper_low _ (by decide)), ratOps_total, by decide,
    prov_sizes _ (by decide +kernel), by decide +kernel, by decide +kernel⟩

/-- A text with references. -/
example : RelabelledLines exEnv.u.toCharTables exEnv.fo swapCity [c!"[ADDRESS]", c!"@T", c!"[T]", lineCity c!"0.5"]
      [c!"[ADDRESS]", c!"@T", c!"[T]", lineCity' c!"0.5"] ∧
    (Grammar.initialize exEnv.u.toCharTables exEnv.fo (unlines [c!"[ADDRESS]", c!"@T", c!"[T]", lineCity c!"0.5"])).isOk = true := by
  refine ⟨?_, by decide +kernel⟩
  refine .same (Or.inr (Or.inl ⟨c!"ADDRESS", (sectionName?_iff _ _ _).1 (by decide +kernel)⟩)) ?_
  refine .same (Or.inr (Or.inr (by decide))) ?_
  refine .same (Or.inr (Or.inl ⟨c!"T", (sectionName?_iff _ _ _).1 (by decide +kernel)⟩)) ?_
  exact .rule (r := ⟨[.NUMBER, .CITY], [.HOUSE, .CITY], 1 / 2⟩) (data_of (by decide +kernel)) (data_of (by decide +kernel)) (by decide +kernel)
    (by decide +kernel) (rule_of (by decide +kernel)) (rule_of (by decide +kernel)) .nil

end AS.Props
