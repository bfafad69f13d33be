import Verif.Lemmas.GrammarLoad
/-
The sections the loader stores are those the lines define.
-/
namespace AS
variable {F : Type} (ct : CharTables) (fo : FloatOps F)

/-! ### Functional forms of the specification -/

/-- The references of a line, if it is a list of references. -/
def refsOf? (l : Str) : Option (List Str) :=
  if isMetaLine ct l then some (metaRefsFrom ct none l) else none

theorem refsOf?_some (l : Str) (ns : List Str) : refsOf? ct l = some ns ↔ IsRefs ct l ns := by
  rw [← isMetaLine_iff]
  unfold refsOf?
  split <;> simp [*]

theorem refsOf?_none (l : Str) : refsOf? ct l = none ↔ ∀ ns, ¬ IsRefs ct l ns := by
  constructor
  · intro h ns hn
    rw [(refsOf?_some ct l ns).2 hn] at h
    cases h
  · intro h
    cases he : refsOf? ct l with
    | none => rfl
    | some ns => exact absurd ((refsOf?_some ct l ns).1 he) (h ns)

theorem metasMean_iff : ∀ (ls : List Str) (mm : List (List Str)), MetasMean ct ls mm ↔ mm = ls.filterMap (refsOf? ct)
  | [], mm => by
    constructor
    · intro h; cases h; rfl
    · rintro rfl; exact .nil
  | l :: ls, mm => by
    have ih := metasMean_iff ls
    rw [List.filterMap_cons]
    constructor
    · intro h
      cases h with
      | cons h1 h2 => rw [(refsOf?_some ct l _).2 h1, (ih _).1 h2]
      | skip h1 h2 => rw [(refsOf?_none ct l).2 h1]; exact (ih _).1 h2
    · intro h
      cases he : refsOf? ct l with
      | none =>
        rw [he] at h
        exact .skip ((refsOf?_none ct l).1 he) ((ih _).2 h)
      | some ns =>
        rw [he] at h
        rw [h]
        exact .cons ((refsOf?_some ct l ns).1 he) ((ih _).2 rfl)

theorem rulesMean_iff (h0 : fo.le0 fo.zero = true) : ∀ (ls : List Str) (rr : List (Rule F)),
    RulesMean fo ls rr ↔ ls.map (Rule.ofLine fo) = rr.map .ok
  | [], rr => by
    constructor
    · intro h; cases h; rfl
    · intro h
      have : rr = [] := by simpa using h.symm
      subst this; exact .nil
  | l :: ls, rr => by
    have ih := rulesMean_iff h0 ls
    constructor
    · intro h
      cases h with
      | cons h1 h2 =>
        simp only [List.map_cons, (Props.C26_rule_line_meaning fo h0 _ _).2 h1, (ih _).1 h2]
    · intro h
      cases rr with
      | nil => simp at h
      | cons r rr =>
        simp only [List.map_cons, List.cons.injEq] at h
        exact .cons ((Props.C26_rule_line_meaning fo h0 _ _).1 h.1) ((ih _).2 h.2)

/-- Grouping as a function. -/
def groupLines : List Str → List Str × List (Str × List Str)
  | [] => ([], [])
  | l :: ls =>
    if isCommentLine ct l then groupLines ls
    else
      match sectionName? ct l with
      | some n => ([], (n, (groupLines ls).1) :: (groupLines ls).2)
      | none => (l :: (groupLines ls).1, (groupLines ls).2)

theorem groups_iff : ∀ (ls pre : List Str) (gs : List (Str × List Str)),
    Groups ct ls pre gs ↔ groupLines ct ls = (pre, gs)
  | [], pre, gs => by
    constructor
    · intro h; cases h; rfl
    · intro h
      simp only [groupLines, Prod.mk.injEq] at h
      obtain ⟨rfl, rfl⟩ := h
      exact .nil
  | l :: ls, pre, gs => by
    have ih := groups_iff ls
    rw [groupLines]
    by_cases hc : isCommentLine ct l = true
    · rw [if_pos hc]
      have hc' := (isCommentLine_iff ct l).1 hc
      constructor
      · intro h
        cases h with
        | comment _ h => exact (ih _ _).1 h
        | header h => exact absurd hc' h
        | data h => exact absurd hc' h
      · intro h; exact .comment hc' ((ih _ _).2 h)
    · rw [if_neg hc]
      have hc' : ¬ IsComment ct l := fun h => hc ((isCommentLine_iff ct l).2 h)
      cases hn : sectionName? ct l with
      | some n =>
        have hn' := (sectionName?_iff ct l n).1 hn
        simp only [Prod.mk.injEq]
        constructor
        · intro h
          cases h with
          | comment h => exact absurd h hc'
          | header _ h1 h2 =>
            have := (sectionName?_iff ct l _).2 h1
            rw [hn] at this
            cases this
            rw [(ih _ _).1 h2]
            exact ⟨rfl, rfl⟩
          | data _ h => exact absurd hn' (h n)
        · rintro ⟨rfl, rfl⟩
          exact .header hc' hn' ((ih _ _).2 rfl)
      | none =>
        have hn' : ∀ name, ¬ IsHeader ct l name := by
          intro name h
          rw [(sectionName?_iff ct l name).2 h] at hn
          cases hn
        simp only [Prod.mk.injEq]
        constructor
        · intro h
          cases h with
          | comment h => exact absurd h hc'
          | header _ h1 => exact absurd h1 (hn' _)
          | data _ _ h =>
            rw [(ih _ _).1 h]
            exact ⟨rfl, rfl⟩
        · rintro ⟨rfl, rfl⟩
          exact .data hc' hn' ((ih _ _).2 rfl)

theorem sections_cons (h0 : fo.le0 fo.zero = true) (n : Str) (L : List Str) (gs : List (Str × List Str))
    (ms : List (Str × List (List Str))) (rs : List (Str × List (Rule F))) :
    Sections ct fo ((n, L) :: gs) ms rs ↔
      (L = [] ∧ Sections ct fo gs ms rs) ∨
      (L ≠ [] ∧ (∀ l ∈ L, '@' ∈ l) ∧ ∃ ms', ms = (n, L.filterMap (refsOf? ct)) :: ms' ∧ Sections ct fo gs ms' rs) ∨
      (L ≠ [] ∧ (∀ l ∈ L, '@' ∉ l) ∧ ∃ rr rs', L.map (Rule.ofLine fo) = rr.map .ok ∧ rs = (n, rr) :: rs' ∧
        Sections ct fo gs ms rs') := by
  constructor
  · intro h
    cases h with
    | empty h => exact Or.inl ⟨rfl, h⟩
    | metas h1 h2 h3 h4 =>
      rw [metasMean_iff] at h3
      subst h3
      exact Or.inr (Or.inl ⟨h1, h2, _, rfl, h4⟩)
    | rules h1 h2 h3 h4 =>
      rw [rulesMean_iff fo h0] at h3
      exact Or.inr (Or.inr ⟨h1, h2, _, _, h3, rfl, h4⟩)
  · rintro (⟨rfl, h⟩ | ⟨h1, h2, ms', rfl, h⟩ | ⟨h1, h2, rr, rs', h3, rfl, h⟩)
    · exact .empty h
    · exact .metas h1 h2 ((metasMean_iff ct _ _).2 rfl) h
    · exact .rules h1 h2 ((rulesMean_iff fo h0 _ _).2 h3) h

/-! ### The loader -/

/-- A meta section before pointers are set. -/
def mkMeta (m : Str × List (List Str)) : MetaSection :=
  ⟨m.1, m.2.map (fun r => r.map (fun n => { name := n }))⟩

/-- A rule section. -/
def mkRules (m : Str × List (Rule F)) : RuleSection F := ⟨m.1, m.2⟩

/-- The names of the stored sections. -/
def Grammar.names (g : Grammar F) : List Str := g.metas.map (·.name) ++ g.rules.map (·.name)

/-- The section index finds exactly the stored sections, whose names are distinct. -/
structure IndexOk (g : Grammar F) : Prop where
  distinct : g.names.Nodup
  indexed  : ∀ name, match mapFind name g.sectionIndex with
    | some k => (∃ sec, g.metas[k]? = some sec ∧ sec.name = name) ∨ (∃ sec, g.rules[k]? = some sec ∧ sec.name = name)
    | none => (∀ sec ∈ g.metas, sec.name ≠ name) ∧ (∀ sec ∈ g.rules, sec.name ≠ name)

theorem IndexOk.find {g : Grammar F} (h : IndexOk g) (name : Str) :
    (mapFind name g.sectionIndex).isSome = true ↔ name ∈ g.names := by
  have := h.indexed name
  unfold Grammar.names
  rw [List.mem_append, List.mem_map, List.mem_map]
  cases hm : mapFind name g.sectionIndex with
  | some k =>
    rw [hm] at this
    simp only [Option.isSome_some, true_iff]
    rcases this with ⟨s, h1, h2⟩ | ⟨s, h1, h2⟩
    · exact Or.inl ⟨s, List.mem_of_getElem? h1, h2⟩
    · exact Or.inr ⟨s, List.mem_of_getElem? h1, h2⟩
  | none =>
    rw [hm] at this
    simp only [Option.isSome_none, Bool.false_eq_true, false_iff, not_or, not_exists, not_and]
    exact this

/-- Invariant of the loader: the index is right and the current section is not stored yet. -/
structure LoadInv (st : LoadState F) : Prop where
  index : IndexOk st.g
  fresh : st.gotSection ∉ st.g.names

theorem loadInv_init : LoadInv ({} : LoadState F) where
  index := { distinct := by simp [Grammar.names], indexed := by intro name; simp [mapFind] }
  fresh := by simp [Grammar.names]

theorem indexOk_storeMeta {st : LoadState F} (h : LoadInv st) : IndexOk (storeMeta st).g := by
  obtain ⟨⟨h1, h2⟩, h3⟩ := h
  refine ⟨?_, ?_⟩
  · unfold Grammar.names at *
    simp only [storeMeta, List.map_append, List.map_cons, List.map_nil]
    rw [List.append_assoc, List.nodup_append]
    rw [List.nodup_append] at h1
    simp only [List.mem_append, not_or] at h3
    refine ⟨h1.1, ?_, ?_⟩
    · rw [List.singleton_append, List.nodup_cons]
      exact ⟨h3.2, h1.2.1⟩
    · intro a ha b hb
      rcases List.mem_append.1 hb with hb | hb
      · rw [List.mem_singleton] at hb
        subst hb
        rintro rfl
        exact h3.1 ha
      · exact h1.2.2 a ha b hb
  · intro name
    have := h2 name
    simp only [storeMeta, mapFind_mapSet]
    by_cases hn : name = st.gotSection
    · subst hn
      simp
    · rw [if_neg hn]
      split at this
      · rename_i k hk
        rcases this with ⟨s, e1, e2⟩ | h
        · refine Or.inl ⟨s, ?_, e2⟩
          rw [List.getElem?_append_left (List.getElem?_eq_some_iff.1 e1).1]
          exact e1
        · exact Or.inr h
      · refine ⟨?_, this.2⟩
        intro sec hs
        rcases List.mem_append.1 hs with hs | hs
        · exact this.1 sec hs
        · rw [List.mem_singleton] at hs
          subst hs
          exact fun e => hn e.symm

theorem indexOk_storeRules {st : LoadState F} (h : LoadInv st) : IndexOk (storeRules st).g := by
  obtain ⟨⟨h1, h2⟩, h3⟩ := h
  refine ⟨?_, ?_⟩
  · unfold Grammar.names at *
    simp only [storeRules, List.map_append, List.map_cons, List.map_nil]
    rw [← List.append_assoc, List.nodup_append]
    refine ⟨h1, by simp, ?_⟩
    intro a ha b hb
    rw [List.mem_singleton] at hb
    subst hb
    rintro rfl
    exact h3 ha
  · intro name
    have := h2 name
    simp only [storeRules, mapFind_mapSet]
    by_cases hn : name = st.gotSection
    · subst hn
      simp
    · rw [if_neg hn]
      split at this
      · rename_i k hk
        rcases this with h | ⟨s, e1, e2⟩
        · exact Or.inl h
        · refine Or.inr ⟨s, ?_, e2⟩
          rw [List.getElem?_append_left (List.getElem?_eq_some_iff.1 e1).1]
          exact e1
      · refine ⟨this.1, ?_⟩
        intro sec hs
        rcases List.mem_append.1 hs with hs | hs
        · exact this.2 sec hs
        · rw [List.mem_singleton] at hs
          subst hs
          exact fun e => hn e.symm

theorem indexOk_storeSection {st : LoadState F} (h : LoadInv st) : IndexOk (storeSection st).g := by
  unfold storeSection
  split
  · exact indexOk_storeMeta h
  · exact indexOk_storeRules h
  · exact h.index

theorem loadLine_inv {st st' : LoadState F} {l : Str} (h : LoadInv st) (hl : loadLine ct fo st l = .ok st') :
    LoadInv st' := by
  unfold loadLine at hl
  split at hl
  · cases hl; exact h
  · split at hl
    · rename_i name _
      unfold loadHeader at hl
      split at hl
      · cases hl
      · split at hl
        · cases hl
        · rename_i hdup
          cases hl
          have hi := indexOk_storeSection h
          refine ⟨hi, ?_⟩
          rw [hi.find] at hdup
          exact hdup
    · unfold loadData at hl
      split at hl
      · cases hl
      · split at hl
        · split at hl
          · cases hl
          · simp only at hl
            cases hl
            split <;> exact ⟨h.index, h.fresh⟩
        · split at hl
          · cases hl
          · simp only at hl
            split at hl
            · cases hl; exact ⟨h.index, h.fresh⟩
            · cases hl
            · cases hl

theorem loadLines_inv : ∀ (ls : List Str) {st st' : LoadState F}, LoadInv st → loadLines ct fo st ls = .ok st' → LoadInv st'
  | [], st, st', h, hl => by cases hl; exact h
  | l :: ls, st, st', h, hl => by
    rw [loadLines] at hl
    split at hl
    · cases hl
    · rename_i st1 h1
      exact loadLines_inv ls (loadLine_inv ct fo (st := { st with grammarIn := st.grammarIn ++ l }) ⟨h.index, h.fresh⟩ h1) hl

theorem loadFinish_index {st : LoadState F} (h : LoadInv st) : IndexOk (loadFinish st).g := by
  unfold loadFinish
  split
  · exact indexOk_storeSection h
  · exact h.index

/-- The lines of the current section that were read. -/
def Acc (st : LoadState F) (acc : List Str) : Prop :=
  (acc = [] ∧ st.ruleType = .UNKNWN ∧ st.mrules = [] ∧ st.rules = []) ∨
  (acc ≠ [] ∧ st.gotSection ≠ [] ∧ (∀ l ∈ acc, '@' ∈ l) ∧ st.ruleType = .ISMETA ∧ st.rules = [] ∧
    st.mrules = (acc.filterMap (refsOf? ct)).map (fun r => r.map (fun n => { name := n }))) ∨
  (acc ≠ [] ∧ st.gotSection ≠ [] ∧ (∀ l ∈ acc, '@' ∉ l) ∧ st.ruleType = .ISRULE ∧ st.mrules = [] ∧
    acc.map (Rule.ofLine fo) = st.rules.map .ok)

theorem noRepeat_cons (a : Str × List Str) (gs : List (Str × List Str)) :
    NoRepeat (a :: gs) ↔ (∀ g ∈ gs, a.2 ≠ [] → g.1 ≠ a.1) ∧ NoRepeat gs := List.pairwise_cons

theorem ofLine_ok_inj {a b : List (Rule F)} (h : a.map Rule.Made.ok = b.map .ok) : a = b := by
  exact (List.map_inj_right (f := Rule.Made.ok) (by intro a b h; cases h; rfl)).1 h

/-- What storing the current section adds. -/
theorem storeSection_acc (h0 : fo.le0 fo.zero = true) {st : LoadState F} {acc : List Str} (hacc : Acc ct fo st acc) :
    (storeSection st).ruleType = .UNKNWN ∧ (storeSection st).mrules = [] ∧ (storeSection st).rules = [] ∧
    (st.ruleType ≠ .UNKNWN → st.gotSection ≠ []) ∧ (st.gotSection = [] → acc = []) ∧
    (∀ x, x ∈ (storeSection st).g.names ↔ x ∈ st.g.names ∨ (acc ≠ [] ∧ x = st.gotSection)) ∧
    ∃ ms0 rs0, (storeSection st).g.metas = st.g.metas ++ ms0.map mkMeta ∧
      (storeSection st).g.rules = st.g.rules ++ rs0.map mkRules ∧
      ∀ gs ms rs, Sections ct fo ((st.gotSection, acc) :: gs) ms rs ↔
        ∃ ms' rs', ms = ms0 ++ ms' ∧ rs = rs0 ++ rs' ∧ Sections ct fo gs ms' rs' := by
  unfold storeSection
  rcases hacc with ⟨rfl, e1, e2, e3⟩ | ⟨hne, hgot, hall, e1, e2, e3⟩ | ⟨hne, hgot, hall, e1, e2, e3⟩
  · simp only [e1]
    refine ⟨trivial, e2, e3, by simp, by simp, by simp, [], [], by simp, by simp, ?_⟩
    intro gs ms rs
    rw [sections_cons ct fo h0]
    simp
  · simp only [e1]
    refine ⟨rfl, rfl, rfl, fun _ => hgot, fun h => absurd h hgot, ?_, [(st.gotSection, acc.filterMap (refsOf? ct))], [],
      ?_, by simp [storeMeta], ?_⟩
    · intro x
      simp only [storeMeta, Grammar.names, List.map_append, List.map_cons, List.map_nil, List.mem_append, List.mem_singleton]
      constructor
      · rintro ((h | h) | h)
        · exact Or.inl (Or.inl h)
        · exact Or.inr ⟨hne, h⟩
        · exact Or.inl (Or.inr h)
      · rintro ((h | h) | ⟨_, h⟩)
        · exact Or.inl (Or.inl h)
        · exact Or.inr h
        · exact Or.inl (Or.inr h)
    · simp [storeMeta, mkMeta, e3]
    · intro gs ms rs
      rw [sections_cons ct fo h0]
      constructor
      · rintro (⟨h, _⟩ | ⟨_, _, ms', rfl, h⟩ | ⟨_, h, _⟩)
        · exact absurd h hne
        · exact ⟨ms', rs, rfl, rfl, h⟩
        · obtain ⟨x, xs, rfl⟩ := List.exists_cons_of_ne_nil hne
          exact absurd (hall x (List.mem_cons_self ..)) (h x (List.mem_cons_self ..))
      · rintro ⟨ms', rs', rfl, rfl, h⟩
        exact Or.inr (Or.inl ⟨hne, hall, ms', rfl, h⟩)
  · simp only [e1]
    refine ⟨rfl, rfl, rfl, fun _ => hgot, fun h => absurd h hgot, ?_, [], [(st.gotSection, st.rules)],
      by simp [storeRules], ?_, ?_⟩
    · intro x
      simp only [storeRules, Grammar.names, List.map_append, List.map_cons, List.map_nil, List.mem_append, List.mem_singleton]
      constructor
      · rintro (h | h | h)
        · exact Or.inl (Or.inl h)
        · exact Or.inl (Or.inr h)
        · exact Or.inr ⟨hne, h⟩
      · rintro ((h | h) | ⟨_, h⟩)
        · exact Or.inl h
        · exact Or.inr (Or.inl h)
        · exact Or.inr (Or.inr h)
    · simp [storeRules, mkRules]
    · intro gs ms rs
      rw [sections_cons ct fo h0]
      constructor
      · rintro (⟨h, _⟩ | ⟨_, h, _⟩ | ⟨_, _, rr, rs', h2, rfl, h⟩)
        · exact absurd h hne
        · obtain ⟨x, xs, rfl⟩ := List.exists_cons_of_ne_nil hne
          exact absurd (h x (List.mem_cons_self ..)) (hall x (List.mem_cons_self ..))
        · rw [e3] at h2
          exact ⟨ms, rs', rfl, by rw [ofLine_ok_inj h2]; rfl, h⟩
      · rintro ⟨ms', rs', rfl, rfl, h⟩
        exact Or.inr (Or.inr ⟨hne, hall, st.rules, rs', e3, rfl, h⟩)

theorem load_sections (h0 : fo.le0 fo.zero = true) : ∀ (ls : List Str) (st : LoadState F) (acc : List Str),
    LoadInv st → Acc ct fo st acc → ∀ (M' : List MetaSection) (R' : List (RuleSection F)),
    (∃ st', loadLines ct fo st ls = .ok st' ∧ (loadFinish st').g.metas = M' ∧ (loadFinish st').g.rules = R') ↔
    ((st.gotSection = [] → acc ++ (groupLines ct ls).1 = []) ∧
      NoRepeat ((st.gotSection, acc ++ (groupLines ct ls).1) :: (groupLines ct ls).2) ∧
      (∀ g ∈ (groupLines ct ls).2, g.1 ∉ st.g.names) ∧
      ∃ ms rs, Sections ct fo ((st.gotSection, acc ++ (groupLines ct ls).1) :: (groupLines ct ls).2) ms rs ∧
        M' = st.g.metas ++ ms.map mkMeta ∧ R' = st.g.rules ++ rs.map mkRules)
  | [], st, acc, hinv, hacc, M', R' => by
    simp only [loadLines, groupLines, List.append_nil, Except.ok.injEq, exists_eq_left']
    obtain ⟨_, _, _, _, hgot, _, ms0, rs0, h1, h2, h3⟩ := storeSection_acc ct fo h0 hacc
    have hf : (loadFinish st).g.metas = (storeSection st).g.metas ∧ (loadFinish st).g.rules = (storeSection st).g.rules := by
      unfold loadFinish
      split
      · exact ⟨rfl, rfl⟩
      · rename_i hl
        have hg : st.gotSection = [] := by
          cases h : st.gotSection with
          | nil => rfl
          | cons => simp [h] at hl
        rcases hacc with ⟨_, e1, _⟩ | ⟨h, _⟩ | ⟨h, _⟩
        · simp [storeSection, e1]
        · exact absurd (hgot hg) h
        · exact absurd (hgot hg) h
    rw [hf.1, hf.2, h1, h2]
    constructor
    · rintro ⟨rfl, rfl⟩
      exact ⟨hgot, by simp [NoRepeat], by simp, ms0, rs0, (h3 _ _ _).2 ⟨[], [], by simp, by simp, .nil⟩, rfl, rfl⟩
    · rintro ⟨_, _, _, ms, rs, h, rfl, rfl⟩
      obtain ⟨ms', rs', rfl, rfl, h'⟩ := (h3 _ _ _).1 h
      cases h'
      simp
  | l :: ls, st, acc, hinv, hacc, M', R' => by
    have hinv1 : LoadInv { st with grammarIn := st.grammarIn ++ l } := ⟨hinv.index, hinv.fresh⟩
    rw [loadLines, groupLines]
    by_cases hc : isCommentLine ct l = true
    · have : loadLine ct fo { st with grammarIn := st.grammarIn ++ l } l = .ok { st with grammarIn := st.grammarIn ++ l } := by
        unfold loadLine; rw [if_pos hc]
      rw [this, if_pos hc]
      exact load_sections h0 ls { st with grammarIn := st.grammarIn ++ l } acc hinv1 hacc M' R'
    · rw [if_neg hc]
      cases hn : sectionName? ct l with
      | some n =>
        have hlne : n ≠ [] := ((sectionName?_iff ct l n).1 hn).1
        have hstep : loadLine ct fo { st with grammarIn := st.grammarIn ++ l } l =
            loadHeader { st with grammarIn := st.grammarIn ++ l } n := by
          unfold loadLine; rw [if_neg hc, hn]
        rw [hstep]
        simp only [List.append_nil]
        obtain ⟨ht1, hm1, hr1, hgot1, hgot2, hnames1, ms0, rs0, hM, hR, hS⟩ := storeSection_acc ct fo h0
          (st := { st with grammarIn := st.grammarIn ++ l }) hacc
        have hi1 := indexOk_storeSection hinv1
        simp only at hgot1 hgot2 hnames1 hM hR hS
        generalize hst1 : storeSection { st with grammarIn := st.grammarIn ++ l } = st1 at *
        have hhead : loadHeader { st with grammarIn := st.grammarIn ++ l } n =
            if (mapFind n st1.g.sectionIndex).isSome then .error .duplicateSection else .ok { st1 with gotSection := n } := by
          unfold loadHeader
          rw [hst1, if_neg]
          rintro ⟨h1, h2⟩
          exact hgot1 h1 h2
        rw [hhead]
        by_cases hdup : (mapFind n st1.g.sectionIndex).isSome = true
        · rw [if_pos hdup]
          rw [hi1.find, hnames1] at hdup
          constructor
          · rintro ⟨_, h, _⟩; cases h
          · rintro ⟨_, hrep, hnames, ms, rs, _⟩
            exfalso
            rw [noRepeat_cons] at hrep
            rcases hdup with h | ⟨h, h'⟩
            · exact hnames (n, (groupLines ct ls).1) (List.mem_cons_self ..) h
            · exact hrep.1 (n, (groupLines ct ls).1) (List.mem_cons_self ..) h h'
        · rw [if_neg hdup]
          have hdup' := hdup
          rw [hi1.find] at hdup'
          have ih := load_sections h0 ls { st1 with gotSection := n } [] ⟨hi1, hdup'⟩ (Or.inl ⟨rfl, ht1, hm1, hr1⟩) M' R'
          simp only [List.nil_append] at ih
          simp only
          rw [ih]
          rw [hnames1] at hdup'
          constructor
          · rintro ⟨_, hrep, hnames, ms, rs, hsec, rfl, rfl⟩
            refine ⟨hgot2, ?_, ?_, ms0 ++ ms, rs0 ++ rs, (hS _ _ _).2 ⟨ms, rs, rfl, rfl, hsec⟩, ?_, ?_⟩
            · rw [noRepeat_cons]
              refine ⟨?_, hrep⟩
              intro g hg hne e
              rcases List.mem_cons.1 hg with rfl | hg
              · exact hdup' (Or.inr ⟨hne, e⟩)
              · exact hnames g hg ((hnames1 _).2 (Or.inr ⟨hne, e⟩))
            · intro g hg
              rcases List.mem_cons.1 hg with rfl | hg
              · exact fun h => hdup' (Or.inl h)
              · exact fun h => hnames g hg ((hnames1 _).2 (Or.inl h))
            · rw [hM]; simp
            · rw [hR]; simp
          · rintro ⟨_, hrep, hnames, ms, rs, hsec, rfl, rfl⟩
            rw [noRepeat_cons] at hrep
            obtain ⟨ms', rs', rfl, rfl, hsec'⟩ := (hS _ _ _).1 hsec
            refine ⟨fun h => absurd h hlne, hrep.2, ?_, ms', rs', hsec', ?_, ?_⟩
            · intro g hg h
              rcases (hnames1 _).1 h with h | ⟨h, h'⟩
              · exact hnames g (List.mem_cons_of_mem _ hg) h
              · exact hrep.1 g (List.mem_cons_of_mem _ hg) h h'
            · rw [hM]; simp
            · rw [hR]; simp
      | none =>
        have hstep : loadLine ct fo { st with grammarIn := st.grammarIn ++ l } l =
            loadData ct fo { st with grammarIn := st.grammarIn ++ l } l := by
          unfold loadLine; rw [if_neg hc, hn]
        rw [hstep]
        unfold loadData
        simp only
        by_cases hgot : st.gotSection = []
        · rw [if_pos (by simp [hgot])]
          constructor
          · rintro ⟨_, h, _⟩; cases h
          · rintro ⟨h, _⟩
            have := h hgot
            simp at this
        · rw [if_neg (by simpa using hgot)]
          have happ : acc ++ l :: (groupLines ct ls).1 = (acc ++ [l]) ++ (groupLines ct ls).1 := by simp
          have hmem : ∀ x, x ∈ acc ++ l :: (groupLines ct ls).1 ↔ x ∈ acc ∨ x = l ∨ x ∈ (groupLines ct ls).1 := by
            intro x; simp
          by_cases hat : '@' ∈ l
          · rw [if_pos hat]
            by_cases hrt : st.ruleType = .ISRULE
            · rw [if_pos hrt]
              constructor
              · rintro ⟨_, h, _⟩; cases h
              · rintro ⟨_, _, _, ms, rs, h, _⟩
                exfalso
                rcases hacc with ⟨_, e, _⟩ | ⟨_, _, _, e, _⟩ | ⟨hne, _, hall, _⟩
                · rw [hrt] at e; cases e
                · rw [hrt] at e; cases e
                · obtain ⟨x, xs, rfl⟩ := List.exists_cons_of_ne_nil hne
                  rcases (sections_cons ct fo h0 _ _ _ _ _).1 h with ⟨h, _⟩ | ⟨_, h, _⟩ | ⟨_, h, _⟩
                  · simp at h
                  · exact hall x (List.mem_cons_self ..) (h x ((hmem x).2 (Or.inl (List.mem_cons_self ..))))
                  · exact h l ((hmem l).2 (Or.inr (Or.inl rfl))) hat
            · rw [if_neg hrt, happ]
              simp only
              refine load_sections h0 ls (if isMetaLine ct l = true then _ else _) (acc ++ [l]) ?_ ?_ M' R' |>.trans ?_
              · split <;> exact ⟨hinv.index, hinv.fresh⟩
              · right; left
                have hall' : ∀ x ∈ acc ++ [l], '@' ∈ x := by
                  intro x hx
                  rcases List.mem_append.1 hx with hx | hx
                  · rcases hacc with ⟨rfl, _⟩ | ⟨_, _, h, _⟩ | ⟨_, _, _, e, _⟩
                    · cases hx
                    · exact h x hx
                    · exact absurd e hrt
                  · rw [List.mem_singleton] at hx; rw [hx]; exact hat
                have hr : st.rules = [] := by
                  rcases hacc with ⟨_, _, _, e⟩ | ⟨_, _, _, _, e, _⟩ | ⟨_, _, _, e, _⟩
                  · exact e
                  · exact e
                  · exact absurd e hrt
                have hm : st.mrules = (acc.filterMap (refsOf? ct)).map (fun r => r.map (fun n => { name := n })) := by
                  rcases hacc with ⟨rfl, _, e, _⟩ | ⟨_, _, _, _, _, e⟩ | ⟨_, _, _, e, _⟩
                  · exact e
                  · exact e
                  · exact absurd e hrt
                refine ⟨by simp, ?_, hall', ?_, ?_, ?_⟩
                · split <;> exact hgot
                · split <;> rfl
                · split <;> exact hr
                · rw [List.filterMap_append, List.map_append, ← hm]
                  unfold refsOf?
                  by_cases hml : isMetaLine ct l = true <;> simp [hml, metaRuleOfLine]
              · have : ∀ (P : LoadState F → Prop) a b, P a → P b → P (if isMetaLine ct l = true then a else b) := by
                  intro P a b ha hb; split <;> assumption
                split <;> exact Iff.rfl
          · rw [if_neg hat]
            by_cases hrt : st.ruleType = .ISMETA
            · rw [if_pos hrt]
              constructor
              · rintro ⟨_, h, _⟩; cases h
              · rintro ⟨_, _, _, ms, rs, h, _⟩
                exfalso
                rcases hacc with ⟨_, e, _⟩ | ⟨hne, _, hall, _⟩ | ⟨_, _, _, e, _⟩
                · rw [hrt] at e; cases e
                · obtain ⟨x, xs, rfl⟩ := List.exists_cons_of_ne_nil hne
                  rcases (sections_cons ct fo h0 _ _ _ _ _).1 h with ⟨h, _⟩ | ⟨_, h, _⟩ | ⟨_, h, _⟩
                  · simp at h
                  · exact hat (h l ((hmem l).2 (Or.inr (Or.inl rfl))))
                  · exact h x ((hmem x).2 (Or.inl (List.mem_cons_self ..))) (hall x (List.mem_cons_self ..))
                · rw [hrt] at e; cases e
            · rw [if_neg hrt]
              have hall' : ∀ x ∈ acc ++ [l], '@' ∉ x := by
                intro x hx
                rcases List.mem_append.1 hx with hx | hx
                · rcases hacc with ⟨rfl, _⟩ | ⟨_, _, _, e, _⟩ | ⟨_, _, h, _⟩
                  · cases hx
                  · exact absurd e hrt
                  · exact h x hx
                · rw [List.mem_singleton] at hx; rw [hx]; exact hat
              have hm : st.mrules = [] := by
                rcases hacc with ⟨_, _, e, _⟩ | ⟨_, _, _, e, _⟩ | ⟨_, _, _, _, e, _⟩
                · exact e
                · exact absurd e hrt
                · exact e
              have hr : acc.map (Rule.ofLine fo) = st.rules.map .ok := by
                rcases hacc with ⟨rfl, _, _, e⟩ | ⟨_, _, _, e, _⟩ | ⟨_, _, _, _, _, e⟩
                · rw [e]; rfl
                · exact absurd e hrt
                · exact e
              rcases Props.C26_rule_line_total fo h0 l with ⟨r, _, hok⟩ | ⟨_, hbad⟩
              · rw [hok, happ]
                simp only
                refine load_sections h0 ls { st with grammarIn := st.grammarIn ++ l, ruleType := .ISRULE, rules := st.rules ++ [r] } (acc ++ [l]) ⟨hinv.index, hinv.fresh⟩ ?_ M' R'
                right; right
                exact ⟨by simp, hgot, hall', rfl, hm, by simp [hr, hok]⟩
              · rw [hbad]
                constructor
                · rintro ⟨_, h, _⟩; cases h
                · rintro ⟨_, _, _, ms, rs, h, _⟩
                  exfalso
                  rcases (sections_cons ct fo h0 _ _ _ _ _).1 h with ⟨h, _⟩ | ⟨_, h, _⟩ | ⟨_, _, rr, _, h, _⟩
                  · simp at h
                  · exact hat (h l ((hmem l).2 (Or.inr (Or.inl rfl))))
                  · have : Rule.ofLine fo l ∈ rr.map .ok := by
                      rw [← h]
                      exact List.mem_map.2 ⟨l, (hmem l).2 (Or.inr (Or.inl rfl)), rfl⟩
                    rw [hbad] at this
                    obtain ⟨_, _, h⟩ := List.mem_map.1 this
                    cases h

end AS
