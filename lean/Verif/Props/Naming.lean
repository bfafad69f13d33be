import Verif.Spec.Naming
import Verif.Props.Together
import Verif.Props.Mirror
/-
Property C76 for texts: other names for the sections, in headers and in references. With C112: any two grammars in one.
-/
namespace AS.Props
open AS AS.Wrapper
variable {F D : Type} {ct : CharTables} {fo : FloatOps F} {ρ : Str → Str}

/-- Groups of lines, renamed. -/
inductive RenamedGroups (ct : CharTables) (ρ : Str → Str) : List (Str × List Str) → List (Str × List Str) → Prop
  | nil : RenamedGroups ct ρ [] []
  | cons {n : Str} {ls ls' : List Str} {gs gs' : List (Str × List Str)} : RenamedData ct ρ ls ls' → RenamedGroups ct ρ gs gs' →
      RenamedGroups ct ρ ((n, ls) :: gs) ((ρ n, ls') :: gs')

theorem groupLines_data {l : Str} (h : DataLine ct l) (ls : List Str) :
    groupLines ct (l :: ls) = (l :: (groupLines ct ls).1, (groupLines ct ls).2) := by
  have h1 : isCommentLine ct l = false := by
    cases hc : isCommentLine ct l with
    | false => rfl
    | true => exact absurd ((isCommentLine_iff ct l).1 hc) h.1
  have h2 : sectionName? ct l = none := by
    cases hs : sectionName? ct l with
    | none => rfl
    | some n => exact absurd ((sectionName?_iff ct l n).1 hs) (h.2 n)
  rw [groupLines, h1, h2]
  simp

theorem groupLines_comment {l : Str} (h : IsComment ct l) (ls : List Str) : groupLines ct (l :: ls) = groupLines ct ls := by
  rw [groupLines, (isCommentLine_iff ct l).2 h]
  simp

theorem refs_first {l : Str} {ns : List Str} (h : IsRefs ct l ns) : ∃ rest, l.dropWhile ct.isSpace = '@' :: rest := by
  obtain ⟨h1, _, gaps, b, h3, h4, _, rfl⟩ := h
  cases ns with
  | nil => exact absurd rfl h1
  | cons n ns =>
    cases gaps with
    | nil => simp at h3
    | cons g gaps =>
      refine ⟨n ++ ((List.zipWith (fun g n => g ++ '@' :: n) gaps ns).flatten ++ b), ?_⟩
      have hg : Blank ct g := h4 g List.mem_cons_self
      simp only [List.zipWith_cons_cons, List.flatten_cons, List.append_assoc, List.cons_append]
      rw [List.dropWhile_append_of_pos hg, List.dropWhile_cons, ct.space_at]
      simp

theorem refs_data {l : Str} {ns : List Str} (h : IsRefs ct l ns) : DataLine ct l := by
  obtain ⟨rest, e⟩ := refs_first h
  constructor
  · intro hc
    have := (isCommentLine_iff ct l).2 hc
    unfold isCommentLine at this
    rw [e] at this
    revert this
    simp
  · intro n hn
    have := (sectionName?_iff ct l n).2 hn
    unfold sectionName? at this
    rw [e] at this
    simp at this

theorem groupLines_renamed {ls ls' : List Str} (h : RenamedLines ct ρ ls ls') :
    RenamedData ct ρ (groupLines ct ls).1 (groupLines ct ls').1 ∧ RenamedGroups ct ρ (groupLines ct ls).2 (groupLines ct ls').2 := by
  induction h with
  | nil => exact ⟨.nil, .nil⟩
  | comment h1 h2 _ ih => rw [groupLines_comment h1, groupLines_comment h2]; exact ih
  | header h1 h2 _ ih =>
    rw [groupLines_header ct h1, groupLines_header ct h2]
    exact ⟨.nil, .cons ih.1 ih.2⟩
  | refs h3 h4 _ ih =>
    rw [groupLines_data (refs_data h3), groupLines_data (refs_data h4)]
    exact ⟨.refs h3 h4 ih.1, ih.2⟩
  | other h1 h2 _ ih =>
    rw [groupLines_data h1, groupLines_data h1]
    exact ⟨.other h2 ih.1, ih.2⟩

theorem refs_at {l : Str} {ns : List Str} (h : IsRefs ct l ns) : '@' ∈ l := by
  obtain ⟨h1, _, gaps, b, h3, _, _, rfl⟩ := h
  cases ns with
  | nil => exact absurd rfl h1
  | cons n ns =>
    cases gaps with
    | nil => simp at h3
    | cons g gaps => simp

theorem renamedData_at {ls ls' : List Str} (h : RenamedData ct ρ ls ls') :
    (ls = [] ↔ ls' = []) ∧ ((∀ l ∈ ls, '@' ∈ l) → ∀ l ∈ ls', '@' ∈ l) ∧ ((∀ l ∈ ls, '@' ∉ l) → ls' = ls) := by
  induction h with
  | nil => simp
  | refs h1 h2 _ ih =>
    refine ⟨by simp, ?_, ?_⟩
    · intro h l hl
      rcases List.mem_cons.1 hl with rfl | hl
      · exact refs_at h2
      · exact ih.2.1 (fun x hx => h x (List.mem_cons_of_mem _ hx)) l hl
    · intro h
      exact absurd (refs_at h1) (h _ List.mem_cons_self)
  | other _ _ ih =>
    refine ⟨by simp, ?_, ?_⟩
    · intro h l hl
      rcases List.mem_cons.1 hl with rfl | hl
      · exact h _ List.mem_cons_self
      · exact ih.2.1 (fun x hx => h x (List.mem_cons_of_mem _ hx)) l hl
    · intro h
      rw [ih.2.2 (fun x hx => h x (List.mem_cons_of_mem _ hx))]

theorem renamedData_metas {ls ls' : List Str} (h : RenamedData ct ρ ls ls') : ∀ mm, MetasMean ct ls mm →
    MetasMean ct ls' (mm.map (·.map ρ)) := by
  induction h with
  | nil => intro mm h; cases h; exact .nil
  | @refs l l' ns _ _ h1 h2 _ ih =>
    intro mm h
    cases h with
    | cons k1 k2 =>
      have e := (refsOf?_some ct _ _).2 k1
      rw [(refsOf?_some ct _ _).2 h1, Option.some.injEq] at e
      subst e
      exact .cons h2 (ih _ k2)
    | skip k1 k2 => exact absurd h1 (k1 _)
  | other h1 _ ih =>
    intro mm h
    cases h with
    | cons k1 k2 => exact absurd k1 (h1 _)
    | skip k1 k2 => exact .skip h1 (ih _ k2)

theorem sections_renamed {gs gs' : List (Str × List Str)} (h : RenamedGroups ct ρ gs gs') :
    ∀ {ms : List (Str × List (List Str))} {rs : List (Str × List (Rule F))}, Sections ct fo gs ms rs →
    Sections ct fo gs' (ms.map (fun s => (ρ s.1, s.2.map (·.map ρ)))) (rs.map (fun s => (ρ s.1, s.2))) := by
  induction h with
  | nil => intro ms rs h; cases h; exact .nil
  | cons h1 _ ih =>
    intro ms rs h
    obtain ⟨k1, k2, k3⟩ := renamedData_at h1
    cases h with
    | empty h =>
      have := k1.1 rfl
      subst this
      exact .empty (ih h)
    | metas a b c d => exact .metas (fun e => a (k1.2 e)) (k2 b) (renamedData_metas h1 _ c) (ih d)
    | rules a b c d =>
      have := k3 b
      subst this
      exact .rules a b c (ih d)

theorem renamedGroups_names {gs gs' : List (Str × List Str)} (h : RenamedGroups ct ρ gs gs') :
    ∀ g' ∈ gs', ∃ g ∈ gs, g'.1 = ρ g.1 ∧ (g'.2 = [] ↔ g.2 = []) := by
  induction h with
  | nil => simp
  | @cons n ls ls' gs gs' h1 _ ih =>
    intro g' hg'
    rcases List.mem_cons.1 hg' with rfl | hg'
    · exact ⟨(n, ls), List.mem_cons_self, rfl, (renamedData_at h1).1.symm⟩
    · obtain ⟨g, hg, e⟩ := ih g' hg'
      exact ⟨g, List.mem_cons_of_mem _ hg, e⟩

theorem noRepeat_renamed {gs gs' : List (Str × List Str)} (h : RenamedGroups ct ρ gs gs')
    (hinj : ∀ g ∈ gs, ∀ g' ∈ gs, ρ g.1 = ρ g'.1 → g.1 = g'.1) (hn : NoRepeat gs) : NoRepeat gs' := by
  induction h with
  | nil => exact hn
  | @cons n ls ls' gs gs' h1 h2 ih =>
    obtain ⟨n1, n2⟩ := List.pairwise_cons.1 hn
    refine List.pairwise_cons.2 ⟨?_, ih (fun g hg g' hg' => hinj g (List.mem_cons_of_mem _ hg) g' (List.mem_cons_of_mem _ hg')) n2⟩
    intro g' hg' hne e
    obtain ⟨g, hg, e1, _⟩ := renamedGroups_names h2 g' hg'
    have := hinj g (List.mem_cons_of_mem _ hg) (n, ls) List.mem_cons_self (by rw [← e1, e])
    exact n1 g hg (fun e => hne ((renamedData_at h1).1.1 e)) this

/-- A grammar text that is accepted is accepted with other names for its sections, as long as different sections get different
names and ADDRESS keeps its name, and the grammar is the same with the sections renamed. -/
theorem C76_text (ct : CharTables) (fo : FloatOps F) (h0 : fo.le0 fo.zero = true) {ρ : Str → Str} {ls ls' : List Str}
    (h : RenamedLines ct ρ ls ls') (hρ : ρ c!"ADDRESS" = c!"ADDRESS")
    (hinj : ∀ l ∈ ls, ∀ l' ∈ ls, ∀ n n', IsHeader ct l n → IsHeader ct l' n' → ρ n = ρ n' → n = n')
    (hn : ∀ l ∈ ls, '\n' ∉ l) (hn' : ∀ l ∈ ls', '\n' ∉ l) (hb : NoBom (unlines ls)) (hb' : NoBom (unlines ls')) (g : Grammar F)
    (hg : Grammar.initialize ct fo (unlines ls) = .ok g) :
    ∃ g', Grammar.initialize ct fo (unlines ls') = .ok g' ∧ Renamed ρ g g' := by
  obtain ⟨⟨gs, k1, k2, k3⟩, hd, hr⟩ := (C32_text_meaning ct fo h0 _ hn hb _ _).1 ⟨g, hg, rfl, rfl⟩
  obtain ⟨r1, r2⟩ := groupLines_renamed h
  rw [groups_iff] at k1
  have hpre : (groupLines ct ls').1 = [] := (renamedData_at r1).1.1 (by rw [k1])
  have hgs : (groupLines ct ls).2 = gs := by rw [k1]
  rw [hgs] at r2
  have names : ∀ n, (n ∈ g.metaNames.map (·.1) → ρ n ∈ (g.metaNames.map (fun s => (ρ s.1, s.2.map (·.map ρ)))).map (·.1)) ∧
      (n ∈ g.ruleSections.map (·.1) → ρ n ∈ (g.ruleSections.map (fun s => (ρ s.1, s.2))).map (·.1)) := by
    intro n
    constructor
    · intro hn
      obtain ⟨s, hs, rfl⟩ := List.mem_map.1 hn
      exact List.mem_map.2 ⟨_, List.mem_map.2 ⟨s, hs, rfl⟩, rfl⟩
    · intro hn
      obtain ⟨s, hs, rfl⟩ := List.mem_map.1 hn
      exact List.mem_map.2 ⟨_, List.mem_map.2 ⟨s, hs, rfl⟩, rfl⟩
  obtain ⟨g', hg', e1, e2⟩ := (C32_text_meaning ct fo h0 _ hn' hb' _ _).2
    ⟨⟨_, (groups_iff ct _ _ _).2 (Prod.ext hpre rfl), noRepeat_renamed r2 (by
        intro x hx y hy e
        obtain ⟨⟨lx, hlx, hxh⟩, _⟩ := (groupLines_lines ct ls).2 x (by rw [hgs]; exact hx)
        obtain ⟨⟨ly, hly, hyh⟩, _⟩ := (groupLines_lines ct ls).2 y (by rw [hgs]; exact hy)
        exact hinj lx hlx ly hly _ _ hxh hyh e) k2, sections_renamed r2 k3⟩, by
      rintro ⟨m', hm', refs', hr', n', hnn', c1, c2⟩
      obtain ⟨m, hm, rfl⟩ := List.mem_map.1 hm'
      obtain ⟨refs, hr, rfl⟩ := List.mem_map.1 hr'
      obtain ⟨n, hnn, rfl⟩ := List.mem_map.1 hnn'
      exact hd ⟨m, hm, refs, hr, n, hnn, fun c => c1 ((names n).1 c), fun c => c2 ((names n).2 c)⟩, by
      rcases hr with hr | hr
      · left; have := (names _).1 hr; rwa [hρ] at this
      · right; have := (names _).2 hr; rwa [hρ] at this⟩
  exact ⟨g', hg', e1, e2⟩

/-- So an address gives the same with either text. -/
theorem C76_same_with_text (env : Env F D) (h0 : env.fo.le0 env.fo.zero = true) {ρ : Str → Str} {ls ls' : List Str}
    (h : RenamedLines env.u.toCharTables ρ ls ls') (hρ : ρ c!"ADDRESS" = c!"ADDRESS")
    (hinj : ∀ l ∈ ls, ∀ l' ∈ ls, ∀ n n', IsHeader env.u.toCharTables l n → IsHeader env.u.toCharTables l' n' → ρ n = ρ n' → n = n')
    (hn : ∀ l ∈ ls, '\n' ∉ l) (hn' : ∀ l ∈ ls', '\n' ∉ l) (hb : NoBom (unlines ls)) (hb' : NoBom (unlines ls')) (g : Grammar F)
    (hg : Grammar.initialize env.u.toCharTables env.fo (unlines ls) = .ok g) (address lexicon locale filter : Str) :
    stdStandardize env address (unlines ls') lexicon locale filter = stdStandardize env address (unlines ls) lexicon locale filter ∧
    stdMatchAddress env address (unlines ls') lexicon locale filter = stdMatchAddress env address (unlines ls) lexicon locale filter := by
  obtain ⟨g', hg', hren⟩ := C76_text _ env.fo h0 h hρ hinj hn hn' hb hb' g hg
  exact C76_same_address env h0 _ _ g g' hg hg' ρ hρ hren address lexicon locale filter

/-! ### Any two grammars in one -/

/-- A line with other names. -/
def renameLine (ct : CharTables) (ρ : Str → Str) (l : Str) : Str :=
  match sectionName? ct l with
  | some n => '[' :: (ρ n ++ [']'])
  | none =>
    match refsOf? ct l with
    | some ns => ns.flatMap (fun n => '@' :: ρ n)
    | none => l

/-- The names `ρ` gives consist of the characters of names. -/
def KeepsWords (ct : CharTables) (ρ : Str → Str) : Prop :=
  ∀ n, n ≠ [] → ρ n ≠ [] ∧ ((∀ c ∈ n, (ct.isWord c || c == '_') = true) → ∀ c ∈ ρ n, (ct.isWord c || c == '_') = true)

theorem isRefs_flat {ns : List Str} (h1 : ns ≠ []) (h2 : ∀ n ∈ ns, n ≠ [] ∧ ∀ c ∈ n, (ct.isWord c || c == '_') = true) :
    IsRefs ct (ns.flatMap (fun n => '@' :: n)) ns := by
  refine ⟨h1, h2, List.replicate ns.length [], [], by simp, ?_, by simp [Blank], ?_⟩
  · intro g hg
    rw [(List.mem_replicate.1 hg).2]
    simp [Blank]
  · clear h1 h2
    rw [List.append_nil]
    induction ns with
    | nil => rfl
    | cons n ns ih => simp [List.replicate_succ, ih]

theorem renameLine_header (hk : KeepsWords ct ρ) {l n : Str} (h : IsHeader ct l n) : IsHeader ct (renameLine ct ρ l) (ρ n) := by
  unfold renameLine
  rw [(sectionName?_iff ct l n).2 h]
  exact ⟨(hk n h.1).1, [], [], by simp, by simp [Blank], by simp [Blank]⟩

theorem renameLine_refs (hk : KeepsWords ct ρ) {l : Str} {ns : List Str} (h : IsRefs ct l ns) :
    IsRefs ct (renameLine ct ρ l) (ns.map ρ) := by
  unfold renameLine
  have hno : sectionName? ct l = none := by
    cases hs : sectionName? ct l with
    | none => rfl
    | some n => exact absurd ((sectionName?_iff ct l n).1 hs) ((refs_data h).2 n)
  rw [hno, (refsOf?_some ct l ns).2 h]
  have := isRefs_flat (ct := ct) (ns := ns.map ρ) (by simpa using h.1) (by
    intro n' hn'
    obtain ⟨n, hn, rfl⟩ := List.mem_map.1 hn'
    obtain ⟨k1, k2⟩ := h.2.1 n hn
    exact ⟨(hk n k1).1, (hk n k1).2 k2⟩)
  rw [List.flatMap_map] at this
  exact this

theorem renameLine_other {l : Str} (h1 : ∀ n, ¬ IsHeader ct l n) (h2 : ∀ ns, ¬ IsRefs ct l ns) : renameLine ct ρ l = l := by
  unfold renameLine
  have hno : sectionName? ct l = none := by
    cases hs : sectionName? ct l with
    | none => rfl
    | some n => exact absurd ((sectionName?_iff ct l n).1 hs) (h1 n)
  rw [hno, (refsOf?_none ct l).2 h2]

theorem renamed_map (hk : KeepsWords ct ρ) : ∀ ls : List Str, RenamedLines ct ρ ls (ls.map (renameLine ct ρ))
  | [] => .nil
  | l :: ls => by
    have ih := renamed_map hk ls
    rw [List.map_cons]
    by_cases hh : ∃ n, IsHeader ct l n
    · obtain ⟨n, hh⟩ := hh
      exact .header hh (renameLine_header hk hh) ih
    · by_cases hr : ∃ ns, IsRefs ct l ns
      · obtain ⟨ns, hr⟩ := hr
        exact .refs hr (renameLine_refs hk hr) ih
      · have e := renameLine_other (ρ := ρ) (fun n hn => hh ⟨n, hn⟩) (fun ns hn => hr ⟨ns, hn⟩)
        rw [e]
        by_cases hc : IsComment ct l
        · exact .comment hc hc ih
        · exact .other ⟨hc, fun n hn => hh ⟨n, hn⟩⟩ (fun ns hn => hr ⟨ns, hn⟩) ih

theorem renameLine_lines (hk : KeepsWords ct ρ) (hnl : ∀ n, '\n' ∉ n → '\n' ∉ ρ n) {l : Str} (h : '\n' ∉ l) : '\n' ∉ renameLine ct ρ l := by
  by_cases hh : ∃ n, IsHeader ct l n
  · obtain ⟨n, hh⟩ := hh
    unfold renameLine
    rw [(sectionName?_iff ct l n).2 hh]
    obtain ⟨_, a, b, rfl, _⟩ := hh
    have := hnl n (fun hc => h (by simp [hc]))
    simp [this]
  · by_cases hr : ∃ ns, IsRefs ct l ns
    · obtain ⟨ns, hr⟩ := hr
      intro hc
      have hr' := renameLine_refs hk hr
      obtain ⟨_, h2, gaps, b, h3, h4, h5, e⟩ := hr'
      have e' : renameLine ct ρ l = ns.flatMap (fun n => '@' :: ρ n) := by
        unfold renameLine
        have hno : sectionName? ct l = none := by
          cases hs : sectionName? ct l with
          | none => rfl
          | some n => exact absurd ((sectionName?_iff ct l n).1 hs) ((refs_data hr).2 n)
        rw [hno, (refsOf?_some ct l ns).2 hr]
      rw [e'] at hc
      obtain ⟨n, hn, hc⟩ := List.mem_flatMap.1 hc
      rcases List.mem_cons.1 hc with hc | hc
      · revert hc; decide
      · have hw := (h2 (ρ n) (List.mem_map.2 ⟨n, hn, rfl⟩)).2 '\n' hc
        have hs : ct.isSpace '\n' = true := ct.cspace_space '\n' (by decide)
        rw [ct.space_not_word '\n' hs] at hw
        revert hw; decide
    · rw [renameLine_other (fun n hn => hh ⟨n, hn⟩) (fun ns hn => hr ⟨ns, hn⟩)]
      exact h

theorem refs_unique {l : Str} {ns ns' : List Str} (h : IsRefs ct l ns) (h' : IsRefs ct l ns') : ns' = ns := by
  have e := (refsOf?_some ct l ns).2 h
  rw [(refsOf?_some ct l ns').2 h', Option.some.injEq] at e
  exact e

/-- Such a text with other names. -/
theorem oneText_renamed (h0 : fo.le0 fo.zero = true) (hk : KeepsWords ct ρ) (hnl : ∀ n, '\n' ∉ n → '\n' ∉ ρ n)
    (hρ : ∀ n, ρ n = c!"ADDRESS" ↔ n = c!"ADDRESS") (hinj : ∀ n n', ρ n = ρ n' → n = n') {header : Str} {body rest : List Str}
    {g : Grammar F} (h : OneText ct fo header body rest g) :
    ∃ g', OneText ct fo (renameLine ct ρ header) (body.map (renameLine ct ρ)) (rest.map (renameLine ct ρ)) g' ∧ Renamed ρ g g' := by
  have hlines : ∀ l ∈ renameLine ct ρ header :: (body.map (renameLine ct ρ) ++ rest.map (renameLine ct ρ)), '\n' ∉ l := by
    intro l hl
    rw [← List.map_append, ← List.map_cons] at hl
    obtain ⟨x, hx, rfl⟩ := List.mem_map.1 hl
    exact renameLine_lines hk hnl (h.lines x hx)
  have hhead := renameLine_header hk h.root.isHeader
  rw [(hρ _).2 rfl] at hhead
  have hbom : NoBom (unlines (renameLine ct ρ header :: (body.map (renameLine ct ρ) ++ rest.map (renameLine ct ρ)))) := by
    have : renameLine ct ρ header = c!"[ADDRESS]" := by
      unfold renameLine
      rw [(sectionName?_iff ct _ _).2 h.root.isHeader]
      simp only
      rw [(hρ _).2 rfl]
      rfl
    rw [this]
    unfold NoBom unlines
    simp
  have hren := renamed_map hk (header :: (body ++ rest))
  rw [List.map_cons, List.map_append] at hren
  obtain ⟨g', hg', hR⟩ := C76_text ct fo h0 hren ((hρ _).2 rfl) (fun _ _ _ _ n n' _ _ e => hinj n n' e) h.lines hlines h.bom hbom g h.accepted
  refine ⟨g', ⟨⟨hhead, ?_, ?_, ?_, ?_⟩, hlines, hbom, ?_, hg'⟩, hR⟩
  · intro l' hl' n hn
    obtain ⟨l, hl, rfl⟩ := List.mem_map.1 hl'
    by_cases hr : ∃ ns, IsRefs ct l ns
    · obtain ⟨ns, hr⟩ := hr
      exact (refs_data (renameLine_refs hk hr)).2 n hn
    · rw [renameLine_other (h.root.below l hl) (fun ns hn => hr ⟨ns, hn⟩)] at hn
      exact h.root.below l hl n hn
  · intro l' hl' hc
    obtain ⟨l, hl, rfl⟩ := List.mem_map.1 hl'
    by_cases hr : ∃ ns, IsRefs ct l ns
    · obtain ⟨ns, hr⟩ := hr
      exact refs_at (renameLine_refs hk hr)
    · rw [renameLine_other (h.root.below l hl) (fun ns hn => hr ⟨ns, hn⟩)] at hc ⊢
      exact h.root.refs l hl hc
  · obtain ⟨l, hl, hc⟩ := h.root.inhabited
    refine ⟨renameLine ct ρ l, List.mem_map.2 ⟨l, hl, rfl⟩, ?_⟩
    by_cases hr : ∃ ns, IsRefs ct l ns
    · obtain ⟨ns, hr⟩ := hr
      exact (refs_data (renameLine_refs hk hr)).1
    · rw [renameLine_other (h.root.below l hl) (fun ns hn => hr ⟨ns, hn⟩)]
      exact hc
  · rcases h.root.sections with e | ⟨x, more, n, e, hx⟩
    · left; rw [e]; rfl
    · right; rw [e]; exact ⟨_, _, _, rfl, renameLine_header hk hx⟩
  · intro l' hl' ns' hns' hc
    rw [← List.map_append, ← List.map_cons] at hl'
    obtain ⟨l, hl, rfl⟩ := List.mem_map.1 hl'
    by_cases hh : ∃ n, IsHeader ct l n
    · obtain ⟨n, hh⟩ := hh
      exact (refs_data hns').2 _ (renameLine_header hk hh)
    · by_cases hr : ∃ ns, IsRefs ct l ns
      · obtain ⟨ns, hr⟩ := hr
        rw [refs_unique (renameLine_refs hk hr) hns'] at hc
        obtain ⟨n, hn, e⟩ := List.mem_map.1 hc
        rw [hρ] at e
        exact h.free l hl ns hr (e ▸ hn)
      · rw [renameLine_other (fun n hn => hh ⟨n, hn⟩) (fun ns hn => hr ⟨ns, hn⟩)] at hns'
        exact hr ⟨_, hns'⟩

/-- Names made longer, ADDRESS apart. -/
def longer (k : Nat) (n : Str) : Str := if n = c!"ADDRESS" then n else n ++ List.replicate (k + 1) '_'

theorem longer_address (k : Nat) (n : Str) : longer k n = c!"ADDRESS" ↔ n = c!"ADDRESS" := by
  unfold longer
  constructor
  · intro h
    split at h
    · exact h
    · have := congrArg List.getLast? h
      simp [List.getLast?_append, List.getLast?_replicate] at this
  · intro h; rw [if_pos h]; exact h

theorem longer_inj (k : Nat) (n n' : Str) (h : longer k n = longer k n') : n = n' := by
  by_cases h1 : n = c!"ADDRESS"
  · have : longer k n = c!"ADDRESS" := (longer_address k n).2 h1
    rw [h, longer_address] at this
    rw [h1, this]
  · by_cases h2 : n' = c!"ADDRESS"
    · have : longer k n' = c!"ADDRESS" := (longer_address k n').2 h2
      rw [← h, longer_address] at this
      exact absurd this h1
    · unfold longer at h
      rw [if_neg h1, if_neg h2] at h
      exact List.append_cancel_right h

theorem longer_words (k : Nat) : KeepsWords ct (longer k) := by
  intro n hn
  unfold longer
  split
  · exact ⟨hn, id⟩
  · refine ⟨by simp [hn], ?_⟩
    intro hw c hc
    rcases List.mem_append.1 hc with hc | hc
    · exact hw c hc
    · rw [(List.mem_replicate.1 hc).2]
      simp

theorem longer_lines (k : Nat) (n : Str) (h : '\n' ∉ n) : '\n' ∉ longer k n := by
  unfold longer
  split
  · exact h
  · intro hc
    rcases List.mem_append.1 hc with hc | hc
    · exact h hc
    · have := (List.mem_replicate.1 hc).2
      revert this; decide

/-- A header begins a group. -/
theorem groupLines_named {h n : Str} (hh : IsHeader ct h n) : ∀ {ls : List Str}, h ∈ ls → ∃ g ∈ (groupLines ct ls).2, g.1 = n
  | x :: ls, hm => by
    rcases List.mem_cons.1 hm with rfl | hm
    · rw [groupLines_header ct hh]
      exact ⟨_, List.mem_cons_self, rfl⟩
    · obtain ⟨g, hg, e⟩ := groupLines_named hh hm
      refine ⟨g, ?_, e⟩
      rw [groupLines]
      split
      · exact hg
      · cases sectionName? ct x with
        | none => exact hg
        | some m => exact List.mem_cons_of_mem _ hg

/-- No second section ADDRESS. -/
theorem oneText_apart (h0 : fo.le0 fo.zero = true) {header : Str} {body rest : List Str} {g : Grammar F}
    (h : OneText ct fo header body rest g) : ∀ l ∈ rest, ¬ IsHeader ct l c!"ADDRESS" := by
  intro l hl hh
  obtain ⟨m, _, _⟩ := (C32_text_meaning ct fo h0 _ h.lines h.bom _ _).1 ⟨g, h.accepted, rfl, rfl⟩
  obtain ⟨mm, more, _, _, _, a4, _⟩ := rootFirst_means h.root m
  obtain ⟨x, hx, e⟩ := groupLines_named hh hl
  exact a4 x hx e

/-- The headers of a renamed text. -/
theorem renameLine_header_inv (hk : KeepsWords ct ρ) {l n : Str} (h : IsHeader ct (renameLine ct ρ l) n) :
    ∃ m, IsHeader ct l m ∧ n = ρ m := by
  by_cases hh : ∃ m, IsHeader ct l m
  · obtain ⟨m, hh⟩ := hh
    have := (sectionName?_iff ct _ _).2 (renameLine_header hk hh)
    rw [(sectionName?_iff ct _ _).2 h, Option.some.injEq] at this
    exact ⟨m, hh, this⟩
  · by_cases hr : ∃ ns, IsRefs ct l ns
    · obtain ⟨ns, hr⟩ := hr
      exact absurd h ((refs_data (renameLine_refs hk hr)).2 n)
    · rw [renameLine_other (fun n hn => hh ⟨n, hn⟩) (fun ns hn => hr ⟨ns, hn⟩)] at h
      exact absurd ⟨n, h⟩ hh

theorem length_le_total {l : Str} : ∀ {ls : List Str}, l ∈ ls → l.length ≤ (ls.map List.length).sum
  | x :: ls, hm => by
    rw [List.map_cons, List.sum_cons]
    rcases List.mem_cons.1 hm with rfl | hm
    · omega
    · have := length_le_total hm
      omega

/-- Any two grammars can be put together: for any two texts as in C112, whatever the names of their sections, there is a text
with which every address gives what it gives with one of the two, an address exactly if one of the two gives one, and with
which the matches listed are those of both. -/
theorem C112_any_two (env : Env F D) {nan : F → Prop} (nl : NanLaws env.fo nan) (signs : SignLaws env.fo)
    (h0 : env.fo.le0 env.fo.zero = true) (hsort : SortContract env.sort) {headerA headerB : Str} {bodyA restA bodyB restB : List Str}
    {a b : Grammar F} (hA : OneText env.u.toCharTables env.fo headerA bodyA restA a)
    (hB : OneText env.u.toCharTables env.fo headerB bodyB restB b) :
    ∃ text : Str, (∃ g, Grammar.initialize env.u.toCharTables env.fo text = .ok g) ∧ ∀ address lexicon locale filter : Str,
      let both := stdStandardize env address text lexicon locale filter
      let one := stdStandardize env address (unlines (headerA :: (bodyA ++ restA))) lexicon locale filter
      let other := stdStandardize env address (unlines (headerB :: (bodyB ++ restB))) lexicon locale filter
      (both = one ∨ both = other) ∧
      ((∃ x, both = some ⟨some x, none⟩) ↔ (∃ x, one = some ⟨some x, none⟩) ∨ ∃ x, other = some ⟨some x, none⟩) ∧
      ∀ (rows rowsA rowsB : List (MatchRow D)) (e eA eB : Option Str),
        stdMatchAddress env address text lexicon locale filter = some ⟨some rows, e⟩ →
        stdMatchAddress env address (unlines (headerA :: (bodyA ++ restA))) lexicon locale filter = some ⟨some rowsA, eA⟩ →
        stdMatchAddress env address (unlines (headerB :: (bodyB ++ restB))) lexicon locale filter = some ⟨some rowsB, eB⟩ →
        ∃ xs ys : List (MatchRow D), (∀ row ∈ xs ++ ys, row.tokens ≠ c!"Failed to match to grammar!") ∧
          rowsA.Perm (orFailed env.dops xs) ∧ rowsB.Perm (orFailed env.dops ys) ∧ rows.Perm (orFailed env.dops (xs ++ ys)) := by
  let k := (restA.map List.length).sum
  obtain ⟨b', hB', hR⟩ := oneText_renamed (ρ := longer k) h0 (longer_words k) (longer_lines k) (longer_address k) (longer_inj k) hB
  have two : TwoTexts env.u.toCharTables env.fo headerA bodyA restA (renameLine env.u.toCharTables (longer k) headerB)
      (bodyB.map (renameLine env.u.toCharTables (longer k))) (restB.map (renameLine env.u.toCharTables (longer k))) a b' := by
    refine ⟨hA, hB', ?_⟩
    intro h hh h' hh' n hn hn'
    obtain ⟨l, hl, rfl⟩ := List.mem_map.1 hh'
    have hlen : n.length ≤ k := by
      obtain ⟨_, x, y, e, _⟩ := hn
      rw [e] at hh
      have := length_le_total hh
      simp only [List.length_append, List.length_cons] at this
      show n.length ≤ (restA.map List.length).sum
      omega
    obtain ⟨m, hm, rfl⟩ := renameLine_header_inv (longer_words k) hn'
    have hne : m ≠ c!"ADDRESS" := fun e => oneText_apart h0 hB l hl (e ▸ hm)
    unfold longer at hlen
    rw [if_neg hne, List.length_append, List.length_replicate] at hlen
    omega
  obtain ⟨g, hg, _⟩ := C112_text _ env.fo h0 two
  refine ⟨_, ⟨g, hg⟩, ?_⟩
  intro address lexicon locale filter
  have hsame := C76_same_address env h0 _ _ b b' hB.accepted hB'.accepted (longer k) ((longer_address k _).2 rfl) hR address lexicon locale filter
  have h1 := C112_address env nl signs h0 two address lexicon locale filter
  simp only at h1 ⊢
  rw [hsame.1] at h1
  refine ⟨h1.1, h1.2, ?_⟩
  intro rows rowsA rowsB e eA eB k1 k2 k3
  rw [← hsame.2] at k3
  exact C112_rows env hsort h0 two address lexicon locale filter rows rowsA rowsB e eA eB k1 k2 k3

/-- A text whose only section besides ADDRESS is called as one of the other text's. -/
def sameBody : List Str := [c!"@T"]
def sameRest : List Str := [c!"[T]", c!"NUMBER WORD -> HOUSE STREET -> 0.4", c!"WORD -> STREET -> 0.5"]

/-- Put together as they are the two are refused; with another name for the section they are not. -/
example : NanLaws exEnv.fo (fun _ => False) ∧ SignLaws exEnv.fo ∧ exEnv.fo.le0 exEnv.fo.zero = true ∧ SortContract exEnv.sort ∧
    (∃ a, OneText exEnv.u.toCharTables exEnv.fo c!"[ADDRESS]" townBody townRest a) ∧
    (∃ b, OneText exEnv.u.toCharTables exEnv.fo c!"[ADDRESS]" sameBody sameRest b) ∧
    (Grammar.initialize exEnv.u.toCharTables exEnv.fo (bothTexts c!"[ADDRESS]" townBody townRest sameBody sameRest)).isOk = false ∧
    (Grammar.initialize exEnv.u.toCharTables exEnv.fo (bothTexts c!"[ADDRESS]" townBody townRest
      (sameBody.map (renameLine exEnv.u.toCharTables (longer 0))) (sameRest.map (renameLine exEnv.u.toCharTables (longer 0))))).isOk = true := by
  refine ⟨ratOps_mono.toNanLaws, ratOps_signs, by decide, ?_, ?_, ?_, by decide +kernel, by decide +kernel⟩
  · exact insertionSort_contract
  · obtain ⟨a, b, h⟩ := twoTexts_example
    exact ⟨a, h.first⟩
  · obtain ⟨b, hb, -⟩ := exists_ok (P := fun g : Grammar Rat => g.ruleSections ≠ [])
      (r := Grammar.initialize exEnv.u.toCharTables exEnv.fo (unlines (c!"[ADDRESS]" :: (sameBody ++ sameRest)))) (by decide +kernel)
    exact ⟨b, rootFirst_of (by decide +kernel), by decide, by unfold NoBom; decide, free_of (by decide +kernel), hb⟩

/-- A comment, a header, a list of references and a rule, with other names. -/
example : let ρ : Str → Str := fun n => if n = c!"T" then c!"TOWN" else n
    RenamedLines exEnv.u.toCharTables ρ (c!"[ADDRESS]" :: c!"# one" :: c!"@T" :: sameRest)
      (c!"[ADDRESS]" :: c!"" :: c!" @TOWN" :: c!"[TOWN] " :: sameRest.tail) ∧
    (Grammar.initialize exEnv.u.toCharTables exEnv.fo (unlines (c!"[ADDRESS]" :: c!"# one" :: c!"@T" :: sameRest))).isOk = true ∧
    (Grammar.initialize exEnv.u.toCharTables exEnv.fo
      (unlines (c!"[ADDRESS]" :: c!"" :: c!" @TOWN" :: c!"[TOWN] " :: sameRest.tail))).isOk = true := by
  have data : ∀ l : Str, isCommentLine exEnv.u.toCharTables l = false ∧ sectionName? exEnv.u.toCharTables l = none ∧
      refsOf? exEnv.u.toCharTables l = none → DataLine exEnv.u.toCharTables l ∧ ∀ ns, ¬ IsRefs exEnv.u.toCharTables l ns := by
    rintro l ⟨h1, h2, h3⟩
    refine ⟨⟨fun h => ?_, fun n h => ?_⟩, (refsOf?_none _ l).1 h3⟩
    · rw [(isCommentLine_iff _ l).2 h] at h1; exact absurd h1 (by simp)
    · rw [(sectionName?_iff _ l n).2 h] at h2; exact absurd h2 (by simp)
  refine ⟨?_, by decide +kernel, by decide +kernel⟩
  refine .header (n := c!"ADDRESS") ((sectionName?_iff _ _ _).1 (by decide +kernel)) ((sectionName?_iff _ _ _).1 (by decide +kernel)) ?_
  refine .comment ((isCommentLine_iff _ _).1 (by decide +kernel)) ((isCommentLine_iff _ _).1 (by decide +kernel)) ?_
  refine .refs (ns := [c!"T"]) ((refsOf?_some _ _ _).1 (by decide +kernel)) ((refsOf?_some _ _ _).1 (by decide +kernel)) ?_
  refine .header (n := c!"T") ((sectionName?_iff _ _ _).1 (by decide +kernel)) ((sectionName?_iff _ _ _).1 (by decide +kernel)) ?_
  refine .other (data _ (by decide +kernel)).1 (data _ (by decide +kernel)).2 ?_
  exact .other (data _ (by decide +kernel)).1 (data _ (by decide +kernel)).2 .nil

end AS.Props
