import Verif.Lemmas.SearchByName
import Verif.Lemmas.GrammarText
/-
Sections of a grammar text in another order; additional lines.
-/
namespace AS
variable {F : Type} (ct : CharTables) (fo : FloatOps F)

/-! ### Blocks -/

theorem header_not_comment {l n : Str} (h : sectionName? ct l = some n) : isCommentLine ct l = false := by
  unfold sectionName? at h
  unfold isCommentLine
  cases hd : l.dropWhile ct.isSpace with
  | nil => rw [hd] at h; cases h
  | cons c cs =>
    rw [hd] at h
    simp only at h ⊢
    split at h
    · rename_i hc; subst hc; rfl
    · cases h

/-- The name and the data lines of a block. -/
def blockOf (b : List Str) : Str × List Str :=
  match b with
  | [] => ([], [])
  | h :: body => ((sectionName? ct h).getD [], (groupLines ct body).1)

theorem groupLines_body : ∀ (body rest : List Str), (∀ l ∈ body, ∀ n, ¬ IsHeader ct l n) →
    (groupLines ct rest).1 = [] →
    groupLines ct (body ++ rest) = ((groupLines ct body).1, (groupLines ct rest).2)
  | [], rest, _, h => by
    rw [List.nil_append]
    exact Prod.ext h rfl
  | l :: body, rest, hb, h => by
    have ih := groupLines_body body rest (fun x hx => hb x (List.mem_cons_of_mem _ hx)) h
    have hn : sectionName? ct l = none := by
      cases hs : sectionName? ct l with
      | none => rfl
      | some n => exact absurd ((sectionName?_iff ct l n).1 hs) (hb l List.mem_cons_self n)
    rw [List.cons_append, groupLines, groupLines, ih]
    split
    · rfl
    · rw [hn]

theorem groupLines_body_ne : ∀ (body : List Str), (∀ l ∈ body, ∀ n, ¬ IsHeader ct l n) →
    (∃ l ∈ body, ¬ IsComment ct l) → (groupLines ct body).1 ≠ []
  | [], _, h => by obtain ⟨l, hl, _⟩ := h; cases hl
  | l :: body, hb, h => by
    have hn : sectionName? ct l = none := by
      cases hs : sectionName? ct l with
      | none => rfl
      | some n => exact absurd ((sectionName?_iff ct l n).1 hs) (hb l List.mem_cons_self n)
    rw [groupLines]
    split
    · rename_i hc
      refine groupLines_body_ne body (fun x hx => hb x (List.mem_cons_of_mem _ hx)) ?_
      obtain ⟨x, hx, hx'⟩ := h
      rcases List.mem_cons.1 hx with rfl | hx
      · exact absurd ((isCommentLine_iff ct x).1 hc) hx'
      · exact ⟨x, hx, hx'⟩
    · rw [hn]; simp

theorem groupLines_blocks : ∀ (bs : List (List Str)), (∀ b ∈ bs, IsSection ct b) →
    groupLines ct bs.flatten = ([], bs.map (blockOf ct))
  | [], _ => rfl
  | b :: bs, h => by
    have ih := groupLines_blocks bs (fun x hx => h x (List.mem_cons_of_mem _ hx))
    obtain ⟨hd, name, body, rfl, h1, h2, h3⟩ := h b List.mem_cons_self
    have hs := (sectionName?_iff ct hd name).2 h1
    rw [List.flatten_cons, List.cons_append, groupLines, header_not_comment ct hs, if_neg (by simp), hs]
    simp only
    rw [groupLines_body ct body _ h2 (by rw [ih]), ih]
    simp [blockOf, hs]

theorem blockOf_ne {b : List Str} (h : IsSection ct b) : (blockOf ct b).2 ≠ [] := by
  obtain ⟨hd, name, body, rfl, h1, h2, h3⟩ := h
  exact groupLines_body_ne ct body h2 h3

/-- The sections of permuted groups. -/
theorem sections_perm {gs gs' : List (Str × List Str)} (hp : gs.Perm gs') :
    ∀ {ms : List (Str × List (List Str))} {rs : List (Str × List (Rule F))}, Sections ct fo gs ms rs →
      ∃ ms' rs', Sections ct fo gs' ms' rs' ∧ ms.Perm ms' ∧ rs.Perm rs' := by
  induction hp with
  | nil => intro ms rs h; cases h; exact ⟨[], [], .nil, .refl _, .refl _⟩
  | cons x _ ih =>
    intro ms rs h
    cases h with
    | empty h =>
      obtain ⟨ms', rs', h', p1, p2⟩ := ih h
      exact ⟨ms', rs', .empty h', p1, p2⟩
    | metas h1 h2 h3 h =>
      obtain ⟨ms', rs', h', p1, p2⟩ := ih h
      exact ⟨_, rs', .metas h1 h2 h3 h', p1.cons _, p2⟩
    | rules h1 h2 h3 h =>
      obtain ⟨ms', rs', h', p1, p2⟩ := ih h
      exact ⟨ms', _, .rules h1 h2 h3 h', p1, p2.cons _⟩
  | swap x y l =>
    intro ms rs h
    cases h with
    | empty h =>
      cases h with
      | empty h => exact ⟨_, _, .empty (.empty h), .refl _, .refl _⟩
      | metas h1 h2 h3 h => exact ⟨_, _, .metas h1 h2 h3 (.empty h), .refl _, .refl _⟩
      | rules h1 h2 h3 h => exact ⟨_, _, .rules h1 h2 h3 (.empty h), .refl _, .refl _⟩
    | metas a1 a2 a3 h =>
      cases h with
      | empty h => exact ⟨_, _, .empty (.metas a1 a2 a3 h), .refl _, .refl _⟩
      | metas h1 h2 h3 h => exact ⟨_, _, .metas h1 h2 h3 (.metas a1 a2 a3 h), .swap _ _ _, .refl _⟩
      | rules h1 h2 h3 h => exact ⟨_, _, .rules h1 h2 h3 (.metas a1 a2 a3 h), .refl _, .refl _⟩
    | rules a1 a2 a3 h =>
      cases h with
      | empty h => exact ⟨_, _, .empty (.rules a1 a2 a3 h), .refl _, .refl _⟩
      | metas h1 h2 h3 h => exact ⟨_, _, .metas h1 h2 h3 (.rules a1 a2 a3 h), .refl _, .refl _⟩
      | rules h1 h2 h3 h => exact ⟨_, _, .rules h1 h2 h3 (.rules a1 a2 a3 h), .refl _, .swap _ _ _⟩
  | trans _ _ ih1 ih2 =>
    intro ms rs h
    obtain ⟨ms', rs', h', p1, p2⟩ := ih1 h
    obtain ⟨ms'', rs'', h'', q1, q2⟩ := ih2 h'
    exact ⟨ms'', rs'', h'', p1.trans q1, p2.trans q2⟩

theorem noRepeat_perm {gs gs' : List (Str × List Str)} (hp : gs.Perm gs') (hne : ∀ g ∈ gs, g.2 ≠ [])
    (h : NoRepeat gs) : NoRepeat gs' := by
  have h1 : gs.Pairwise (fun a b => b.1 ≠ a.1) := by
    refine List.Pairwise.imp_of_mem ?_ h
    intro a b ha _ hab
    exact hab (hne a ha)
  have h2 : gs'.Pairwise (fun a b => b.1 ≠ a.1) := hp.pairwise h1 (fun h => Ne.symm h)
  refine List.Pairwise.imp ?_ h2
  intro a b h _
  exact h

/-- The meaning of blocks in another order. -/
theorem grammarMeans_blocks {bs bs' : List (List Str)} (hp : bs.Perm bs') (hb : ∀ b ∈ bs, IsSection ct b)
    {ms : List (Str × List (List Str))} {rs : List (Str × List (Rule F))} (h : GrammarMeans ct fo bs.flatten ms rs) :
    ∃ ms' rs', GrammarMeans ct fo bs'.flatten ms' rs' ∧ ms.Perm ms' ∧ rs.Perm rs' := by
  obtain ⟨gs, h1, h2, h3⟩ := h
  have hb' : ∀ b ∈ bs', IsSection ct b := fun b h => hb b (hp.mem_iff.2 h)
  rw [groups_iff, groupLines_blocks ct bs hb] at h1
  simp only [Prod.mk.injEq, true_and] at h1
  subst h1
  have hp' : (bs.map (blockOf ct)).Perm (bs'.map (blockOf ct)) := hp.map _
  obtain ⟨ms', rs', k1, k2, k3⟩ := sections_perm ct fo hp' h3
  refine ⟨ms', rs', ⟨_, (groups_iff ct _ _ _).2 (groupLines_blocks ct bs' hb'), noRepeat_perm hp' ?_ h2, k1⟩, k2, k3⟩
  intro g hg
  obtain ⟨b, hb1, rfl⟩ := List.mem_map.1 hg
  exact blockOf_ne ct (hb b hb1)

theorem dangling_perm {ms ms' : List (Str × List (List Str))} {rs rs' : List (Str × List (Rule F))}
    (h1 : ms.Perm ms') (h2 : rs.Perm rs') (h : Dangling ms rs) : Dangling ms' rs' := by
  obtain ⟨m, hm, refs, hr, n, hn, a, b⟩ := h
  exact ⟨m, h1.mem_iff.1 hm, refs, hr, n, hn, fun h => a ((h1.map _).mem_iff.2 h), fun h => b ((h2.map _).mem_iff.2 h)⟩

theorem rooted_perm {ms ms' : List (Str × List (List Str))} {rs rs' : List (Str × List (Rule F))}
    (h1 : ms.Perm ms') (h2 : rs.Perm rs') (h : Rooted ms rs) : Rooted ms' rs' :=
  h.imp (fun h => (h1.map _).mem_iff.1 h) (fun h => (h2.map _).mem_iff.1 h)

theorem unreferenced_perm {ms ms' : List (Str × List (List Str))} {rs rs' : List (Str × List (Rule F))}
    (h1 : ms.Perm ms') (h2 : rs.Perm rs') (h : Unreferenced ms rs) : Unreferenced ms' rs' := by
  obtain ⟨n, hn, ha, hr⟩ := h
  exact ⟨n, hn.imp (fun h => (h1.map _).mem_iff.1 h) (fun h => (h2.map _).mem_iff.1 h), ha,
    fun m hm => hr m (h1.mem_iff.2 hm)⟩

/-! ### More rules -/

/-- A derivation remains one when rules are added. -/
theorem Within.derives {G H : Grammar F} (h : Within G H) : ∀ {ss : List Str} {rs : List (Rule F)} {m : Nat},
    Derives G ss rs m → Derives H ss rs m := by
  intro ss rs m hd
  induction hd with
  | done => exact .done
  | @rule s ss sec r rs m h1 h2 h3 _ ih =>
    obtain ⟨t, ht, e1, e2⟩ := h.2 (sec.name, sec.rules) (List.mem_map.2 ⟨sec, h1, rfl⟩)
    obtain ⟨sec', hs', rfl⟩ := List.mem_map.1 ht
    exact .rule hs' (e1.trans h2) (e2 r h3) ih
  | @expand s ss sec refs rs m h1 h2 h3 _ ih =>
    obtain ⟨t, ht, e1, e2⟩ := h.1 (sec.name, sec.rules.map (·.map (·.name))) (List.mem_map.2 ⟨sec, h1, rfl⟩)
    obtain ⟨sec', hs', rfl⟩ := List.mem_map.1 ht
    obtain ⟨refs', hr', e⟩ := List.mem_map.1 (e2 (refs.map (·.name)) (List.mem_map.2 ⟨refs, h3, rfl⟩))
    refine .expand hs' (e1.trans h2) hr' ?_
    have e' : refs'.map (·.name) = refs.map (·.name) := e
    rw [e']
    exact ih

/-- What inserting a line does to the groups. -/
theorem groupLines_insert (l : Str) (hl : ∀ n, ¬ IsHeader ct l n) : ∀ (a b : List Str),
    (List.Sublist (groupLines ct (a ++ b)).1 (groupLines ct (a ++ l :: b)).1) ∧
    (groupLines ct (a ++ l :: b)).2.length = (groupLines ct (a ++ b)).2.length ∧
    (∀ (i : Nat) (g : Str × List Str), (groupLines ct (a ++ b)).2[i]? = some g → ∃ g' : Str × List Str, (groupLines ct (a ++ l :: b)).2[i]? = some g' ∧
      g'.1 = g.1 ∧ List.Sublist g.2 g'.2)
  | [], b => by
    have hn : sectionName? ct l = none := by
      cases hs : sectionName? ct l with
      | none => rfl
      | some n => exact absurd ((sectionName?_iff ct l n).1 hs) (hl n)
    rw [List.nil_append, List.nil_append, groupLines]
    split
    · exact ⟨List.Sublist.refl _, rfl, fun i g h => ⟨g, h, rfl, List.Sublist.refl _⟩⟩
    · rw [hn]
      exact ⟨List.sublist_cons_self _ _, rfl, fun i g h => ⟨g, h, rfl, List.Sublist.refl _⟩⟩
  | x :: a, b => by
    obtain ⟨h1, h2, h3⟩ := groupLines_insert l hl a b
    rw [List.cons_append, List.cons_append, groupLines, groupLines]
    split
    · exact ⟨h1, h2, h3⟩
    · cases hs : sectionName? ct x with
      | none => exact ⟨h1.cons_cons _, h2, h3⟩
      | some n =>
        refine ⟨List.Sublist.refl _, by simp [h2], ?_⟩
        intro i g hg
        cases i with
        | zero =>
          simp only [List.getElem?_cons_zero, Option.some.injEq] at hg
          subst hg
          exact ⟨_, rfl, rfl, h1⟩
        | succ i =>
          simp only [List.getElem?_cons_succ] at hg ⊢
          exact h3 i g hg

/-- The sections, from the groups. -/
theorem sections_mem (h0 : fo.le0 fo.zero = true) : ∀ {gs : List (Str × List Str)} {ms : List (Str × List (List Str))}
    {rs : List (Str × List (Rule F))}, Sections ct fo gs ms rs →
    (∀ m, m ∈ ms ↔ ∃ L, (m.1, L) ∈ gs ∧ L ≠ [] ∧ (∀ l ∈ L, '@' ∈ l) ∧ m.2 = L.filterMap (refsOf? ct)) ∧
    (∀ r, r ∈ rs ↔ ∃ L, (r.1, L) ∈ gs ∧ L ≠ [] ∧ (∀ l ∈ L, '@' ∉ l) ∧ L.map (Rule.ofLine fo) = r.2.map .ok) := by
  intro gs ms rs h
  induction h with
  | nil => simp
  | @empty n gs ms rs _ ih =>
    constructor
    · intro m
      rw [ih.1]
      constructor
      · rintro ⟨L, a, b⟩; exact ⟨L, List.mem_cons_of_mem _ a, b⟩
      · rintro ⟨L, a, b⟩
        rcases List.mem_cons.1 a with e | a
        · simp only [Prod.mk.injEq] at e
          exact absurd e.2 b.1
        · exact ⟨L, a, b⟩
    · intro m
      rw [ih.2]
      constructor
      · rintro ⟨L, a, b⟩; exact ⟨L, List.mem_cons_of_mem _ a, b⟩
      · rintro ⟨L, a, b⟩
        rcases List.mem_cons.1 a with e | a
        · simp only [Prod.mk.injEq] at e
          exact absurd e.2 b.1
        · exact ⟨L, a, b⟩
  | @metas n ls gs ms rs mm h1 h2 h3 _ ih =>
    rw [metasMean_iff] at h3
    constructor
    · intro m
      rw [List.mem_cons, ih.1]
      constructor
      · rintro (rfl | ⟨L, a, b⟩)
        · exact ⟨ls, List.mem_cons_self, h1, h2, h3⟩
        · exact ⟨L, List.mem_cons_of_mem _ a, b⟩
      · rintro ⟨L, a, b⟩
        rcases List.mem_cons.1 a with e | a
        · simp only [Prod.mk.injEq] at e
          obtain ⟨e1, rfl⟩ := e
          exact Or.inl (Prod.ext e1 (b.2.2.trans h3.symm))
        · exact Or.inr ⟨L, a, b⟩
    · intro m
      rw [ih.2]
      constructor
      · rintro ⟨L, a, b⟩; exact ⟨L, List.mem_cons_of_mem _ a, b⟩
      · rintro ⟨L, a, b⟩
        rcases List.mem_cons.1 a with e | a
        · simp only [Prod.mk.injEq] at e
          obtain ⟨_, rfl⟩ := e
          obtain ⟨l, hl⟩ := List.exists_mem_of_ne_nil _ h1
          exact absurd (h2 l hl) (b.2.1 l hl)
        · exact ⟨L, a, b⟩
  | @rules n ls gs ms rs rr h1 h2 h3 _ ih =>
    rw [rulesMean_iff fo h0] at h3
    constructor
    · intro m
      rw [ih.1]
      constructor
      · rintro ⟨L, a, b⟩; exact ⟨L, List.mem_cons_of_mem _ a, b⟩
      · rintro ⟨L, a, b⟩
        rcases List.mem_cons.1 a with e | a
        · simp only [Prod.mk.injEq] at e
          obtain ⟨_, rfl⟩ := e
          obtain ⟨l, hl⟩ := List.exists_mem_of_ne_nil _ h1
          exact absurd (b.2.1 l hl) (h2 l hl)
        · exact ⟨L, a, b⟩
    · intro m
      rw [List.mem_cons, ih.2]
      constructor
      · rintro (rfl | ⟨L, a, b⟩)
        · exact ⟨ls, List.mem_cons_self, h1, h2, h3⟩
        · exact ⟨L, List.mem_cons_of_mem _ a, b⟩
      · rintro ⟨L, a, b⟩
        rcases List.mem_cons.1 a with e | a
        · simp only [Prod.mk.injEq] at e
          obtain ⟨e1, rfl⟩ := e
          exact Or.inl (Prod.ext e1 (ofLine_ok_inj (b.2.2.symm.trans h3)))
        · exact Or.inr ⟨L, a, b⟩

/-- The groups of acceptable lines are uniform. -/
theorem sections_uniform (h0 : fo.le0 fo.zero = true) {gs : List (Str × List Str)} {ms : List (Str × List (List Str))}
    {rs : List (Str × List (Rule F))} (h : Sections ct fo gs ms rs) : ∀ g ∈ gs, g.2 = [] ∨ (∀ l ∈ g.2, '@' ∈ l) ∨
      ((∀ l ∈ g.2, '@' ∉ l) ∧ ∃ rr : List (Rule F), g.2.map (Rule.ofLine fo) = rr.map .ok) := by
  induction h with
  | nil => simp
  | empty _ ih =>
    intro g hg
    rcases List.mem_cons.1 hg with rfl | hg
    · exact Or.inl rfl
    · exact ih g hg
  | metas _ k _ _ ih =>
    intro g hg
    rcases List.mem_cons.1 hg with rfl | hg
    · exact Or.inr (Or.inl k)
    · exact ih g hg
  | rules _ k k2 _ ih =>
    intro g hg
    rcases List.mem_cons.1 hg with rfl | hg
    · exact Or.inr (Or.inr ⟨k, _, (rulesMean_iff fo h0 _ _).1 k2⟩)
    · exact ih g hg

/-- What an additional line does to the sections. -/
theorem grammarMeans_insert (h0 : fo.le0 fo.zero = true) (a b : List Str) (l : Str) (hl : ∀ n, ¬ IsHeader ct l n)
    {ms ms' : List (Str × List (List Str))} {rs rs' : List (Str × List (Rule F))}
    (h : GrammarMeans ct fo (a ++ b) ms rs) (h' : GrammarMeans ct fo (a ++ l :: b) ms' rs') :
    (∀ s ∈ ms, ∃ t ∈ ms', t.1 = s.1 ∧ ∀ refs ∈ s.2, refs ∈ t.2) ∧
    (∀ s ∈ rs, ∃ t ∈ rs', t.1 = s.1 ∧ ∀ r ∈ s.2, r ∈ t.2) := by
  obtain ⟨gs, g1, _, g3⟩ := h
  obtain ⟨gs', g1', _, g3'⟩ := h'
  rw [groups_iff] at g1 g1'
  have ins := (groupLines_insert ct l hl a b).2.2
  rw [g1, g1'] at ins
  simp only at ins
  obtain ⟨m1, r1⟩ := sections_mem ct fo h0 g3
  obtain ⟨m2, r2⟩ := sections_mem ct fo h0 g3'
  have hall := sections_uniform ct fo h0 g3'
  constructor
  · intro s hs
    obtain ⟨L, k1, k2, k3, k4⟩ := (m1 s).1 hs
    obtain ⟨i, hi⟩ := List.getElem?_of_mem k1
    obtain ⟨g', e1, e2, e3⟩ := ins i _ hi
    have hmem := List.mem_of_getElem? e1
    have hne : g'.2 ≠ [] := by
      intro e
      rw [e] at e3
      exact k2 (List.sublist_nil.1 e3)
    obtain ⟨x, hx⟩ := List.exists_mem_of_ne_nil _ k2
    have hat : ∀ l ∈ g'.2, '@' ∈ l := by
      rcases hall g' hmem with h | h | h
      · exact absurd h hne
      · exact h
      · exact absurd (k3 x hx) (h.1 x (e3.subset hx))
    refine ⟨(g'.1, g'.2.filterMap (refsOf? ct)), (m2 _).2 ⟨g'.2, hmem, hne, hat, rfl⟩, e2, ?_⟩
    intro refs hr
    rw [k4] at hr
    exact (e3.filterMap _).subset hr
  · intro s hs
    obtain ⟨L, k1, k2, k3, k4⟩ := (r1 s).1 hs
    obtain ⟨i, hi⟩ := List.getElem?_of_mem k1
    obtain ⟨g', e1, e2, e3⟩ := ins i _ hi
    have hmem := List.mem_of_getElem? e1
    have hne : g'.2 ≠ [] := by
      intro e
      rw [e] at e3
      exact k2 (List.sublist_nil.1 e3)
    obtain ⟨x, hx⟩ := List.exists_mem_of_ne_nil _ k2
    rcases hall g' hmem with h | h | ⟨h, rr, hrr⟩
    · exact absurd h hne
    · exact absurd (h x (e3.subset hx)) (k3 x hx)
    · refine ⟨(g'.1, rr), (r2 _).2 ⟨g'.2, hmem, hne, h, hrr⟩, e2, ?_⟩
      intro r hr
      have h1 : Rule.Made.ok r ∈ L.map (Rule.ofLine fo) := by rw [k4]; exact List.mem_map.2 ⟨r, hr, rfl⟩
      have h2 : Rule.Made.ok r ∈ g'.2.map (Rule.ofLine fo) := (e3.map _).subset h1
      rw [hrr] at h2
      obtain ⟨r', hr', e⟩ := List.mem_map.1 h2
      cases e
      exact hr'

end AS
