import Verif.Lemmas.GrammarOrder
import Verif.Spec.Mirror
/-
Grammar texts whose sections have the same lines in another order or repeated.
-/
namespace AS
variable {F : Type} (ct : CharTables) (fo : FloatOps F)

theorem Alike.symm {α : Type} {as bs : List (Str × List α)} (h : Alike as bs) : Alike bs as := by
  induction h with
  | nil => exact .nil
  | cons h _ ih => exact .cons (fun x => (h x).symm) ih

theorem Alike.names {α : Type} {as bs : List (Str × List α)} (h : Alike as bs) : bs.map (·.1) = as.map (·.1) := by
  induction h with
  | nil => rfl
  | cons _ _ ih => simp [ih]

theorem Alike.find {α : Type} {as bs : List (Str × List α)} (h : Alike as bs) :
    ∀ s ∈ as, ∃ t ∈ bs, t.1 = s.1 ∧ ∀ x, x ∈ s.2 ↔ x ∈ t.2 := by
  induction h with
  | nil => simp
  | cons h _ ih =>
    intro s hs
    rcases List.mem_cons.1 hs with rfl | hs
    · exact ⟨_, List.mem_cons_self, rfl, h⟩
    · obtain ⟨t, ht, e⟩ := ih s hs
      exact ⟨t, List.mem_cons_of_mem _ ht, e⟩

theorem alike_within {G H : Grammar F} (h1 : Alike G.metaNames H.metaNames) (h2 : Alike G.ruleSections H.ruleSections) :
    Within G H :=
  ⟨fun s hs => by
    obtain ⟨t, ht, e, h⟩ := h1.find s hs
    exact ⟨t, ht, e, fun x hx => (h x).1 hx⟩,
   fun s hs => by
    obtain ⟨t, ht, e, h⟩ := h2.find s hs
    exact ⟨t, ht, e, fun x hx => (h x).1 hx⟩⟩

theorem groupLines_body_mem : ∀ (body : List Str), (∀ l ∈ body, ∀ n, ¬ IsHeader ct l n) →
    ∀ l, l ∈ (groupLines ct body).1 ↔ l ∈ body ∧ isCommentLine ct l = false
  | [], _, l => by simp [groupLines]
  | x :: body, hb, l => by
    have ih := groupLines_body_mem body (fun x hx => hb x (List.mem_cons_of_mem _ hx)) l
    have hn : sectionName? ct x = none := by
      cases hs : sectionName? ct x with
      | none => rfl
      | some n => exact absurd ((sectionName?_iff ct x n).1 hs) (hb x List.mem_cons_self n)
    rw [groupLines, hn]
    cases hc : isCommentLine ct x with
    | true =>
      simp only [if_true, ih, List.mem_cons]
      constructor
      · rintro ⟨a, b⟩; exact ⟨Or.inr a, b⟩
      · rintro ⟨rfl | a, b⟩
        · rw [hc] at b; cases b
        · exact ⟨a, b⟩
    | false =>
      simp only [Bool.false_eq_true, if_false, List.mem_cons, ih]
      constructor
      · rintro (rfl | ⟨a, b⟩)
        · exact ⟨Or.inl rfl, hc⟩
        · exact ⟨Or.inr a, b⟩
      · rintro ⟨rfl | a, b⟩
        · exact Or.inl rfl
        · exact Or.inr ⟨a, b⟩

theorem isSection_alike {h : Str} {xs ys : List Str} (hxy : ∀ x, x ∈ xs ↔ x ∈ ys) (hs : IsSection ct (h :: xs)) :
    IsSection ct (h :: ys) := by
  obtain ⟨hd, name, body, e, h1, h2, l, hl, hc⟩ := hs
  cases e
  exact ⟨h, name, ys, rfl, h1, fun l hl => h2 l ((hxy l).2 hl), l, (hxy l).1 hl, hc⟩

theorem blocks_alike {bs bs' : List (Str × List Str)} (ha : Alike bs bs') (hs : ∀ b ∈ bs, IsSection ct (b.1 :: b.2)) :
    (∀ b ∈ bs', IsSection ct (b.1 :: b.2)) ∧
    Alike (bs.map (fun b => blockOf ct (b.1 :: b.2))) (bs'.map (fun b => blockOf ct (b.1 :: b.2))) := by
  induction ha with
  | nil => exact ⟨by simp, .nil⟩
  | @cons n xs ys as bs h _ ih =>
    obtain ⟨i1, i2⟩ := ih (fun b hb => hs b (List.mem_cons_of_mem _ hb))
    have k := hs (n, xs) List.mem_cons_self
    have k' := isSection_alike ct h k
    refine ⟨?_, ?_⟩
    · intro b hb
      rcases List.mem_cons.1 hb with rfl | hb
      · exact k'
      · exact i1 b hb
    · rw [List.map_cons, List.map_cons]
      refine .cons (n := (sectionName? ct n).getD []) ?_ i2
      intro x
      obtain ⟨_, _, _, e, _, h2, _⟩ := k
      cases e
      obtain ⟨_, _, _, e, _, h2', _⟩ := k'
      cases e
      rw [groupLines_body_mem ct _ h2, groupLines_body_mem ct _ h2', h]

/-- What is read from lines in another order. -/
theorem rulesMean_alike (h0 : fo.le0 fo.zero = true) {xs ys : List Str} (h : ∀ x, x ∈ xs ↔ x ∈ ys) {rr : List (Rule F)}
    (hr : RulesMean fo xs rr) : ∃ rr', RulesMean fo ys rr' ∧ ∀ r, r ∈ rr ↔ r ∈ rr' := by
  rw [rulesMean_iff fo h0] at hr
  have key : ∀ y ∈ ys, ∃ r, Rule.ofLine fo y = .ok r := by
    intro y hy
    have : Rule.ofLine fo y ∈ xs.map (Rule.ofLine fo) := List.mem_map.2 ⟨y, (h y).2 hy, rfl⟩
    rw [hr] at this
    obtain ⟨r, _, e⟩ := List.mem_map.1 this
    exact ⟨r, e.symm⟩
  have all : ∀ ys : List Str, (∀ y ∈ ys, ∃ r, Rule.ofLine fo y = .ok r) → ∃ rr : List (Rule F), ys.map (Rule.ofLine fo) = rr.map .ok := by
    intro ys
    induction ys with
    | nil => intro _; exact ⟨[], rfl⟩
    | cons y ys ih =>
      intro hy
      obtain ⟨r, e⟩ := hy y List.mem_cons_self
      obtain ⟨rr, e'⟩ := ih (fun z hz => hy z (List.mem_cons_of_mem _ hz))
      exact ⟨r :: rr, by rw [List.map_cons, List.map_cons, e, e']⟩
  obtain ⟨rr', hr'⟩ := all ys key
  refine ⟨rr', (rulesMean_iff fo h0 _ _).2 hr', ?_⟩
  have mem : ∀ {zs : List Str} {qq : List (Rule F)}, zs.map (Rule.ofLine fo) = qq.map .ok → ∀ r, r ∈ qq ↔ ∃ z ∈ zs, Rule.ofLine fo z = .ok r := by
    intro zs qq e r
    constructor
    · intro hr
      have : Rule.Made.ok r ∈ qq.map .ok := List.mem_map.2 ⟨r, hr, rfl⟩
      rw [← e] at this
      obtain ⟨z, hz, e⟩ := List.mem_map.1 this
      exact ⟨z, hz, e⟩
    · rintro ⟨z, hz, e'⟩
      have : Rule.ofLine fo z ∈ zs.map (Rule.ofLine fo) := List.mem_map.2 ⟨z, hz, rfl⟩
      rw [e, e'] at this
      obtain ⟨q, hq, e⟩ := List.mem_map.1 this
      cases e
      exact hq
  intro r
  rw [mem hr, mem hr']
  constructor
  · rintro ⟨z, hz, e⟩; exact ⟨z, (h z).1 hz, e⟩
  · rintro ⟨z, hz, e⟩; exact ⟨z, (h z).2 hz, e⟩

theorem metasMean_alike {xs ys : List Str} (h : ∀ x, x ∈ xs ↔ x ∈ ys) {mm : List (List Str)}
    (hm : MetasMean ct xs mm) : ∃ mm', MetasMean ct ys mm' ∧ ∀ r, r ∈ mm ↔ r ∈ mm' := by
  rw [metasMean_iff] at hm
  subst hm
  refine ⟨_, (metasMean_iff ct ys _).2 rfl, fun r => ?_⟩
  simp only [List.mem_filterMap, h]

theorem ne_nil_alike {α : Type} {xs ys : List α} (h : ∀ x, x ∈ xs ↔ x ∈ ys) (hx : xs ≠ []) : ys ≠ [] := by
  obtain ⟨x, hm⟩ := List.exists_mem_of_ne_nil _ hx
  intro e
  subst e
  cases (h x).1 hm

theorem sections_alike (h0 : fo.le0 fo.zero = true) {gs gs' : List (Str × List Str)} (ha : Alike gs gs') :
    ∀ {ms : List (Str × List (List Str))} {rs : List (Str × List (Rule F))}, Sections ct fo gs ms rs →
    ∃ ms' rs', Sections ct fo gs' ms' rs' ∧ Alike ms ms' ∧ Alike rs rs' := by
  induction ha with
  | nil => intro ms rs h; cases h; exact ⟨_, _, .nil, .nil, .nil⟩
  | @cons n xs ys as bs h _ ih =>
    intro ms rs hs
    cases hs with
    | empty hs =>
      obtain ⟨ms', rs', k1, k2, k3⟩ := ih hs
      have : ys = [] := by
        cases ys with
        | nil => rfl
        | cons y _ => cases (h y).2 List.mem_cons_self
      subst this
      exact ⟨_, _, .empty k1, k2, k3⟩
    | metas a1 a2 a3 hs =>
      obtain ⟨ms', rs', k1, k2, k3⟩ := ih hs
      obtain ⟨mm', b1, b2⟩ := metasMean_alike ct h a3
      exact ⟨_, _, .metas (ne_nil_alike h a1) (fun l hl => a2 l ((h l).2 hl)) b1 k1, .cons b2 k2, k3⟩
    | rules a1 a2 a3 hs =>
      obtain ⟨ms', rs', k1, k2, k3⟩ := ih hs
      obtain ⟨rr', b1, b2⟩ := rulesMean_alike fo h0 h a3
      exact ⟨_, _, .rules (ne_nil_alike h a1) (fun l hl => a2 l ((h l).2 hl)) b1 k1, k2, .cons b2 k3⟩

theorem noRepeat_alike {gs gs' : List (Str × List Str)} (ha : Alike gs gs') (h : NoRepeat gs) : NoRepeat gs' := by
  unfold NoRepeat at h ⊢
  induction ha with
  | nil => exact .nil
  | @cons n xs ys as bs hxy ha ih =>
    rw [List.pairwise_cons] at h ⊢
    refine ⟨?_, ih h.2⟩
    intro b hb hne
    have hb' : b.1 ∈ bs.map (·.1) := List.mem_map.2 ⟨b, hb, rfl⟩
    rw [ha.names] at hb'
    obtain ⟨a, haa, e⟩ := List.mem_map.1 hb'
    rw [← e]
    exact h.1 a haa (ne_nil_alike (fun x => (hxy x).symm) hne)

theorem linesOf_eq (bs : List (Str × List Str)) : linesOf bs = (bs.map (fun b => b.1 :: b.2)).flatten := by
  unfold linesOf
  rw [List.flatMap_def]

theorem grammarMeans_alike (h0 : fo.le0 fo.zero = true) {bs bs' : List (Str × List Str)} (ha : Alike bs bs')
    (hs : ∀ b ∈ bs, IsSection ct (b.1 :: b.2)) {ms : List (Str × List (List Str))} {rs : List (Str × List (Rule F))}
    (h : GrammarMeans ct fo (linesOf bs) ms rs) :
    ∃ ms' rs', GrammarMeans ct fo (linesOf bs') ms' rs' ∧ Alike ms ms' ∧ Alike rs rs' := by
  obtain ⟨gs, h1, h2, h3⟩ := h
  obtain ⟨hs', ha'⟩ := blocks_alike ct ha hs
  have key : ∀ cs : List (Str × List Str), (∀ b ∈ cs, IsSection ct (b.1 :: b.2)) →
      groupLines ct (linesOf cs) = ([], cs.map (fun b => blockOf ct (b.1 :: b.2))) := by
    intro cs hc
    rw [linesOf_eq, groupLines_blocks ct _ (by
      intro b hb
      obtain ⟨c, hc', rfl⟩ := List.mem_map.1 hb
      exact hc c hc')]
    rw [List.map_map]
    rfl
  rw [groups_iff, key bs hs] at h1
  simp only [Prod.mk.injEq, true_and] at h1
  subst h1
  obtain ⟨ms', rs', k1, k2, k3⟩ := sections_alike ct fo h0 ha' h3
  exact ⟨ms', rs', ⟨_, (groups_iff ct _ _ _).2 (key bs' hs'), noRepeat_alike ha' h2, k1⟩, k2, k3⟩

theorem dangling_alike {ms ms' : List (Str × List (List Str))} {rs rs' : List (Str × List (Rule F))}
    (h1 : Alike ms ms') (h2 : Alike rs rs') (h : Dangling ms rs) : Dangling ms' rs' := by
  obtain ⟨m, hm, refs, hr, n, hn, a, b⟩ := h
  obtain ⟨t, ht, _, e⟩ := h1.find m hm
  exact ⟨t, ht, refs, (e _).1 hr, n, hn, by rw [h1.names]; exact a, by rw [h2.names]; exact b⟩

theorem rooted_alike {ms ms' : List (Str × List (List Str))} {rs rs' : List (Str × List (Rule F))}
    (h1 : Alike ms ms') (h2 : Alike rs rs') (h : Rooted ms rs) : Rooted ms' rs' := by
  unfold Rooted
  rw [h1.names, h2.names]
  exact h

theorem unreferenced_alike {ms ms' : List (Str × List (List Str))} {rs rs' : List (Str × List (Rule F))}
    (h1 : Alike ms ms') (h2 : Alike rs rs') (h : Unreferenced ms rs) : Unreferenced ms' rs' := by
  obtain ⟨n, hn, ha, hr⟩ := h
  refine ⟨n, by rw [h1.names, h2.names]; exact hn, ha, ?_⟩
  intro m hm refs hrefs
  obtain ⟨t, ht, _, e⟩ := h1.symm.find m hm
  exact hr t ht refs ((e _).1 hrefs)

end AS
