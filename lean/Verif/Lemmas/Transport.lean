import Verif.Lemmas.GrammarOrder
import Verif.Spec.Samples
/-
The meaning of a grammar text depends on the character tables only through the characters of the text, and on the
arithmetic only in the scores.
-/
namespace AS
variable {F F' : Type}

theorem AgreeOn.symm {ct ct' : CharTables} {s : Str} (h : AgreeOn ct ct' s) : AgreeOn ct' ct s :=
  fun c hc => ⟨(h c hc).1.symm, (h c hc).2.symm⟩

theorem blank_agree {ct ct' : CharTables} {s t : Str} (h : AgreeOn ct ct' t) (hs : ∀ c ∈ s, c ∈ t) (hb : Blank ct s) :
    Blank ct' s :=
  fun c hc => by rw [← (h c (hs c hc)).1]; exact hb c hc

theorem comment_agree {ct ct' : CharTables} {l : Str} (h : AgreeOn ct ct' l) (hc : IsComment ct l) : IsComment ct' l := by
  rcases hc with hb | ⟨a, b, rfl, hb⟩
  · exact Or.inl (blank_agree h (fun _ h => h) hb)
  · exact Or.inr ⟨a, b, rfl, blank_agree h (fun c hc => List.mem_append_left _ hc) hb⟩

theorem header_agree {ct ct' : CharTables} {l n : Str} (h : AgreeOn ct ct' l) (hc : IsHeader ct l n) : IsHeader ct' l n := by
  obtain ⟨hn, a, b, rfl, h1, h2⟩ := hc
  exact ⟨hn, a, b, rfl, blank_agree h (fun c hc => by simp [hc]) h1, blank_agree h (fun c hc => by simp [hc]) h2⟩

theorem refs_agree {ct ct' : CharTables} {l : Str} {ns : List Str} (h : AgreeOn ct ct' l) (hc : IsRefs ct l ns) :
    IsRefs ct' l ns := by
  obtain ⟨hne, hn, gaps, b, hlen, hg, hb, rfl⟩ := hc
  have sub : ∀ (gaps ns : List Str), gaps.length = ns.length →
      (∀ g ∈ gaps, ∀ c ∈ g, c ∈ (List.zipWith (fun g n => g ++ '@' :: n) gaps ns).flatten) ∧
      (∀ n ∈ ns, ∀ c ∈ n, c ∈ (List.zipWith (fun g n => g ++ '@' :: n) gaps ns).flatten) := by
    intro gaps
    induction gaps with
    | nil => intro ns hl; cases ns with
      | nil => simp
      | cons _ _ => cases hl
    | cons g gaps ih =>
      intro ns hl
      cases ns with
      | nil => cases hl
      | cons n ns =>
        obtain ⟨i1, i2⟩ := ih ns (by simpa using hl)
        simp only [List.zipWith_cons_cons, List.flatten_cons, List.mem_append, List.mem_cons]
        constructor
        · rintro x (rfl | hx) c hc
          · exact Or.inl (Or.inl hc)
          · exact Or.inr (i1 x hx c hc)
        · rintro x (rfl | hx) c hc
          · exact Or.inl (Or.inr (Or.inr hc))
          · exact Or.inr (i2 x hx c hc)
  obtain ⟨s1, s2⟩ := sub gaps ns hlen
  refine ⟨hne, ?_, gaps, b, hlen, ?_, ?_, rfl⟩
  · intro n hn'
    refine ⟨(hn n hn').1, fun c hc => ?_⟩
    have := (hn n hn').2 c hc
    have ha := h c (List.mem_append_left _ (s2 n hn' c hc))
    rw [← ha.2]
    exact this
  · intro g hg'
    exact blank_agree h (fun c hc => List.mem_append_left _ (s1 g hg' c hc)) (hg g hg')
  · exact blank_agree h (fun c hc => List.mem_append_right _ hc) hb

theorem groups_agree {ct ct' : CharTables} {ls pre : List Str} {gs : List (Str × List Str)} (hg : Groups ct ls pre gs) :
    (∀ l ∈ ls, AgreeOn ct ct' l) → Groups ct' ls pre gs ∧ (∀ g ∈ gs, ∀ l ∈ g.2, l ∈ ls) ∧ (∀ l ∈ pre, l ∈ ls) := by
  induction hg with
  | nil => intro _; exact ⟨.nil, by simp, by simp⟩
  | comment hc _ ih =>
    intro h
    obtain ⟨i1, i2, i3⟩ := ih (fun l hl => h l (List.mem_cons_of_mem _ hl))
    exact ⟨.comment (comment_agree (h _ List.mem_cons_self) hc) i1,
      fun g hg l hl => List.mem_cons_of_mem _ (i2 g hg l hl), fun l hl => List.mem_cons_of_mem _ (i3 l hl)⟩
  | header hc hh _ ih =>
    intro h
    obtain ⟨i1, i2, i3⟩ := ih (fun l hl => h l (List.mem_cons_of_mem _ hl))
    have ha := h _ List.mem_cons_self
    refine ⟨.header (fun hc' => hc (comment_agree ha.symm hc')) (header_agree ha hh) i1, ?_, by simp⟩
    intro g hg l hl
    rcases List.mem_cons.1 hg with rfl | hg
    · exact List.mem_cons_of_mem _ (i3 l hl)
    · exact List.mem_cons_of_mem _ (i2 g hg l hl)
  | data hc hh _ ih =>
    intro h
    obtain ⟨i1, i2, i3⟩ := ih (fun l hl => h l (List.mem_cons_of_mem _ hl))
    have ha := h _ List.mem_cons_self
    refine ⟨.data (fun hc' => hc (comment_agree ha.symm hc')) (fun n hn => hh n (header_agree ha.symm hn)) i1,
      fun g hg l hl => List.mem_cons_of_mem _ (i2 g hg l hl), ?_⟩
    intro l hl
    rcases List.mem_cons.1 hl with rfl | hl
    · exact List.mem_cons_self
    · exact List.mem_cons_of_mem _ (i3 l hl)

theorem metas_agree {ct ct' : CharTables} {ls : List Str} {mm : List (List Str)} (hm : MetasMean ct ls mm) :
    (∀ l ∈ ls, AgreeOn ct ct' l) → MetasMean ct' ls mm := by
  induction hm with
  | nil => intro _; exact .nil
  | cons h1 _ ih =>
    intro h
    exact .cons (refs_agree (h _ List.mem_cons_self) h1) (ih (fun l hl => h l (List.mem_cons_of_mem _ hl)))
  | skip h1 _ ih =>
    intro h
    exact .skip (fun ns hn => h1 ns (refs_agree (h _ List.mem_cons_self).symm hn)) (ih (fun l hl => h l (List.mem_cons_of_mem _ hl)))

theorem rules_agree {fo : FloatOps F} {fo' : FloatOps F'} {ls : List Str} {rr : List (Rule F)} (hm : RulesMean fo ls rr) :
    PositiveScores fo' ls → ∃ rr', RulesMean fo' ls rr' ∧
      rr'.map (fun r => (r.inClass, r.outClass)) = rr.map (fun r => (r.inClass, r.outClass)) := by
  induction hm with
  | nil => intro _; exact ⟨[], .nil, rfl⟩
  | cons h1 _ ih =>
    intro h
    obtain ⟨rr', i1, i2⟩ := ih (fun l hl => h l (List.mem_cons_of_mem _ hl))
    obtain ⟨ins, outs, before, score, rest, e, hl, _, rfl⟩ := h1
    refine ⟨_ :: rr', .cons ⟨ins, outs, before, score, rest, e, hl, h _ List.mem_cons_self _ _ _ _ _ e, rfl⟩ i1, ?_⟩
    rw [List.map_cons, List.map_cons, i2]

theorem sections_agree {ct ct' : CharTables} {fo : FloatOps F} {fo' : FloatOps F'} {gs : List (Str × List Str)}
    {ms : List (Str × List (List Str))} {rs : List (Str × List (Rule F))} (hs : Sections ct fo gs ms rs) :
    (∀ g ∈ gs, ∀ l ∈ g.2, AgreeOn ct ct' l) → (∀ g ∈ gs, PositiveScores fo' g.2) →
    ∃ rs', Sections ct' fo' gs ms rs' ∧ classes rs' = classes rs := by
  induction hs with
  | nil => intro _ _; exact ⟨[], .nil, rfl⟩
  | empty _ ih =>
    intro h1 h2
    obtain ⟨rs', i1, i2⟩ := ih (fun g hg => h1 g (List.mem_cons_of_mem _ hg)) (fun g hg => h2 g (List.mem_cons_of_mem _ hg))
    exact ⟨rs', .empty i1, i2⟩
  | metas a1 a2 a3 _ ih =>
    intro h1 h2
    obtain ⟨rs', i1, i2⟩ := ih (fun g hg => h1 g (List.mem_cons_of_mem _ hg)) (fun g hg => h2 g (List.mem_cons_of_mem _ hg))
    exact ⟨rs', .metas a1 a2 (metas_agree a3 (h1 _ List.mem_cons_self)) i1, i2⟩
  | @rules n ls gs ms rs rr a1 a2 a3 _ ih =>
    intro h1 h2
    obtain ⟨rs', i1, i2⟩ := ih (fun g hg => h1 g (List.mem_cons_of_mem _ hg)) (fun g hg => h2 g (List.mem_cons_of_mem _ hg))
    obtain ⟨rr', b1, b2⟩ := rules_agree a3 (h2 _ List.mem_cons_self)
    refine ⟨(n, rr') :: rs', .rules a1 a2 b1 i1, ?_⟩
    unfold classes at i2 ⊢
    rw [List.map_cons, List.map_cons, i2, b2]

theorem grammarMeans_agree {ct ct' : CharTables} {fo : FloatOps F} {fo' : FloatOps F'} {lines : List Str}
    {ms : List (Str × List (List Str))} {rs : List (Str × List (Rule F))} (h : GrammarMeans ct fo lines ms rs)
    (ha : ∀ l ∈ lines, AgreeOn ct ct' l) (hp : PositiveScores fo' lines) :
    ∃ rs', GrammarMeans ct' fo' lines ms rs' ∧ classes rs' = classes rs := by
  obtain ⟨gs, h1, h2, h3⟩ := h
  obtain ⟨k1, k2, _⟩ := groups_agree h1 ha
  obtain ⟨rs', j1, j2⟩ := sections_agree h3 (fun g hg l hl => ha l (k2 g hg l hl))
    (fun g hg l hl => hp l (k2 g hg l hl))
  exact ⟨rs', ⟨gs, k1, h2, j1⟩, j2⟩

end AS
