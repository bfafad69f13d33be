import Verif.Lemmas.Improve
import Verif.Spec.Together
/-
Searching in a grammar made of two.
-/
namespace AS
variable {F : Type} {α β : Type}

theorem Interleaved.nil_left : ∀ {ys zs : List α}, Interleaved [] ys zs → zs = ys
  | _, _, .nil => rfl
  | _, _, .right h => by rw [h.nil_left]

theorem Interleaved.nil_right : ∀ {xs zs : List α}, Interleaved xs [] zs → zs = xs
  | _, _, .nil => rfl
  | _, _, .left h => by rw [h.nil_right]

theorem Interleaved.append_lists : ∀ (xs ys : List α), Interleaved xs ys (xs ++ ys)
  | [], [] => .nil
  | [], y :: ys => .right (append_lists [] ys)
  | x :: xs, ys => .left (append_lists xs ys)

theorem Interleaved.append {xs ys zs xs' ys' zs' : List α} (h : Interleaved xs ys zs) (h' : Interleaved xs' ys' zs') :
    Interleaved (xs ++ xs') (ys ++ ys') (zs ++ zs') := by
  induction h with
  | nil => exact h'
  | left _ ih => exact .left ih
  | right _ ih => exact .right ih

theorem Interleaved.map (f : α → β) {xs ys zs : List α} (h : Interleaved xs ys zs) :
    Interleaved (xs.map f) (ys.map f) (zs.map f) := by
  induction h with
  | nil => exact .nil
  | left _ ih => exact .left ih
  | right _ ih => exact .right ih

theorem Interleaved.filter (f : α → Bool) {xs ys zs : List α} (h : Interleaved xs ys zs) :
    Interleaved (xs.filter f) (ys.filter f) (zs.filter f) := by
  induction h with
  | nil => exact .nil
  | @left x _ _ _ _ ih =>
    rw [List.filter_cons, List.filter_cons]
    split
    · exact .left ih
    · exact ih
  | @right y _ _ _ _ ih =>
    rw [List.filter_cons, List.filter_cons]
    split
    · exact .right ih
    · exact ih

theorem Interleaved.perm {xs ys zs : List α} (h : Interleaved xs ys zs) : zs.Perm (xs ++ ys) := by
  induction h with
  | nil => exact .refl _
  | left _ ih => exact .cons _ ih
  | right _ ih => exact (List.Perm.cons _ ih).trans List.perm_middle.symm

theorem Interleaved.mem {xs ys zs : List α} (h : Interleaved xs ys zs) (x : α) : x ∈ zs ↔ x ∈ xs ∨ x ∈ ys := by
  rw [h.perm.mem_iff, List.mem_append]

/-- A place of the mixed list is one of the first list or one of the second. -/
theorem Interleaved.split : ∀ {u : List α} {p : α} {v xs ys zs : List α}, Interleaved xs ys zs → zs = u ++ p :: v →
    (∃ a b, xs = a ++ p :: b ∧ ∀ q ∈ a, q ∈ u) ∨ (∃ a b, ys = a ++ p :: b ∧ ∀ q ∈ a, q ∈ u)
  | [], p, v, _, _, _, .nil, e => by simp at e
  | _ :: _, p, v, _, _, _, .nil, e => by simp at e
  | [], p, v, _, _, _, .left h, e => by
    simp only [List.nil_append, List.cons.injEq] at e
    exact Or.inl ⟨[], _, by rw [e.1, List.nil_append], by simp⟩
  | [], p, v, _, _, _, .right h, e => by
    simp only [List.nil_append, List.cons.injEq] at e
    exact Or.inr ⟨[], _, by rw [e.1, List.nil_append], by simp⟩
  | y :: u, p, v, _, _, _, .left h, e => by
    simp only [List.cons_append, List.cons.injEq] at e
    rcases h.split e.2 with ⟨a, b, h1, h2⟩ | ⟨a, b, h1, h2⟩
    · refine Or.inl ⟨y :: a, b, by rw [e.1, h1]; rfl, ?_⟩
      intro q hq
      rcases List.mem_cons.1 hq with rfl | hq
      · exact List.mem_cons_self
      · exact List.mem_cons_of_mem _ (h2 q hq)
    · exact Or.inr ⟨a, b, h1, fun q hq => List.mem_cons_of_mem _ (h2 q hq)⟩
  | y :: u, p, v, _, _, _, .right h, e => by
    simp only [List.cons_append, List.cons.injEq] at e
    rcases h.split e.2 with ⟨a, b, h1, h2⟩ | ⟨a, b, h1, h2⟩
    · exact Or.inl ⟨a, b, h1, fun q hq => List.mem_cons_of_mem _ (h2 q hq)⟩
    · refine Or.inr ⟨y :: a, b, by rw [e.1, h1]; rfl, ?_⟩
      intro q hq
      rcases List.mem_cons.1 hq with rfl | hq
      · exact List.mem_cons_self
      · exact List.mem_cons_of_mem _ (h2 q hq)

theorem flatMapM_append (f : α → Option (List β)) : ∀ (xs ys : List α) {a b : List β},
    flatMapM f xs = some a → flatMapM f ys = some b → flatMapM f (xs ++ ys) = some (a ++ b)
  | [], ys, a, b, h, h' => by cases h; exact h'
  | x :: xs, ys, a, b, h, h' => by
    rw [List.cons_append, flatMapM]
    rw [flatMapM] at h
    cases hx : f x with
    | none => rw [hx] at h; cases h
    | some zs =>
      rw [hx] at h
      simp only at h ⊢
      cases hr : flatMapM f xs with
      | none => rw [hr] at h; cases h
      | some ws =>
        rw [hr] at h
        cases h
        rw [flatMapM_append f xs ys hr h']
        simp

/-- Collecting pairs of lists. -/
theorem flatMapM_both {f g h : α → Option (List β)} : ∀ {xs : List α} {a b : List β},
    (∀ x ∈ xs, ∀ y z, f x = some y → g x = some z → h x = some (y ++ z)) →
    flatMapM f xs = some a → flatMapM g xs = some b → ∃ c, flatMapM h xs = some c ∧ Interleaved a b c ∧
      (xs.length ≤ 1 → c = a ++ b)
  | [], a, b, _, hf, hg => by cases hf; cases hg; exact ⟨[], rfl, .nil, fun _ => rfl⟩
  | x :: xs, a, b, hh, hf, hg => by
    rw [flatMapM] at hf hg
    cases hx : f x with
    | none => rw [hx] at hf; cases hf
    | some y =>
      cases hx' : g x with
      | none => rw [hx'] at hg; cases hg
      | some z =>
        rw [hx] at hf
        rw [hx'] at hg
        simp only at hf hg
        cases hr : flatMapM f xs with
        | none => rw [hr] at hf; cases hf
        | some a' =>
          cases hr' : flatMapM g xs with
          | none => rw [hr'] at hg; cases hg
          | some b' =>
            rw [hr] at hf
            rw [hr'] at hg
            cases hf
            cases hg
            obtain ⟨c, h1, h2, h3⟩ := flatMapM_both (fun w hw => hh w (List.mem_cons_of_mem _ hw)) hr hr'
            refine ⟨y ++ z ++ c, ?_, (Interleaved.append_lists y z).append h2, ?_⟩
            · rw [flatMapM, hh x List.mem_cons_self y z hx hx', h1]
            · intro hl
              have : xs = [] := by
                cases xs with
                | nil => rfl
                | cons _ _ => simp at hl
              subst this
              cases hr
              cases hr'
              cases h1
              simp

/-- A section of the grammar other than ADDRESS. -/
def OtherSection (A : Grammar F) (n : Str) : Prop :=
  n ≠ c!"ADDRESS" ∧ ((∃ v, (n, v) ∈ A.metaNames) ∨ ∃ v, (n, v) ∈ A.ruleSections)

/-- References of a grammar lead to its sections. -/
theorem refs_lead {A : Grammar F} (wf : WfGrammar A) {s : Str × List (List Str)} (h : s ∈ A.metaNames) {refs : List Str}
    (hr : refs ∈ s.2) {n : Str} (hn : n ∈ refs) : (∃ v, (n, v) ∈ A.metaNames) ∨ ∃ v, (n, v) ∈ A.ruleSections := by
  obtain ⟨sec, hs, rfl⟩ := List.mem_map.1 h
  obtain ⟨rs, hrs, rfl⟩ := List.mem_map.1 hr
  obtain ⟨ref, href, rfl⟩ := List.mem_map.1 hn
  rcases wf.linked sec hs rs hrs ref href with ⟨i, s, _, h5, h6⟩ | ⟨_, i, s, _, h5, h6⟩
  · exact Or.inl ⟨_, List.mem_map.2 ⟨s, List.mem_of_getElem? h5, by rw [h6]⟩⟩
  · exact Or.inr ⟨_, List.mem_map.2 ⟨s, List.mem_of_getElem? h5, by rw [h6]⟩⟩

/-- The part `A` is mirrored outside ADDRESS. -/
theorem mirrors_part {G A : Grammar F} (wfG : WfGrammar G) (wfA : WfGrammar A)
    (hm : ∀ s ∈ A.metaNames, s.1 ≠ c!"ADDRESS" → s ∈ G.metaNames) (hr : ∀ s ∈ A.ruleSections, s ∈ G.ruleSections)
    (hf : ∀ s ∈ A.metaNames, ∀ refs ∈ s.2, c!"ADDRESS" ∉ refs) :
    Mirrors (OtherSection A) id id A.look G.look := by
  rintro a ⟨hne, ⟨v, hv⟩ | ⟨v, hv⟩⟩
  · left
    refine ⟨v, (look_metas_mem wfA _ _).2 hv, ?_, ?_⟩
    · rw [id, (look_metas_mem wfG _ _).2 (hm _ hv hne)]; simp
    · intro refs hrefs n hn
      exact ⟨fun e => hf _ hv refs hrefs (e ▸ hn), refs_lead wfA hv hrefs hn⟩
  · right
    obtain ⟨sec, hs, e⟩ := List.mem_map.1 hv
    simp only [Prod.mk.injEq] at e
    obtain ⟨sec', hs', e'⟩ := List.mem_map.1 (hr _ hv)
    simp only [Prod.mk.injEq] at e'
    refine ⟨?_, ?_, v, (look_rules_mem wfA _ _).2 hv, ?_⟩
    · rw [← e.1]; exact look_meta_none wfA hs
    · rw [id, ← e'.1]; exact look_meta_none wfG hs'
    · rw [id, (look_rules_mem wfG _ _).2 (hr _ hv)]; simp

/-- What the references of ADDRESS of the part lead to. -/
theorem part_refs {G A : Grammar F} (wfG : WfGrammar G) (wfA : WfGrammar A)
    (hm : ∀ s ∈ A.metaNames, s.1 ≠ c!"ADDRESS" → s ∈ G.metaNames) (hr : ∀ s ∈ A.ruleSections, s ∈ G.ruleSections)
    (hf : ∀ s ∈ A.metaNames, ∀ refs ∈ s.2, c!"ADDRESS" ∉ refs) {va : List (List Str)} (hv : (c!"ADDRESS", va) ∈ A.metaNames)
    (limit fuel : Nat) (e : List InType) :
    flatMapM (fun refs =>
        let current : SearchPath F := { rules := [], next := refs.map (fun n => { name := n }) ++ [], remaining := e }
        if current.next.length > 0 then nMatchNext G.look limit fuel current 0 else some []) va =
      nMatchPath A.look limit (nMatchNext A.look limit fuel) c!"ADDRESS" { remaining := e } 0 := by
  have hM := mirrors_part wfG wfA hm hr hf
  unfold nMatchPath
  rw [if_neg (by omega), (look_metas_mem wfA _ _).2 hv]
  refine flatMapM_congr va ?_
  intro refs hrefs
  simp only
  split
  · have hP : ∀ r ∈ (refs.map (fun n => ({ name := n } : SectionPtr)) ++ []), OtherSection A r.name := by
      intro r hr'
      rw [List.append_nil] at hr'
      obtain ⟨n, hn, rfl⟩ := List.mem_map.1 hr'
      exact ⟨fun e => hf _ hv refs hrefs (e ▸ hn), refs_lead wfA hv hrefs hn⟩
    have := nMatchNext_image (φ := id) (fun _ => rfl) hM limit fuel
      { rules := [], next := refs.map (fun n => { name := n }) ++ [], remaining := e } 0 hP
    have himg : image id id ({ rules := [], next := refs.map (fun n => { name := n }) ++ [], remaining := e } : SearchPath F) =
        { rules := [], next := refs.map (fun n => { name := n }) ++ [], remaining := e } := by
      simp [image]
    rw [himg] at this
    rw [← this]
    cases hx : nMatchNext A.look limit fuel
      { rules := [], next := refs.map (fun n => { name := n }) ++ [], remaining := e } 0 with
    | none => rfl
    | some zs =>
      rw [Option.map_some, Option.some.injEq]
      conv => rhs; rw [← List.map_id zs]
      apply List.map_congr_left
      intro p hp
      have hnil := (nMatchNext_shape _ limit fuel _ _ _ hx p hp).1
      cases p
      simp only at hnil
      subst hnil
      simp [image]
  · rfl

/-- Searching in a grammar made of two finds what is found in either, each in its order; for tokens with one class each, first
all of the one, then all of the other. -/
theorem search_together {G A B : Grammar F} (wfG : WfGrammar G) (wfA : WfGrammar A) (wfB : WfGrammar B) (h : Together G A B)
    (phrase : List Token) : ∃ a b c, search A c!"ADDRESS" phrase = .ok a ∧ search B c!"ADDRESS" phrase = .ok b ∧
      search G c!"ADDRESS" phrase = .ok c ∧ Interleaved a b c ∧
      (∀ ps, Token.enumerate phrase = some ps → ps.length ≤ 1 → c = a ++ b) := by
  obtain ⟨va, vb, ha, hb, hg⟩ := h.root
  obtain ⟨ps, hps, _⟩ := Token.enumerate_picks phrase
  have ptr : ∀ {H : Grammar F}, WfGrammar H → ∀ {v}, (c!"ADDRESS", v) ∈ H.metaNames →
      ∃ ptr, stringToSectionPtr H c!"ADDRESS" = some ptr ∧ ptr.name = c!"ADDRESS" ∧ PtrOk H ptr := by
    intro H wf v hv
    rcases stringToSectionPtr_ok wf c!"ADDRESS" with h | ⟨_, h2, _⟩
    · exact h
    · obtain ⟨sec, hs, e⟩ := List.mem_map.1 hv
      simp only [Prod.mk.injEq] at e
      exact absurd e.1 (h2 sec hs)
  obtain ⟨pa, a1, a2, a3⟩ := ptr wfA ha
  obtain ⟨pb, b1, b2, b3⟩ := ptr wfB hb
  obtain ⟨pg, g1, g2, g3⟩ := ptr wfG hg
  let limit := phrase.length + 2
  let fuel := max (searchFuel G limit) (max (searchFuel A limit) (searchFuel B limit))
  obtain ⟨ma, ka1, _, ka2⟩ := matchAll_by_name wfA limit pa a3 ps fuel (by simp only [fuel]; omega)
  obtain ⟨mb, kb1, _, kb2⟩ := matchAll_by_name wfB limit pb b3 ps fuel (by simp only [fuel]; omega)
  obtain ⟨mg, kg1, _, kg2⟩ := matchAll_by_name wfG limit pg g3 ps fuel (by simp only [fuel]; omega)
  rw [a2] at ka2
  rw [b2] at kb2
  rw [g2] at kg2
  obtain ⟨c, hc, hi, h1⟩ := flatMapM_both
    (h := fun path => nMatchPath G.look limit (nMatchNext G.look limit fuel) c!"ADDRESS" path 0) (by
      intro path hpath y z hy hz
      obtain ⟨e, _, rfl⟩ := List.mem_map.1 hpath
      rw [← part_refs wfG wfA (fun s hs => h.metas s (Or.inl hs)) (fun s hs => h.rules s (Or.inl hs))
        (fun s hs => h.free s (Or.inl hs)) ha] at hy
      rw [← part_refs wfG wfB (fun s hs => h.metas s (Or.inr hs)) (fun s hs => h.rules s (Or.inr hs))
        (fun s hs => h.free s (Or.inr hs)) hb] at hz
      have := flatMapM_append _ va vb hy hz
      unfold nMatchPath
      rw [if_neg (by omega), (look_metas_mem wfG _ _).2 hg]
      exact this) ka2 kb2
  rw [hc, Option.some.injEq] at kg2
  subst kg2
  unfold search
  rw [hps, a1, b1, g1]
  simp only
  rw [ka1, kb1, kg1]
  refine ⟨_, _, _, rfl, rfl, rfl, hi.filter _, ?_⟩
  intro ps' hps' hl
  cases hps'
  rw [h1 (by rw [List.length_map]; exact hl), List.filter_append]

end AS
