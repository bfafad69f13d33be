import Verif.Lemmas.SearchByName
/-
Searching in a grammar that mirrors another: sections renamed, rules replaced by rules with the same
input classes, sections that cannot be reached added or left out.
-/
namespace AS
variable {F F' : Type}

/-- From the names in `P` on, `K` does what `L` does, with names translated by `ρ` and rules by `φ`. -/
def Mirrors (P : Str → Prop) (ρ : Str → Str) (φ : Rule F → Rule F') (L : Look F) (K : Look F') : Prop :=
  ∀ a, P a →
    (∃ v, L.metas a = some v ∧ K.metas (ρ a) = some (v.map (·.map ρ)) ∧ ∀ refs ∈ v, ∀ n ∈ refs, P n) ∨
    (L.metas a = none ∧ K.metas (ρ a) = none ∧ ∃ rs, L.rules a = some rs ∧ K.rules (ρ a) = some (rs.map φ))

/-- The translation of a path. -/
def image (ρ : Str → Str) (φ : Rule F → Rule F') (p : SearchPath F) : SearchPath F' :=
  { rules := p.rules.map φ, next := p.next.map (fun r => { name := ρ r.name }), remaining := p.remaining }

variable {P : Str → Prop} {ρ : Str → Str} {φ : Rule F → Rule F'}

theorem matchRules_image (hφ : ∀ r, (φ r).inClass = r.inClass) (path : SearchPath F) : ∀ rs : List (Rule F),
    (matchRules path rs).map (image ρ φ) = matchRules (image ρ φ path) (rs.map φ)
  | [] => rfl
  | r :: rs => by
    have hr : image ρ φ (matchRule r path) = matchRule (φ r) (image ρ φ path) := by
      have hrem : (image ρ φ path).remaining = path.remaining := rfl
      unfold matchRule
      rw [hφ, hrem]
      by_cases h : r.inClass.length > path.remaining.length
      · rw [if_pos h, if_pos h]; rfl
      · rw [if_neg h, if_neg h]
        cases matchPrefix r.inClass path.remaining with
        | none => rfl
        | some rest => simp [image]
    have hl : (matchRule (φ r) (image ρ φ path)).rules.length = (matchRule r path).rules.length := by
      rw [← hr]; simp [image]
    rw [List.map_cons]
    simp only [matchRules]
    rw [hl]
    split
    · rw [List.map_cons, hr, matchRules_image hφ path rs]
    · exact matchRules_image hφ path rs

/-- What is left to do in the results of a matcher is what was left to do before. -/
theorem nMatchPath_next {L : Look F} {K : Look F'} (hm : Mirrors P ρ φ L K) (limit : Nat)
    (mnext : SearchPath F → Nat → Option (List (SearchPath F)))
    (ih : ∀ path level zs, (∀ r ∈ path.next, P r.name) → mnext path level = some zs →
      ∀ p ∈ zs, ∀ r ∈ p.next, P r.name)
    (s : Str) (hs : P s) (path : SearchPath F) (hpath : ∀ r ∈ path.next, P r.name) (level : Nat)
    (zs : List (SearchPath F)) (h : nMatchPath L limit mnext s path level = some zs) :
    ∀ p ∈ zs, ∀ r ∈ p.next, P r.name := by
  unfold nMatchPath at h
  split at h
  · cases h; simp
  · rcases hm s hs with ⟨v, h1, _, hv⟩ | ⟨h1, _, rs, h2, _⟩
    · rw [h1] at h
      simp only at h
      intro p hp
      obtain ⟨refs, hr, ws, hw, hpw⟩ := (flatMapM_some h p).1 hp
      split at hw
      · refine ih _ _ ws ?_ hw p hpw
        intro r hr'
        rcases List.mem_append.1 hr' with h | h
        · obtain ⟨n, hn, rfl⟩ := List.mem_map.1 h
          exact hv refs hr n hn
        · exact hpath r h
      · cases hw; cases hpw
    · rw [h1] at h
      simp only [h2, Option.some.injEq] at h
      subst h
      intro p hp
      rw [matchRules_next path rs p hp]
      exact hpath

theorem nMatchNext_next {L : Look F} {K : Look F'} (hm : Mirrors P ρ φ L K) (limit : Nat) : ∀ (fuel : Nat)
    (path : SearchPath F) (level : Nat) (zs : List (SearchPath F)), (∀ r ∈ path.next, P r.name) →
    nMatchNext L limit fuel path level = some zs → ∀ p ∈ zs, ∀ r ∈ p.next, P r.name
  | 0, _, _, _, _, h => by cases h
  | fuel + 1, path, level, zs, hpath, h => by
    have ih := nMatchNext_next hm limit fuel
    rw [nMatchNext] at h
    split at h
    · cases h; simp
    · rename_i ptr rest hnext
      rw [hnext] at hpath
      split at h
      · cases h
      · rename_i mr hmr
        have hmrP := nMatchPath_next hm limit _ ih ptr.name (hpath ptr List.mem_cons_self)
          { path with next := rest } (fun r hr => hpath r (List.mem_cons_of_mem _ hr)) _ mr hmr
        intro p hp
        obtain ⟨x, hx, ws, hw, hpw⟩ := (flatMapM_some h p).1 hp
        split at hw
        · unfold matchNextAll at hw
          obtain ⟨y, hy, us, hu, hpu⟩ := (flatMapM_some hw p).1 hpw
          split at hu
          · exact ih y level us (hmrP y hy) hu p hpu
          · cases hu; cases hpu
        · cases hw
          rw [List.mem_singleton.1 hpw]
          exact hmrP x hx

theorem nMatchPath_image {L : Look F} {K : Look F'} (hφ : ∀ r, (φ r).inClass = r.inClass)
    (hm : Mirrors P ρ φ L K) (limit fuel : Nat)
    (ih : ∀ (path : SearchPath F) (level : Nat), (∀ r ∈ path.next, P r.name) →
      (nMatchNext L limit fuel path level).map (·.map (image ρ φ)) = nMatchNext K limit fuel (image ρ φ path) level)
    (s : Str) (hs : P s) (path : SearchPath F) (hpath : ∀ r ∈ path.next, P r.name) (level : Nat) :
    (nMatchPath L limit (nMatchNext L limit fuel) s path level).map (·.map (image ρ φ)) =
      nMatchPath K limit (nMatchNext K limit fuel) (ρ s) (image ρ φ path) level := by
  unfold nMatchPath
  by_cases hl : level > limit
  · rw [if_pos hl, if_pos hl]; rfl
  · rw [if_neg hl, if_neg hl]
    rcases hm s hs with ⟨v, h1, h2, hv⟩ | ⟨h1, h2, rs, h3, h4⟩
    · rw [h1, h2]
      simp only
      refine flatMapM_map (image ρ φ) (fun refs : List Str => refs.map ρ) v ?_
      intro refs hr
      have hok : ∀ r ∈ List.map (fun n => ({ name := n } : SectionPtr)) refs ++ path.next, P r.name := by
        intro r hr'
        rcases List.mem_append.1 hr' with h | h
        · obtain ⟨n, hn, rfl⟩ := List.mem_map.1 h
          exact hv refs hr n hn
        · exact hpath r h
      have hb : image ρ φ { path with next := List.map (fun n => ({ name := n } : SectionPtr)) refs ++ path.next } =
          { image ρ φ path with next := List.map (fun n => ({ name := n } : SectionPtr)) (refs.map ρ) ++ (image ρ φ path).next } := by
        simp [image]
      have hlen : (List.map (fun n => ({ name := n } : SectionPtr)) (refs.map ρ) ++ (image ρ φ path).next).length
          = (List.map (fun n => ({ name := n } : SectionPtr)) refs ++ path.next).length := by simp [image]
      simp only [hlen]
      split
      · rw [← hb]; exact ih _ _ hok
      · rfl
    · rw [h1, h2]
      simp only [h3, h4, Option.map_some, matchRules_image hφ]

theorem nMatchNext_image {L : Look F} {K : Look F'} (hφ : ∀ r, (φ r).inClass = r.inClass)
    (hm : Mirrors P ρ φ L K) (limit : Nat) : ∀ (fuel : Nat) (path : SearchPath F) (level : Nat),
    (∀ r ∈ path.next, P r.name) →
      (nMatchNext L limit fuel path level).map (·.map (image ρ φ)) = nMatchNext K limit fuel (image ρ φ path) level
  | 0, _, _, _ => rfl
  | fuel + 1, ⟨rules, [], remaining⟩, level, _ => rfl
  | fuel + 1, ⟨rules, ptr :: stack, remaining⟩, level, hptr => by
    have ih := nMatchNext_image hφ hm limit fuel
    have hstack : ∀ r ∈ stack, P r.name := fun r hr => hptr r (List.mem_cons_of_mem _ hr)
    have hp := hptr ptr List.mem_cons_self
    have key := nMatchPath_image hφ hm limit fuel ih ptr.name hp ⟨rules, stack, remaining⟩ hstack (level + 1)
    have key' : nMatchPath K limit (nMatchNext K limit fuel) (ρ ptr.name)
        ⟨rules.map φ, stack.map (fun r => { name := ρ r.name }), remaining⟩ (level + 1) =
        (nMatchPath L limit (nMatchNext L limit fuel) ptr.name ⟨rules, stack, remaining⟩ (level + 1)).map
          (·.map (image ρ φ)) := key.symm
    rw [nMatchNext, nMatchNext]
    simp only [image, List.map_cons]
    rw [key']
    cases hmm : nMatchPath L limit (nMatchNext L limit fuel) ptr.name ⟨rules, stack, remaining⟩ (level + 1) with
    | none => rfl
    | some mr =>
      have hptrs := nMatchPath_next hm limit _ (nMatchNext_next hm limit fuel) ptr.name hp ⟨rules, stack, remaining⟩
        hstack (level + 1) mr hmm
      simp only [Option.map_some]
      refine flatMapM_map (image ρ φ) (image ρ φ) mr ?_
      intro r hr
      have hlen : (image ρ φ r).next.length = r.next.length := by simp [image]
      rw [hlen]
      split
      · unfold matchNextAll
        refine flatMapM_map (image ρ φ) (image ρ φ) mr ?_
        intro p hp
        have hlen : (image ρ φ p).next.length = p.next.length := by simp [image]
        rw [hlen]
        split
        · exact ih p level (hptrs p hp)
        · rfl
      · rfl

/-! ### More fuel does not matter -/

theorem flatMapM_more {α β : Type} {f g : α → Option (List β)} : ∀ (xs : List α) (ys : List β),
    (∀ x ∈ xs, ∀ zs, f x = some zs → g x = some zs) → flatMapM f xs = some ys → flatMapM g xs = some ys
  | [], _, _, h => h
  | x :: xs, ys, hfg, h => by
    rw [flatMapM] at h ⊢
    cases hx : f x with
    | none => rw [hx] at h; cases h
    | some zs =>
      rw [hx] at h
      rw [hfg x List.mem_cons_self zs hx]
      simp only at h ⊢
      cases hr : flatMapM f xs with
      | none => rw [hr] at h; cases h
      | some ws =>
        rw [hr] at h
        rw [flatMapM_more xs ws (fun y hy => hfg y (List.mem_cons_of_mem _ hy)) hr]
        exact h

theorem nMatchPath_mono {L : Look F} {limit : Nat} {f g : SearchPath F → Nat → Option (List (SearchPath F))}
    (hfg : ∀ path level zs, f path level = some zs → g path level = some zs) (s : Str) (path : SearchPath F) (level : Nat)
    (zs : List (SearchPath F)) (h : nMatchPath L limit f s path level = some zs) :
    nMatchPath L limit g s path level = some zs := by
  unfold nMatchPath at h ⊢
  split
  · rw [if_pos ‹_›] at h; exact h
  · rw [if_neg ‹_›] at h
    cases hm : L.metas s with
    | none => rw [hm] at h; exact h
    | some v =>
      rw [hm] at h
      simp only at h ⊢
      refine flatMapM_more v zs ?_ h
      intro refs _ ws hw
      split
      · rw [if_pos ‹_›] at hw; exact hfg _ _ _ hw
      · rw [if_neg ‹_›] at hw; exact hw

theorem nMatchNext_mono {L : Look F} {limit : Nat} : ∀ (fuel fuel' : Nat), fuel ≤ fuel' →
    ∀ (path : SearchPath F) (level : Nat) (zs : List (SearchPath F)),
      nMatchNext L limit fuel path level = some zs → nMatchNext L limit fuel' path level = some zs
  | 0, _, _, _, _, _, h => by cases h
  | fuel + 1, 0, hle, _, _, _, _ => by omega
  | fuel + 1, fuel' + 1, hle, path, level, zs, h => by
    have ih := nMatchNext_mono (L := L) (limit := limit) fuel fuel' (by omega)
    rw [nMatchNext] at h ⊢
    split
    · rename_i hn; rw [hn] at h; exact h
    · rename_i ptr rest hn
      rw [hn] at h
      simp only at h
      split at h
      · cases h
      · rename_i mr hmr
        rw [nMatchPath_mono ih _ _ _ _ hmr]
        simp only
        refine flatMapM_more mr zs ?_ h
        intro x _ ws hw
        split
        · rw [if_pos ‹_›] at hw
          unfold matchNextAll at hw ⊢
          refine flatMapM_more mr ws ?_ hw
          intro y _ us hu
          split
          · rw [if_pos ‹_›] at hu; exact ih _ _ _ hu
          · rw [if_neg ‹_›] at hu; exact hu
        · rw [if_neg ‹_›] at hw; exact hw

/-! ### Searching -/

/-- What is found from a section, by names. -/
theorem matchAll_by_name {G : Grammar F} (wf : WfGrammar G) (limit : Nat) (q : SectionPtr) (hq : PtrOk G q)
    (ps : List (List InType)) (fuel : Nat) (hfuel : searchFuel G limit ≤ fuel) :
    ∃ ms, matchAll G limit q (ps.map (fun e => { remaining := e : SearchPath F })) 0 = some ms ∧
      (∀ p ∈ ms, p.next = []) ∧
      flatMapM (fun path => nMatchPath G.look limit (nMatchNext G.look limit fuel) q.name path 0)
        (ps.map (fun e => { remaining := e : SearchPath F })) = some ms := by
  have hex : ∀ path ∈ ps.map (fun e => { remaining := e : SearchPath F }), ∃ zs,
      matchPath G limit (matchNext G limit (searchFuel G limit)) q path 0 = some zs := by
    intro path hpath
    obtain ⟨e, _, rfl⟩ := List.mem_map.1 hpath
    obtain ⟨res, hres, _⟩ := matchPath_top wf limit q hq e
    exact ⟨res, hres⟩
  obtain ⟨ms, hms⟩ := flatMapM_isSome _ hex
  have hnext : ∀ p ∈ ms, p.next = [] := by
    intro p hp
    obtain ⟨path, hpath, zs, hz, hpz⟩ := (flatMapM_some hms p).1 hp
    obtain ⟨e, _, rfl⟩ := List.mem_map.1 hpath
    obtain ⟨res, hres, hmem⟩ := matchPath_top wf limit q hq e
    rw [hres] at hz
    cases hz
    obtain ⟨_, _, _, _, _, _, rfl⟩ := (hmem p).1 hpz
    rfl
  refine ⟨ms, hms, hnext, ?_⟩
  have hmap := flatMapM_map (f := fun path => matchPath G limit (matchNext G limit (searchFuel G limit)) q path 0)
    (g := fun path => nMatchPath G.look limit (nMatchNext G.look limit (searchFuel G limit)) q.name path 0)
    bare bare (ps.map (fun e => { remaining := e : SearchPath F })) (by
      intro path hpath
      obtain ⟨e, _, rfl⟩ := List.mem_map.1 hpath
      exact matchPath_bare wf _ _ (fun path level hp => matchNext_bare wf _ _ path level hp) q hq _ (by simp) 0)
  rw [hms, Option.map_some, map_bare_eq hnext] at hmap
  have hb : (ps.map (fun e => { remaining := e : SearchPath F })).map bare =
      ps.map (fun e => { remaining := e : SearchPath F }) := by
    apply map_bare_eq
    intro p hp
    obtain ⟨e, _, rfl⟩ := List.mem_map.1 hp
    rfl
  rw [hb] at hmap
  refine flatMapM_more _ ms ?_ hmap.symm
  intro path _ zs hz
  exact nMatchPath_mono (fun path level zs h => nMatchNext_mono _ _ hfuel path level zs h) _ _ _ _ hz

/-- Searching in a grammar that mirrors another gives the translated results, in the same order. -/
theorem search_mirrors {G : Grammar F} {H : Grammar F'} (wfG : WfGrammar G) (wfH : WfGrammar H)
    (hφ : ∀ r, (φ r).inClass = r.inClass) (hm : Mirrors P ρ φ G.look H.look) (node : Str) (hP : P node)
    (phrase : List Token) :
    (search G node phrase = .undefined ∧ search H (ρ node) phrase = .undefined) ∨
    ∃ results, search G node phrase = .ok results ∧
      search H (ρ node) phrase = .ok (results.map (fun p => ⟨p.rules.map φ, [], p.remaining⟩)) ∧
      ∀ p ∈ results, p.next = [] ∧ p.remaining = [] := by
  unfold search
  cases hen : Token.enumerate phrase with
  | none => exact Or.inl ⟨rfl, rfl⟩
  | some ps =>
    right
    simp only
    have hGn : ∃ ptr, stringToSectionPtr G node = some ptr ∧ ptr.name = node ∧ PtrOk G ptr := by
      rcases stringToSectionPtr_ok wfG node with h | ⟨_, h2, h3⟩
      · exact h
      · exfalso
        rcases hm node hP with ⟨v, h, _, _⟩ | ⟨_, _, rs, h, _⟩
        · obtain ⟨sec, hs, e⟩ := List.mem_map.1 ((look_metas_mem wfG _ _).1 h)
          simp only [Prod.mk.injEq] at e
          exact h2 sec hs e.1
        · obtain ⟨sec, hs, e⟩ := List.mem_map.1 ((look_rules_mem wfG _ _).1 h)
          simp only [Prod.mk.injEq] at e
          exact h3 sec hs e.1
    have hHn : ∃ ptr, stringToSectionPtr H (ρ node) = some ptr ∧ ptr.name = ρ node ∧ PtrOk H ptr := by
      rcases stringToSectionPtr_ok wfH (ρ node) with h | ⟨_, h2, h3⟩
      · exact h
      · exfalso
        rcases hm node hP with ⟨v, _, h, _⟩ | ⟨_, _, rs, _, h⟩
        · obtain ⟨sec, hs, e⟩ := List.mem_map.1 ((look_metas_mem wfH _ _).1 h)
          simp only [Prod.mk.injEq] at e
          exact h2 sec hs e.1
        · obtain ⟨sec, hs, e⟩ := List.mem_map.1 ((look_rules_mem wfH _ _).1 h)
          simp only [Prod.mk.injEq] at e
          exact h3 sec hs e.1
    obtain ⟨ptr, h1, h2, h3⟩ := hGn
    obtain ⟨ptr', h1', h2', h3'⟩ := hHn
    rw [h1, h1']
    simp only
    let fuel := max (searchFuel G (phrase.length + 2)) (searchFuel H (phrase.length + 2))
    obtain ⟨ms, k1, kn, k2⟩ := matchAll_by_name wfG (phrase.length + 2) ptr h3 ps fuel (Nat.le_max_left _ _)
    obtain ⟨ms', k1', kn', k2'⟩ := matchAll_by_name wfH (phrase.length + 2) ptr' h3' ps fuel (Nat.le_max_right _ _)
    have hmap := flatMapM_map
      (f := fun path => nMatchPath G.look (phrase.length + 2) (nMatchNext G.look (phrase.length + 2) fuel) node path 0)
      (g := fun path => nMatchPath H.look (phrase.length + 2) (nMatchNext H.look (phrase.length + 2) fuel) (ρ node) path 0)
      (image ρ φ) (image ρ φ) (ps.map (fun e => { remaining := e : SearchPath F })) (by
        intro path hpath
        obtain ⟨e, _, rfl⟩ := List.mem_map.1 hpath
        exact nMatchPath_image hφ hm _ _ (fun path level h => nMatchNext_image hφ hm _ _ path level h) node hP _
          (by simp) 0)
    have hb : (ps.map (fun e => { remaining := e : SearchPath F })).map (image ρ φ) =
        ps.map (fun e => { remaining := e : SearchPath F' }) := by
      rw [List.map_map]
      rfl
    rw [h2] at k2
    rw [h2'] at k2'
    rw [hb, k2, k2', Option.map_some, Option.some.injEq] at hmap
    rw [k1, k1']
    simp only
    refine ⟨_, rfl, ?_, ?_⟩
    · rw [← hmap, List.filter_map]
      congr 1
      apply List.map_congr_left
      intro p hp
      have := kn p (List.mem_filter.1 hp).1
      simp [image, this]
    · intro p hp
      obtain ⟨h1, h2⟩ := List.mem_filter.1 hp
      refine ⟨kn p h1, ?_⟩
      simpa using h2

end AS
