import Verif.Lemmas.Search
import Verif.Spec.Order
/-
Searching depends on the sections of a grammar only through their names: a matcher that looks sections
up by name, and the proof that `search` agrees with it.
-/
namespace AS
variable {F : Type}

/-- A path without the pointers of its references. -/
def bare (p : SearchPath F) : SearchPath F := { p with next := p.next.map (fun r => { name := r.name }) }

/-- What sections the names stand for. -/
structure Look (F : Type) where
  metas : Str → Option (List (List Str))
  rules : Str → Option (List (Rule F))

/-- `matchPath` by names. -/
def nMatchPath (lk : Look F) (limit : Nat) (mnext : SearchPath F → Nat → Option (List (SearchPath F)))
    (s : Str) (path : SearchPath F) (level : Nat) : Option (List (SearchPath F)) :=
  if level > limit then some []
  else
    match lk.metas s with
    | some rs =>
      flatMapM (fun refs =>
        let current := { path with next := refs.map (fun n => { name := n }) ++ path.next }
        if current.next.length > 0 then mnext current level else some []) rs
    | none =>
      match lk.rules s with
      | some rs => some (matchRules path rs)
      | none => some []

/-- `matchNext` by names. -/
def nMatchNext (lk : Look F) (limit : Nat) : Nat → SearchPath F → Nat → Option (List (SearchPath F))
  | 0, _, _ => none
  | fuel + 1, path, level =>
    match path.next with
    | [] => some []
    | ptr :: rest =>
      match nMatchPath lk limit (nMatchNext lk limit fuel) ptr.name { path with next := rest } (level + 1) with
      | none => none
      | some mr =>
        flatMapM (fun result =>
          if result.next.length > 0 then matchNextAll (nMatchNext lk limit fuel) mr level
          else some [result]) mr

/-- The sections of a grammar by name. -/
def Grammar.look (G : Grammar F) : Look F where
  metas s := (G.metas.find? (fun m => m.name = s)).map (fun m => m.rules.map (·.map (·.name)))
  rules s := (G.rules.find? (fun m => m.name = s)).map (·.rules)

theorem find?_unique {α : Type} (f : α → Str) {l : List α} (h : (l.map f).Nodup) {x : α} (hx : x ∈ l) :
    l.find? (fun y => f y = f x) = some x := by
  cases hf : l.find? (fun y => f y = f x) with
  | none =>
    have := List.find?_eq_none.1 hf x hx
    simp at this
  | some y =>
    have h1 := List.mem_of_find?_eq_some hf
    have h2 := List.find?_some hf
    simp only [decide_eq_true_eq] at h2
    rw [nodup_map_inj h h1 hx h2]

theorem look_meta {G : Grammar F} (wf : WfGrammar G) {sec : MetaSection} (h : sec ∈ G.metas) :
    G.look.metas sec.name = some (sec.rules.map (·.map (·.name))) := by
  have := find?_unique (·.name) (List.nodup_append.1 wf.distinct).1 h
  simp only [Grammar.look, this, Option.map_some]

theorem look_meta_none {G : Grammar F} (wf : WfGrammar G) {sec : RuleSection F} (h : sec ∈ G.rules) :
    G.look.metas sec.name = none := by
  simp only [Grammar.look, Option.map_eq_none_iff, List.find?_eq_none, decide_eq_true_eq]
  exact fun m hm => wf.disjoint hm h

theorem look_rule {G : Grammar F} (wf : WfGrammar G) {sec : RuleSection F} (h : sec ∈ G.rules) :
    G.look.rules sec.name = some sec.rules := by
  have := find?_unique (·.name) (List.nodup_append.1 wf.distinct).2.1 h
  simp only [Grammar.look, this, Option.map_some]

theorem flatMapM_map {α β γ δ : Type} {f : α → Option (List β)} {g : γ → Option (List δ)} (e : β → δ) (e' : α → γ) :
    ∀ xs : List α, (∀ x ∈ xs, (f x).map (·.map e) = g (e' x)) →
      (flatMapM f xs).map (·.map e) = flatMapM g (xs.map e')
  | [], _ => rfl
  | x :: xs, h => by
    have ih := flatMapM_map e e' xs (fun y hy => h y (List.mem_cons_of_mem _ hy))
    have hx := h x List.mem_cons_self
    simp only [flatMapM, List.map_cons]
    rw [← hx, ← ih]
    cases f x with
    | none => rfl
    | some ys =>
      cases flatMapM f xs with
      | none => rfl
      | some zs => simp

theorem matchRules_bare (path : SearchPath F) : ∀ rs : List (Rule F),
    (matchRules path rs).map bare = matchRules (bare path) rs
  | [] => rfl
  | r :: rs => by
    have hr : bare (matchRule r path) = matchRule r (bare path) := by
      unfold matchRule bare
      simp only
      split
      · rfl
      · split <;> rfl
    have hl : (matchRule r (bare path)).rules = (matchRule r path).rules := by rw [← hr]; rfl
    simp only [matchRules]
    rw [hl]
    split
    · rw [List.map_cons, hr, matchRules_bare path rs]
    · exact matchRules_bare path rs

theorem matchRules_next (path : SearchPath F) (rs : List (Rule F)) : ∀ p ∈ matchRules path rs, p.next = path.next := by
  intro p hp
  obtain ⟨r, _, rest, _, rfl⟩ := (mem_matchRules path rs p).1 hp
  rfl

/-- The references left in what `matchPath` returns point to sections. -/
theorem matchPath_ptrs {G : Grammar F} (wf : WfGrammar G) (limit fuel : Nat) (ptr : SectionPtr) (hp : PtrOk G ptr)
    (path : SearchPath F) (hpath : ∀ ref ∈ path.next, PtrOk G ref) (level : Nat) (mr : List (SearchPath F))
    (h : matchPath G limit (matchNext G limit fuel) ptr path level = some mr) :
    ∀ p ∈ mr, ∀ ref ∈ p.next, PtrOk G ref := by
  unfold matchPath at h
  by_cases hl : level > limit
  · rw [if_pos hl] at h
    cases h
    simp
  · rw [if_neg hl] at h
    rcases hp with ⟨i, sec, h1, h2, h3⟩ | ⟨h0, i, sec, h1, h2, h3⟩
    · simp only [h1, h2] at h
      intro p hp
      obtain ⟨refs, hr, zs, hz, hpz⟩ := (flatMapM_some h p).1 hp
      split at hz
      · rename_i hlen
        have hsec := List.mem_of_getElem? h2
        have hok : ∀ ref ∈ refs ++ path.next, PtrOk G ref := by
          intro ref href
          rcases List.mem_append.1 href with h | h
          · exact wf.linked sec hsec refs hr ref h
          · exact hpath ref h
        obtain ⟨rs, m, rest, _, _, _, rfl⟩ := (mem_matchNext wf limit _ _ _ zs hz
          (List.length_pos_iff.1 hlen) hok p).1 hpz
        simp
      · cases hz; cases hpz
    · simp only [h0, h1, h2, Option.some.injEq] at h
      subst h
      intro p hp
      rw [matchRules_next path _ p hp]
      exact hpath

theorem matchPath_bare {G : Grammar F} (wf : WfGrammar G) (limit fuel : Nat)
    (ih : ∀ (path : SearchPath F) (level : Nat), (∀ ref ∈ path.next, PtrOk G ref) →
      (matchNext G limit fuel path level).map (·.map bare) = nMatchNext G.look limit fuel (bare path) level)
    (ptr : SectionPtr) (hp : PtrOk G ptr) (path : SearchPath F) (hpath : ∀ ref ∈ path.next, PtrOk G ref) (level : Nat) :
    (matchPath G limit (matchNext G limit fuel) ptr path level).map (·.map bare) =
      nMatchPath G.look limit (nMatchNext G.look limit fuel) ptr.name (bare path) level := by
  unfold matchPath nMatchPath
  by_cases hl : level > limit
  · rw [if_pos hl, if_pos hl]; rfl
  · rw [if_neg hl, if_neg hl]
    rcases hp with ⟨i, sec, h1, h2, h3⟩ | ⟨h0, i, sec, h1, h2, h3⟩
    · have hsec := List.mem_of_getElem? h2
      simp only [h1, h2]
      rw [← h3, look_meta wf hsec]
      simp only
      refine flatMapM_map bare (fun refs : MetaRule => refs.map (·.name)) sec.rules ?_
      intro refs hr
      have hok : ∀ ref ∈ refs ++ path.next, PtrOk G ref := by
        intro ref href
        rcases List.mem_append.1 href with h | h
        · exact wf.linked sec hsec refs hr ref h
        · exact hpath ref h
      have hb : bare { path with next := refs ++ path.next } =
          { bare path with next := List.map (fun n => ({ name := n } : SectionPtr)) (List.map (·.name) refs) ++ (bare path).next } := by
        simp [bare]
      have hlen : (List.map (fun n => ({ name := n } : SectionPtr)) (List.map (·.name) refs) ++ (bare path).next).length
          = (refs ++ path.next).length := by simp [bare]
      simp only [hlen]
      split
      · rw [← hb]; exact ih _ _ hok
      · rfl
    · have hsec := List.mem_of_getElem? h2
      simp only [h0, h1, h2]
      rw [← h3, look_meta_none wf hsec, look_rule wf hsec]
      simp only [Option.map_some, matchRules_bare]

theorem matchNext_bare {G : Grammar F} (wf : WfGrammar G) (limit : Nat) : ∀ (fuel : Nat) (path : SearchPath F) (level : Nat),
    (∀ ref ∈ path.next, PtrOk G ref) →
      (matchNext G limit fuel path level).map (·.map bare) = nMatchNext G.look limit fuel (bare path) level
  | 0, _, _, _ => rfl
  | fuel + 1, ⟨rules, [], remaining⟩, level, _ => rfl
  | fuel + 1, ⟨rules, ptr :: stack, remaining⟩, level, hptr => by
    have ih := matchNext_bare wf limit fuel
    rw [matchNext, nMatchNext]
    simp only [bare, List.map_cons]
    have hstack : ∀ ref ∈ stack, PtrOk G ref := fun r hr => hptr r (List.mem_cons_of_mem _ hr)
    have hp := hptr ptr List.mem_cons_self
    have key := matchPath_bare wf limit fuel ih ptr hp ⟨rules, stack, remaining⟩ hstack (level + 1)
    have key' : nMatchPath G.look limit (nMatchNext G.look limit fuel) ptr.name
        ⟨rules, stack.map (fun r => { name := r.name }), remaining⟩ (level + 1) =
        (matchPath G limit (matchNext G limit fuel) ptr ⟨rules, stack, remaining⟩ (level + 1)).map (·.map bare) := key.symm
    rw [key']
    cases hm : matchPath G limit (matchNext G limit fuel) ptr ⟨rules, stack, remaining⟩ (level + 1) with
    | none => rfl
    | some mr =>
      have hptrs := matchPath_ptrs wf limit fuel ptr hp ⟨rules, stack, remaining⟩ hstack (level + 1) mr hm
      simp only [Option.map_some]
      refine flatMapM_map bare bare mr ?_
      intro r hr
      have hlen : (bare r).next.length = r.next.length := by simp [bare]
      rw [hlen]
      split
      · unfold matchNextAll
        refine flatMapM_map bare bare mr ?_
        intro p hp
        have hlen : (bare p).next.length = p.next.length := by simp [bare]
        rw [hlen]
        split
        · exact ih p level (hptrs p hp)
        · rfl
      · rfl

/-! ### Grammars with the same sections -/

theorem foldl_max_le {α : Type} (f : α → Nat) (n : Nat) : ∀ (l : List α) (k : Nat), k ≤ n → (∀ x ∈ l, f x ≤ n) →
    l.foldl (fun a x => max a (f x)) k ≤ n
  | [], k, hk, _ => hk
  | x :: l, k, hk, h => by
    refine foldl_max_le f n l _ ?_ (fun y hy => h y (List.mem_cons_of_mem _ hy))
    exact Nat.max_le.2 ⟨hk, h x List.mem_cons_self⟩

theorem maxRefs_le (G : Grammar F) (n : Nat) (h : ∀ sec ∈ G.metas, ∀ refs ∈ sec.rules, refs.length ≤ n) :
    maxRefs G ≤ n := by
  unfold maxRefs
  have : ∀ (ms : List MetaSection) (k : Nat), k ≤ n → (∀ sec ∈ ms, ∀ refs ∈ sec.rules, refs.length ≤ n) →
      ms.foldl (fun n m => m.rules.foldl (fun n r => max n r.length) n) k ≤ n := by
    intro ms
    induction ms with
    | nil => intro k hk _; exact hk
    | cons m ms ih =>
      intro k hk h
      refine ih _ ?_ (fun s hs => h s (List.mem_cons_of_mem _ hs))
      exact foldl_max_le (fun r : MetaRule => r.length) n m.rules k hk (h m List.mem_cons_self)
  exact this G.metas 0 (Nat.zero_le _) h

theorem SameSections.symm {G H : Grammar F} (h : SameSections G H) : SameSections H G :=
  ⟨fun s => (h.1 s).symm, fun s => (h.2 s).symm⟩

theorem SameSections.maxRefs_le {G H : Grammar F} (h : SameSections G H) : maxRefs G ≤ maxRefs H := by
  refine AS.maxRefs_le G _ ?_
  intro sec hs refs hr
  have : (sec.name, sec.rules.map (·.map (·.name))) ∈ G.metaNames := List.mem_map.2 ⟨sec, hs, rfl⟩
  obtain ⟨sec', hs', e⟩ := List.mem_map.1 ((h.1 _).1 this)
  simp only [Prod.mk.injEq] at e
  have : refs.map (·.name) ∈ sec'.rules.map (·.map (·.name)) := by
    rw [e.2]; exact List.mem_map.2 ⟨refs, hr, rfl⟩
  obtain ⟨refs', hr', e'⟩ := List.mem_map.1 this
  have hl := congrArg List.length e'
  simp only [List.length_map] at hl
  rw [← hl]
  exact le_maxRefs H sec' hs' refs' hr'

theorem SameSections.maxRefs_eq {G H : Grammar F} (h : SameSections G H) : maxRefs G = maxRefs H :=
  Nat.le_antisymm h.maxRefs_le h.symm.maxRefs_le

theorem look_metas_mem {G : Grammar F} (wf : WfGrammar G) (s : Str) (v : List (List Str)) :
    G.look.metas s = some v ↔ (s, v) ∈ G.metaNames := by
  constructor
  · intro h
    obtain ⟨m, h1, h2⟩ := Option.map_eq_some_iff.1 h
    have h3 := List.find?_some h1
    simp only [decide_eq_true_eq] at h3
    exact List.mem_map.2 ⟨m, List.mem_of_find?_eq_some h1, by rw [h3, h2]⟩
  · intro h
    obtain ⟨m, h1, h2⟩ := List.mem_map.1 h
    simp only [Prod.mk.injEq] at h2
    rw [← h2.1, look_meta wf h1, h2.2]

theorem look_rules_mem {G : Grammar F} (wf : WfGrammar G) (s : Str) (v : List (Rule F)) :
    G.look.rules s = some v ↔ (s, v) ∈ G.ruleSections := by
  constructor
  · intro h
    obtain ⟨m, h1, h2⟩ := Option.map_eq_some_iff.1 h
    have h3 := List.find?_some h1
    simp only [decide_eq_true_eq] at h3
    exact List.mem_map.2 ⟨m, List.mem_of_find?_eq_some h1, by rw [h3, h2]⟩
  · intro h
    obtain ⟨m, h1, h2⟩ := List.mem_map.1 h
    simp only [Prod.mk.injEq] at h2
    rw [← h2.1, look_rule wf h1, h2.2]

theorem SameSections.look_eq {G H : Grammar F} (wfG : WfGrammar G) (wfH : WfGrammar H) (h : SameSections G H) :
    G.look = H.look := by
  have e1 : G.look.metas = H.look.metas := by
    funext s
    apply Option.ext
    intro v
    rw [look_metas_mem wfG, look_metas_mem wfH, h.1]
  have e2 : G.look.rules = H.look.rules := by
    funext s
    apply Option.ext
    intro v
    rw [look_rules_mem wfG, look_rules_mem wfH, h.2]
  calc G.look = ⟨G.look.metas, G.look.rules⟩ := rfl
    _ = ⟨H.look.metas, H.look.rules⟩ := by rw [e1, e2]
    _ = H.look := rfl

theorem map_bare_eq {l : List (SearchPath F)} (h : ∀ p ∈ l, p.next = []) : l.map bare = l := by
  conv => rhs; rw [← List.map_id l]
  refine List.map_congr_left (fun p hp => ?_)
  have := h p hp
  cases p
  simp only at this
  subst this
  rfl

/-- Searching in grammars with the same sections gives the same results, in the same order. -/
theorem search_sameSections {G H : Grammar F} (wfG : WfGrammar G) (wfH : WfGrammar H) (h : SameSections G H)
    (node : Str) (phrase : List Token) : search G node phrase = search H node phrase := by
  have hnames : ∀ {A B : Grammar F}, SameSections A B →
      (∀ sec ∈ A.metas, sec.name ≠ node) ∧ (∀ sec ∈ A.rules, sec.name ≠ node) →
      (∀ sec ∈ B.metas, sec.name ≠ node) ∧ (∀ sec ∈ B.rules, sec.name ≠ node) := by
    intro A B hAB ⟨h1, h2⟩
    constructor
    · intro sec hs e
      have : (sec.name, sec.rules.map (·.map (·.name))) ∈ B.metaNames := List.mem_map.2 ⟨sec, hs, rfl⟩
      obtain ⟨sec', hs', e'⟩ := List.mem_map.1 ((hAB.1 _).2 this)
      simp only [Prod.mk.injEq] at e'
      exact h1 sec' hs' (e'.1.trans e)
    · intro sec hs e
      have : (sec.name, sec.rules) ∈ B.ruleSections := List.mem_map.2 ⟨sec, hs, rfl⟩
      obtain ⟨sec', hs', e'⟩ := List.mem_map.1 ((hAB.2 _).2 this)
      simp only [Prod.mk.injEq] at e'
      exact h2 sec' hs' (e'.1.trans e)
  unfold search
  cases hen : Token.enumerate phrase with
  | none => rfl
  | some ps =>
    simp only
    rcases stringToSectionPtr_ok wfG node with ⟨ptr, h1, h2, h3⟩ | ⟨h1, h2⟩
    · rcases stringToSectionPtr_ok wfH node with ⟨ptr', h1', h2', h3'⟩ | ⟨h1', h2'⟩
      · rw [h1, h1']
        simp only
        have key : ∀ {A : Grammar F} (wf : WfGrammar A) (q : SectionPtr) (hq : PtrOk A q),
            ∃ ms, matchAll A (phrase.length + 2) q (ps.map (fun e => { remaining := e : SearchPath F })) 0 = some ms ∧
              flatMapM (fun path => nMatchPath A.look (phrase.length + 2)
                (nMatchNext A.look (phrase.length + 2) (searchFuel A (phrase.length + 2))) q.name path 0)
                (ps.map (fun e => { remaining := e : SearchPath F })) = some ms := by
          intro A wf q hq
          have hex : ∀ path ∈ ps.map (fun e => { remaining := e : SearchPath F }), ∃ zs,
              matchPath A (phrase.length + 2) (matchNext A (phrase.length + 2) (searchFuel A (phrase.length + 2))) q path 0
                = some zs := by
            intro path hpath
            obtain ⟨e, _, rfl⟩ := List.mem_map.1 hpath
            obtain ⟨res, hres, _⟩ := matchPath_top wf (phrase.length + 2) q hq e
            exact ⟨res, hres⟩
          obtain ⟨ms, hms⟩ := flatMapM_isSome _ hex
          refine ⟨ms, hms, ?_⟩
          have hnext : ∀ p ∈ ms, p.next = [] := by
            intro p hp
            obtain ⟨path, hpath, zs, hz, hpz⟩ := (flatMapM_some hms p).1 hp
            obtain ⟨e, _, rfl⟩ := List.mem_map.1 hpath
            obtain ⟨res, hres, hmem⟩ := matchPath_top wf (phrase.length + 2) q hq e
            rw [hres] at hz
            cases hz
            obtain ⟨_, _, _, _, _, _, rfl⟩ := (hmem p).1 hpz
            rfl
          have hmap := flatMapM_map (f := fun path => matchPath A (phrase.length + 2)
              (matchNext A (phrase.length + 2) (searchFuel A (phrase.length + 2))) q path 0)
            (g := fun path => nMatchPath A.look (phrase.length + 2)
                (nMatchNext A.look (phrase.length + 2) (searchFuel A (phrase.length + 2))) q.name path 0)
            bare bare (ps.map (fun e => { remaining := e : SearchPath F })) (by
              intro path hpath
              obtain ⟨e, _, rfl⟩ := List.mem_map.1 hpath
              exact matchPath_bare wf _ _ (fun path level hp => matchNext_bare wf _ _ path level hp) q hq _
                (by simp) 0)
          rw [hms, Option.map_some, map_bare_eq hnext] at hmap
          rw [hmap]
          congr 1
          symm
          apply map_bare_eq
          intro p hp
          obtain ⟨e, _, rfl⟩ := List.mem_map.1 hp
          rfl
        obtain ⟨ms, k1, k2⟩ := key wfG ptr h3
        obtain ⟨ms', k1', k2'⟩ := key wfH ptr' h3'
        have hfuel : searchFuel G (phrase.length + 2) = searchFuel H (phrase.length + 2) := by
          simp only [searchFuel, h.maxRefs_eq]
        rw [h2, h.look_eq wfG wfH, hfuel] at k2
        rw [h2', k2] at k2'
        rw [k1, k1', Option.some.inj k2']
      · obtain ⟨a, b⟩ := hnames h.symm h2'
        rcases h3 with ⟨i, sec, _, e1, e2⟩ | ⟨_, i, sec, _, e1, e2⟩
        · exact absurd (e2.trans h2) (a sec (List.mem_of_getElem? e1))
        · exact absurd (e2.trans h2) (b sec (List.mem_of_getElem? e1))
    · rcases stringToSectionPtr_ok wfH node with ⟨ptr', h1', h2', h3'⟩ | ⟨h1', h2'⟩
      · obtain ⟨a, b⟩ := hnames h h2
        rcases h3' with ⟨i, sec, _, e1, e2⟩ | ⟨_, i, sec, _, e1, e2⟩
        · exact absurd (e2.trans h2') (a sec (List.mem_of_getElem? e1))
        · exact absurd (e2.trans h2') (b sec (List.mem_of_getElem? e1))
      · rw [h1, h1']

end AS
