import Verif.Lemmas.Simulate
import Verif.Spec.Prune
/-
Leaving out rules that cannot match does not change what is found.
-/
namespace AS
variable {F : Type}

theorem matchPrefix_mem : ∀ {is pat rest : List InType}, matchPrefix is pat = some rest → pat = is ++ rest
  | [], pat, rest, h => by simpa [matchPrefix] using h
  | _ :: _, [], _, h => by simp [matchPrefix] at h
  | i :: is, p :: ps, rest, h => by
    rw [matchPrefix] at h
    split at h
    · next e => rw [matchPrefix_mem h, e]; rfl
    · cases h

/-- A rule that does not match is skipped. -/
theorem matchRule_impossible {P : InType → Prop} {r : Rule F} {path : SearchPath F} (hp : ∀ c ∈ path.remaining, P c)
    (hr : ∃ c ∈ r.inClass, ¬ P c) : matchRule r path = {} := by
  unfold matchRule
  split
  · rfl
  · cases hm : matchPrefix r.inClass path.remaining with
    | none => rfl
    | some rest =>
      obtain ⟨c, hc, hn⟩ := hr
      exact absurd (hp c (by rw [matchPrefix_mem hm]; exact List.mem_append_left _ hc)) hn

theorem matchRules_filter {P : InType → Prop} {keep : Rule F → Bool} {path : SearchPath F} (hp : ∀ c ∈ path.remaining, P c) :
    ∀ {rs : List (Rule F)}, (∀ r ∈ rs, keep r = false → ∃ c ∈ r.inClass, ¬ P c) →
      matchRules path (rs.filter keep) = matchRules path rs
  | [], _ => rfl
  | r :: rs, h => by
    have ih := matchRules_filter hp (rs := rs) (fun x hx => h x (List.mem_cons_of_mem _ hx))
    cases hk : keep r with
    | true =>
      rw [List.filter_cons_of_pos hk]
      simp only [matchRules, ih]
    | false =>
      rw [List.filter_cons_of_neg (by simp [hk]), ih, matchRules, matchRule_impossible hp (h r List.mem_cons_self hk)]
      simp

theorem matchRules_none {P : InType → Prop} {path : SearchPath F} (hp : ∀ c ∈ path.remaining, P c) :
    ∀ {rs : List (Rule F)}, (∀ r ∈ rs, ∃ c ∈ r.inClass, ¬ P c) → matchRules path rs = []
  | [], _ => rfl
  | r :: rs, h => by
    rw [matchRules, matchRule_impossible hp (h r List.mem_cons_self)]
    simpa using matchRules_none hp (rs := rs) (fun x hx => h x (List.mem_cons_of_mem _ hx))

theorem matchRules_rest {path : SearchPath F} {rs : List (Rule F)} {p : SearchPath F} (h : p ∈ matchRules path rs) :
    p.next = path.next ∧ ∀ c ∈ p.remaining, c ∈ path.remaining := by
  obtain ⟨r, _, rest, hrest, rfl⟩ := (mem_matchRules path rs p).1 h
  exact ⟨rfl, fun c hc => by rw [hrest]; exact List.mem_append_right _ hc⟩

theorem flatMapM_nil {α β : Type} {f : α → Option (List β)} : ∀ {xs : List α} {ys : List β},
    (∀ x ∈ xs, ∀ zs, f x = some zs → zs = []) → flatMapM f xs = some ys → ys = []
  | [], ys, _, h => by simpa [flatMapM] using h.symm
  | x :: xs, ys, hf, h => by
    rw [flatMapM] at h
    cases hx : f x with
    | none => rw [hx] at h; cases h
    | some zs =>
      rw [hx] at h
      simp only at h
      cases hr : flatMapM f xs with
      | none => rw [hr] at h; cases h
      | some ws =>
        rw [hr] at h
        simp only [Option.some.injEq] at h
        rw [← h, hf x List.mem_cons_self zs hx, flatMapM_nil (fun y hy => hf y (List.mem_cons_of_mem _ hy)) hr]
        rfl

theorem flatMapM_filter {α β : Type} {f g : α → Option (List β)} {q : α → Bool} : ∀ {xs : List α} {ys : List β},
    (∀ x ∈ xs, ∀ zs, f x = some zs → if q x then g x = some zs else zs = []) → flatMapM f xs = some ys →
    flatMapM g (xs.filter q) = some ys
  | [], _, _, h => h
  | x :: xs, ys, hfg, h => by
    rw [flatMapM] at h
    cases hx : f x with
    | none => rw [hx] at h; cases h
    | some zs =>
      rw [hx] at h
      simp only at h
      cases hr : flatMapM f xs with
      | none => rw [hr] at h; cases h
      | some ws =>
        rw [hr] at h
        simp only [Option.some.injEq] at h
        have ih := flatMapM_filter (fun y hy => hfg y (List.mem_cons_of_mem _ hy)) hr
        have hq := hfg x List.mem_cons_self zs hx
        cases hk : q x with
        | true =>
          rw [hk, if_pos rfl] at hq
          rw [List.filter_cons_of_pos hk, flatMapM, hq, ih]
          simp [h]
        | false =>
          rw [hk] at hq
          simp only [Bool.false_eq_true, if_false] at hq
          rw [List.filter_cons_of_neg (by simp [hk]), ih, ← h, hq]
          rfl

section
variable {L : Look F} {limit : Nat}

/-- What is left to do, and to read, in the results. -/
theorem nMatchPath_rest {mnext : SearchPath F → Nat → Option (List (SearchPath F))}
    (ih : ∀ path level zs, mnext path level = some zs → ∀ p ∈ zs, p.next = [] ∧ ∀ c ∈ p.remaining, c ∈ path.remaining)
    {s : Str} {path : SearchPath F} {level : Nat} {zs : List (SearchPath F)}
    (h : nMatchPath L limit mnext s path level = some zs) :
    ∀ p ∈ zs, (p.next = [] ∨ p.next = path.next) ∧ ∀ c ∈ p.remaining, c ∈ path.remaining := by
  unfold nMatchPath at h
  split at h
  · cases h; simp
  · split at h
    · next v hv =>
      intro p hp
      obtain ⟨refs, hr, ws, hw, hpw⟩ := (flatMapM_some h p).1 hp
      simp only at hw
      split at hw
      · exact ⟨Or.inl (ih _ _ ws hw p hpw).1, (ih _ _ ws hw p hpw).2⟩
      · cases hw; cases hpw
    · split at h
      · cases h
        intro p hp
        obtain ⟨h1, h2⟩ := matchRules_rest hp
        exact ⟨Or.inr h1, h2⟩
      · cases h; simp

theorem nMatchNext_rest : ∀ (fuel : Nat) (path : SearchPath F) (level : Nat) (zs : List (SearchPath F)),
    nMatchNext L limit fuel path level = some zs → ∀ p ∈ zs, p.next = [] ∧ ∀ c ∈ p.remaining, c ∈ path.remaining
  | 0, _, _, _, h => by cases h
  | fuel + 1, path, level, zs, h => by
    have ih := nMatchNext_rest fuel
    rw [nMatchNext] at h
    split at h
    · cases h; simp
    · rename_i ptr rest hnext
      split at h
      · cases h
      · rename_i mr hmr
        have hmrP := nMatchPath_rest ih hmr
        intro p hp
        obtain ⟨x, hx, ws, hw, hpw⟩ := (flatMapM_some h p).1 hp
        split at hw
        · unfold matchNextAll at hw
          obtain ⟨y, hy, us, hu, hpu⟩ := (flatMapM_some hw p).1 hpw
          split at hu
          · obtain ⟨h1, h2⟩ := ih y level us hu p hpu
            exact ⟨h1, fun c hc => (hmrP y hy).2 c (h2 c hc)⟩
          · cases hu; cases hpu
        · rename_i hlen
          cases hw
          rw [List.mem_singleton.1 hpw]
          exact ⟨List.length_eq_zero_iff.1 (by omega), (hmrP x hx).2⟩

end

section
variable {P : InType → Prop} {barren : List Str} {keep : Rule F → Bool} {G H : Grammar F}

/-- From a barren section nothing can be matched. -/
theorem nMatchPath_barren (wfG : WfGrammar G) (hp : Pruned P barren keep G H) {limit : Nat}
    {mnext : SearchPath F → Nat → Option (List (SearchPath F))}
    (ih : ∀ path level zs, (∀ c ∈ path.remaining, P c) → (∃ r ∈ path.next, r.name ∈ barren) → mnext path level = some zs → zs = [])
    {s : Str} {path : SearchPath F} {level : Nat} {zs : List (SearchPath F)} (hc : ∀ c ∈ path.remaining, P c)
    (hs : s ∈ barren ∨ ((∃ r ∈ path.next, r.name ∈ barren) ∧ ∃ v, G.look.metas s = some v))
    (h : nMatchPath G.look limit mnext s path level = some zs) : zs = [] := by
  unfold nMatchPath at h
  split at h
  · cases h; rfl
  · cases hm : G.look.metas s with
    | some v =>
      rw [hm] at h
      simp only at h
      refine flatMapM_nil ?_ h
      intro refs hr ws hw
      split at hw
      · refine ih { path with next := refs.map (fun n => ({ name := n } : SectionPtr)) ++ path.next } level ws hc ?_ hw
        rcases hs with hs | ⟨⟨r, h1, h2⟩, _⟩
        · obtain ⟨n, hn, hb⟩ := hp.barrenMetas _ ((look_metas_mem wfG _ _).1 hm) hs refs hr
          exact ⟨⟨n, none, none⟩, List.mem_append_left _ (List.mem_map.2 ⟨n, hn, rfl⟩), hb⟩
        · exact ⟨r, List.mem_append_right _ h1, h2⟩
      · cases hw; rfl
    | none =>
      rw [hm] at h
      simp only at h
      rcases hs with hs | ⟨_, v, hv⟩
      · cases hr : G.look.rules s with
        | none => rw [hr] at h; cases h; rfl
        | some rs =>
          rw [hr] at h
          simp only [Option.some.injEq] at h
          rw [← h]
          exact matchRules_none hc (hp.barrenRules _ ((look_rules_mem wfG _ _).1 hr) hs)
      · rw [hm] at hv; cases hv

theorem nMatchNext_barren (wfG : WfGrammar G) (hp : Pruned P barren keep G H) {limit : Nat} : ∀ (fuel : Nat)
    (path : SearchPath F) (level : Nat) (zs : List (SearchPath F)), (∀ c ∈ path.remaining, P c) →
    (∃ r ∈ path.next, r.name ∈ barren) → nMatchNext G.look limit fuel path level = some zs → zs = []
  | 0, _, _, _, _, _, h => by cases h
  | fuel + 1, path, level, zs, hc, hb, h => by
    have ih := nMatchNext_barren wfG hp (limit := limit) fuel
    rw [nMatchNext] at h
    split at h
    · cases h; rfl
    · rename_i ptr rest hnext
      split at h
      · cases h
      · rename_i mr hmr
        rw [hnext] at hb
        have hrest := nMatchPath_rest (nMatchNext_rest fuel) hmr
        by_cases hbar : ptr.name ∈ barren ∨ ((∃ r ∈ rest, r.name ∈ barren) ∧ ∃ v, G.look.metas ptr.name = some v)
        · have hnil := nMatchPath_barren wfG hp ih (path := { path with next := rest }) hc hbar hmr
          subst hnil
          simp only [flatMapM, Option.some.injEq] at h
          exact h.symm
        · simp only [not_or] at hbar
          obtain ⟨r, hr, hrb⟩ := hb
          have hr' : r ∈ rest := by
            rcases List.mem_cons.1 hr with rfl | hr
            · exact absurd hrb hbar.1
            · exact hr
          have hnm : G.look.metas ptr.name = none := by
            cases hm : G.look.metas ptr.name with
            | none => rfl
            | some v => exact absurd ⟨⟨r, hr', hrb⟩, v, hm⟩ hbar.2
          have hkeep : ∀ p ∈ mr, p.next = rest := by
            unfold nMatchPath at hmr
            split at hmr
            · cases hmr; simp
            · rw [hnm] at hmr
              simp only at hmr
              split at hmr
              · cases hmr
                exact fun p hp => (matchRules_rest hp).1
              · cases hmr; simp
          refine flatMapM_nil ?_ h
          intro x hx ws hw
          split at hw
          · unfold matchNextAll at hw
            refine flatMapM_nil ?_ hw
            intro y hy us hu
            split at hu
            · refine ih y level us (fun c hc' => hc c ((hrest y hy).2 c hc')) ?_ hu
              rw [hkeep y hy]; exact ⟨r, hr', hrb⟩
            · cases hu; rfl
          · rename_i hlen
            rw [hkeep x hx] at hlen
            exact absurd (List.length_pos_iff.2 (List.ne_nil_of_mem hr')) hlen

/-- The sections of the smaller grammar. -/
theorem pruned_metas (wfG : WfGrammar G) (wfH : WfGrammar H) (hp : Pruned P barren keep G H) {s : Str} (hs : s ∉ barren)
    {v : List (List Str)} (h : G.look.metas s = some v) :
    H.look.metas s = some (v.filter (fun refs => refs.all (fun n => decide (n ∉ barren)))) :=
  (look_metas_mem wfH _ _).2 (hp.metas _ ((look_metas_mem wfG _ _).1 h) hs)

theorem pruned_rules (wfG : WfGrammar G) (wfH : WfGrammar H) (hp : Pruned P barren keep G H) {s : Str} (hs : s ∉ barren)
    {rs : List (Rule F)} (h : G.look.rules s = some rs) :
    H.look.metas s = none ∧ H.look.rules s = some (rs.filter keep) := by
  have hm := hp.rules _ ((look_rules_mem wfG _ _).1 h) hs
  refine ⟨?_, (look_rules_mem wfH _ _).2 hm⟩
  obtain ⟨sec, hsec, e⟩ := List.mem_map.1 hm
  simp only [Prod.mk.injEq] at e
  rw [← e.1]
  exact look_meta_none wfH hsec

/-- The name is that of a section. -/
def Names (G : Grammar F) (s : Str) : Prop := (∃ v, G.look.metas s = some v) ∨ ∃ rs, G.look.rules s = some rs

theorem refs_names (wf : WfGrammar G) {s : Str} {v : List (List Str)} (h : G.look.metas s = some v) {refs : List Str}
    (hr : refs ∈ v) {n : Str} (hn : n ∈ refs) : Names G n := by
  obtain ⟨sec, hs, e⟩ := List.mem_map.1 ((look_metas_mem wf _ _).1 h)
  simp only [Prod.mk.injEq] at e
  rw [← e.2] at hr
  obtain ⟨refs', hrefs, rfl⟩ := List.mem_map.1 hr
  obtain ⟨ref, href, rfl⟩ := List.mem_map.1 hn
  rcases wf.linked sec hs refs' hrefs ref href with ⟨i, s, _, h5, h6⟩ | ⟨_, i, s, _, h5, h6⟩
  · rw [← h6]; exact Or.inl ⟨_, look_meta wf (List.mem_of_getElem? h5)⟩
  · rw [← h6]; exact Or.inr ⟨_, look_rule wf (List.mem_of_getElem? h5)⟩

theorem nMatchPath_pruned (wfG : WfGrammar G) (wfH : WfGrammar H) (hp : Pruned P barren keep G H) {limit fuel : Nat}
    (ih : ∀ path level zs, (∀ c ∈ path.remaining, P c) → (∀ r ∈ path.next, Names G r.name ∧ r.name ∉ barren) →
      nMatchNext G.look limit fuel path level = some zs → nMatchNext H.look limit fuel path level = some zs)
    {s : Str} {path : SearchPath F} {level : Nat} {zs : List (SearchPath F)} (hc : ∀ c ∈ path.remaining, P c)
    (hn : ∀ r ∈ path.next, Names G r.name ∧ r.name ∉ barren) (hs : Names G s ∧ s ∉ barren)
    (h : nMatchPath G.look limit (nMatchNext G.look limit fuel) s path level = some zs) :
    nMatchPath H.look limit (nMatchNext H.look limit fuel) s path level = some zs := by
  unfold nMatchPath at h ⊢
  split
  · rw [if_pos ‹_›] at h; exact h
  · rw [if_neg ‹_›] at h
    cases hm : G.look.metas s with
    | some v =>
      rw [hm] at h
      rw [pruned_metas wfG wfH hp hs.2 hm]
      simp only at h ⊢
      refine flatMapM_filter ?_ h
      intro refs hr ws hw
      split
      · next hall =>
        have hall' : ∀ n ∈ refs, n ∉ barren := by simpa using hall
        split
        · rw [if_pos ‹_›] at hw
          refine ih { path with next := refs.map (fun n => ({ name := n } : SectionPtr)) ++ path.next } level ws hc ?_ hw
          intro r hr'
          rcases List.mem_append.1 hr' with h | h
          · obtain ⟨n, hn', rfl⟩ := List.mem_map.1 h
            exact ⟨refs_names wfG hm hr hn', hall' n hn'⟩
          · exact hn r h
        · rw [if_neg ‹_›] at hw; exact hw
      · next hall =>
        have hex : ∃ n ∈ refs, n ∈ barren := by simpa using hall
        obtain ⟨n, hn', hb⟩ := hex
        split at hw
        · exact nMatchNext_barren wfG hp (limit := limit) fuel
            { path with next := refs.map (fun n => ({ name := n } : SectionPtr)) ++ path.next } level ws hc
            ⟨⟨n, none, none⟩, List.mem_append_left _ (List.mem_map.2 ⟨n, hn', rfl⟩), hb⟩ hw
        · cases hw; rfl
    | none =>
      rcases hs.1 with ⟨v, hv⟩ | ⟨rs, hrs⟩
      · rw [hm] at hv; cases hv
      · obtain ⟨k1, k2⟩ := pruned_rules wfG wfH hp hs.2 hrs
        rw [hm, hrs] at h
        rw [k1, k2]
        simp only at h ⊢
        rw [matchRules_filter hc (hp.rule _ ((look_rules_mem wfG _ _).1 hrs))]
        exact h

theorem nMatchNext_pruned (wfG : WfGrammar G) (wfH : WfGrammar H) (hp : Pruned P barren keep G H) {limit : Nat} :
    ∀ (fuel : Nat) (path : SearchPath F) (level : Nat) (zs : List (SearchPath F)), (∀ c ∈ path.remaining, P c) →
      (∀ r ∈ path.next, Names G r.name ∧ r.name ∉ barren) →
      nMatchNext G.look limit fuel path level = some zs → nMatchNext H.look limit fuel path level = some zs
  | 0, _, _, _, _, _, h => by cases h
  | fuel + 1, path, level, zs, hc, hn, h => by
    have ih := nMatchNext_pruned wfG wfH hp (limit := limit) fuel
    rw [nMatchNext] at h ⊢
    split
    · rename_i he; rw [he] at h; exact h
    · rename_i ptr rest he
      rw [he] at h hn
      simp only at h
      split at h
      · cases h
      · rename_i mr hmr
        have hn' : ∀ r ∈ rest, Names G r.name ∧ r.name ∉ barren := fun r hr => hn r (List.mem_cons_of_mem _ hr)
        have hrest := nMatchPath_rest (nMatchNext_rest fuel) hmr
        have hok : ∀ p ∈ mr, (∀ c ∈ p.remaining, P c) ∧ ∀ r ∈ p.next, Names G r.name ∧ r.name ∉ barren := by
          intro p hp'
          refine ⟨fun c hc' => hc c ((hrest p hp').2 c hc'), ?_⟩
          rcases (hrest p hp').1 with e | e
          · rw [e]; simp
          · rw [e]; exact hn'
        rw [nMatchPath_pruned wfG wfH hp ih (path := { path with next := rest }) hc hn' (hn ptr List.mem_cons_self) hmr]
        simp only
        refine flatMapM_more mr zs ?_ h
        intro x _ ws hw
        split
        · rw [if_pos ‹_›] at hw
          unfold matchNextAll at hw ⊢
          refine flatMapM_more mr ws ?_ hw
          intro y hy us hu
          split
          · rw [if_pos ‹_›] at hu; exact ih y level us (hok y hy).1 (hok y hy).2 hu
          · rw [if_neg ‹_›] at hu; exact hu
        · rw [if_neg ‹_›] at hw; exact hw

theorem picks_classes {is : List InType} {sets : List (List InType)} (h : Picks is sets) : ∀ c ∈ is, ∃ s ∈ sets, c ∈ s := by
  induction h with
  | nil => simp
  | cons hi _ ih =>
    intro c hc
    rcases List.mem_cons.1 hc with rfl | hc
    · exact ⟨_, List.mem_cons_self, hi⟩
    · obtain ⟨s, hs, h⟩ := ih c hc
      exact ⟨s, List.mem_cons_of_mem _ hs, h⟩

/-- For tokens whose classes are all in `P` both grammars find the same. -/
theorem search_pruned (wfG : WfGrammar G) (wfH : WfGrammar H) (hr : HasRoot G) (hp : Pruned P barren keep G H)
    {phrase : List Token} (hc : ∀ t ∈ phrase, ∀ c ∈ t.inclass, P c) :
    search H c!"ADDRESS" phrase = search G c!"ADDRESS" phrase := by
  obtain ⟨ps, hps, hpk⟩ := Token.enumerate_picks phrase
  have hrem : ∀ e ∈ ps, ∀ c ∈ e, P c := by
    intro e he c hc'
    obtain ⟨s, hs, h⟩ := picks_classes (hpk e he) c hc'
    obtain ⟨t, ht, rfl⟩ := List.mem_map.1 hs
    exact hc t ht c h
  have hroot : Names G c!"ADDRESS" := by
    rcases hr with ⟨sec, hs, e⟩ | ⟨sec, hs, e⟩
    · rw [← e]; exact Or.inl ⟨_, look_meta wfG hs⟩
    · rw [← e]; exact Or.inr ⟨_, look_rule wfG hs⟩
  unfold search
  rw [hps]
  simp only
  have hGn : ∃ ptr, stringToSectionPtr G c!"ADDRESS" = some ptr ∧ ptr.name = c!"ADDRESS" ∧ PtrOk G ptr := by
    rcases stringToSectionPtr_ok wfG c!"ADDRESS" with h | ⟨_, h2, h3⟩
    · exact h
    · exfalso
      rcases hr with ⟨sec, hs, e⟩ | ⟨sec, hs, e⟩
      · exact h2 sec hs e
      · exact h3 sec hs e
  have hHn : ∃ ptr, stringToSectionPtr H c!"ADDRESS" = some ptr ∧ ptr.name = c!"ADDRESS" ∧ PtrOk H ptr := by
    rcases stringToSectionPtr_ok wfH c!"ADDRESS" with h | ⟨_, h2, h3⟩
    · exact h
    · exfalso
      rcases hroot with ⟨v, hv⟩ | ⟨rs, hrs⟩
      · obtain ⟨sec, hs, e⟩ := List.mem_map.1 ((look_metas_mem wfH _ _).1 (pruned_metas wfG wfH hp hp.root hv))
        simp only [Prod.mk.injEq] at e
        exact h2 sec hs e.1
      · obtain ⟨sec, hs, e⟩ := List.mem_map.1 ((look_rules_mem wfH _ _).1 (pruned_rules wfG wfH hp hp.root hrs).2)
        simp only [Prod.mk.injEq] at e
        exact h3 sec hs e.1
  obtain ⟨ptr, h1, h2, h3⟩ := hGn
  obtain ⟨ptr', h1', h2', h3'⟩ := hHn
  rw [h1, h1']
  simp only
  let fuel := max (searchFuel G (phrase.length + 2)) (searchFuel H (phrase.length + 2))
  obtain ⟨ms, k1, _, k2⟩ := matchAll_by_name wfG (phrase.length + 2) ptr h3 ps fuel (Nat.le_max_left _ _)
  obtain ⟨ms', k1', _, k2'⟩ := matchAll_by_name wfH (phrase.length + 2) ptr' h3' ps fuel (Nat.le_max_right _ _)
  rw [h2] at k2
  rw [h2'] at k2'
  have hsame := flatMapM_more
    (g := fun path => nMatchPath H.look (phrase.length + 2) (nMatchNext H.look (phrase.length + 2) fuel) c!"ADDRESS" path 0)
    _ ms (by
      intro path hpath zs hz
      obtain ⟨e, he, rfl⟩ := List.mem_map.1 hpath
      exact nMatchPath_pruned wfG wfH hp (fun path level zs => nMatchNext_pruned wfG wfH hp fuel path level zs)
        (path := { remaining := e }) (hrem e he) (by simp) ⟨hroot, hp.root⟩ hz) k2
  rw [hsame] at k2'
  cases k2'
  rw [k1, k1']

end

end AS
