import Verif.Spec.Search
import Verif.Lemmas.Token
/-
Lemmas about the search.
-/
namespace AS
variable {F : Type}

/-! ### flatMapM -/

theorem flatMapM_some {α β : Type} {f : α → Option (List β)} : ∀ {xs : List α} {ys : List β},
    flatMapM f xs = some ys → ∀ y, y ∈ ys ↔ ∃ x ∈ xs, ∃ zs, f x = some zs ∧ y ∈ zs
  | [], ys, h, y => by
    simp only [flatMapM, Option.some.injEq] at h
    subst h; simp
  | x :: xs, ys, h, y => by
    rw [flatMapM] at h
    cases hx : f x with
    | none => rw [hx] at h; cases h
    | some zs =>
      rw [hx] at h
      cases hr : flatMapM f xs with
      | none => rw [hr] at h; cases h
      | some ws =>
        rw [hr] at h
        simp only [Option.some.injEq] at h
        subst h
        rw [List.mem_append, flatMapM_some hr y]
        constructor
        · rintro (h | ⟨x', h1, zs', h2, h3⟩)
          · exact ⟨x, List.mem_cons_self .., zs, hx, h⟩
          · exact ⟨x', List.mem_cons_of_mem _ h1, zs', h2, h3⟩
        · rintro ⟨x', h1, zs', h2, h3⟩
          rcases List.mem_cons.1 h1 with rfl | h1
          · rw [hx] at h2; cases h2; exact Or.inl h3
          · exact Or.inr ⟨x', h1, zs', h2, h3⟩

theorem flatMapM_each {α β : Type} {f : α → Option (List β)} : ∀ {xs : List α} {ys : List β},
    flatMapM f xs = some ys → ∀ x ∈ xs, ∃ zs, f x = some zs
  | [], _, _, x, hx => by cases hx
  | x :: xs, ys, h, x', hx' => by
    rw [flatMapM] at h
    cases hx : f x with
    | none => rw [hx] at h; cases h
    | some zs =>
      rw [hx] at h
      cases hr : flatMapM f xs with
      | none => rw [hr] at h; cases h
      | some ws =>
        rcases List.mem_cons.1 hx' with rfl | h1
        · exact ⟨zs, hx⟩
        · exact flatMapM_each hr x' h1

theorem flatMapM_isSome {α β : Type} {f : α → Option (List β)} : ∀ (xs : List α),
    (∀ x ∈ xs, ∃ zs, f x = some zs) → ∃ ys, flatMapM f xs = some ys
  | [], _ => ⟨[], rfl⟩
  | x :: xs, h => by
    obtain ⟨zs, hz⟩ := h x (List.mem_cons_self ..)
    obtain ⟨ws, hw⟩ := flatMapM_isSome xs (fun y hy => h y (List.mem_cons_of_mem _ hy))
    exact ⟨zs ++ ws, by rw [flatMapM, hz]; simp only [hw]⟩

theorem flatMapM_congr {α β : Type} {f g : α → Option (List β)} : ∀ (xs : List α),
    (∀ x ∈ xs, f x = g x) → flatMapM f xs = flatMapM g xs
  | [], _ => rfl
  | x :: xs, h => by
    rw [flatMapM, flatMapM, h x (List.mem_cons_self ..),
      flatMapM_congr xs (fun y hy => h y (List.mem_cons_of_mem _ hy))]

theorem flatMapM_pure {α : Type} : ∀ (xs : List α), flatMapM (fun x => some [x]) xs = some xs
  | [] => rfl
  | x :: xs => by rw [flatMapM, flatMapM_pure xs]; rfl

theorem flatMapM_length {α β : Type} {f : α → Option (List β)} (n : Nat) : ∀ {xs : List α} {ys : List β},
    flatMapM f xs = some ys → (∀ x ∈ xs, ∀ zs, f x = some zs → zs.length = n) →
    ys.length = xs.length * n
  | [], ys, h, _ => by
    simp only [flatMapM, Option.some.injEq] at h
    subst h; simp
  | x :: xs, ys, h, hn => by
    rw [flatMapM] at h
    cases hx : f x with
    | none => rw [hx] at h; cases h
    | some zs =>
      rw [hx] at h
      cases hr : flatMapM f xs with
      | none => rw [hr] at h; cases h
      | some ws =>
        rw [hr] at h
        simp only [Option.some.injEq] at h
        subst h
        rw [List.length_append, hn x (List.mem_cons_self ..) zs hx,
          flatMapM_length n hr (fun y hy => hn y (List.mem_cons_of_mem _ hy)), List.length_cons, Nat.add_mul]
        omega

/-- A more defined function gives the same result. -/
theorem flatMapM_mono {α β : Type} {f g : α → Option (List β)} (hfg : ∀ x zs, f x = some zs → g x = some zs)
    (xs : List α) (ys : List β) (h : flatMapM f xs = some ys) : flatMapM g xs = some ys := by
  rw [← h]
  refine (flatMapM_congr xs (fun x hx => ?_)).symm
  obtain ⟨zs, hz⟩ := flatMapM_each h x hx
  rw [hz, hfg x zs hz]

/-! ### Rules -/

theorem matchPrefix_iff : ∀ (es ps rest : List InType), matchPrefix es ps = some rest ↔ ps = es ++ rest
  | [], ps, rest => by simp [matchPrefix]
  | e :: es, [], rest => by simp [matchPrefix]
  | e :: es, p :: ps, rest => by
    rw [matchPrefix]
    split
    · rename_i h
      rw [matchPrefix_iff es ps rest, List.cons_append, List.cons.injEq]
      simp [h]
    · rename_i h
      simp [h]

theorem matchRule_success (r : Rule F) (path : SearchPath F) (rest : List InType)
    (h : path.remaining = r.inClass ++ rest) :
    matchRule r path = { path with rules := path.rules ++ [r], remaining := rest } := by
  unfold matchRule
  rw [if_neg (by rw [h, List.length_append]; omega), (matchPrefix_iff _ _ _).2 h]

theorem matchRule_fail (r : Rule F) (path : SearchPath F) (h : ¬ ∃ rest, path.remaining = r.inClass ++ rest) :
    matchRule r path = {} := by
  unfold matchRule
  split
  · rfl
  · cases hm : matchPrefix r.inClass path.remaining with
    | none => rfl
    | some rest => exact absurd ⟨rest, (matchPrefix_iff _ _ _).1 hm⟩ h

theorem mem_matchRules (path : SearchPath F) : ∀ (rs : List (Rule F)) (p : SearchPath F),
    p ∈ matchRules path rs ↔ ∃ r ∈ rs, ∃ rest, path.remaining = r.inClass ++ rest ∧
      p = { path with rules := path.rules ++ [r], remaining := rest }
  | [], p => by simp [matchRules]
  | r :: rs, p => by
    simp only [matchRules]
    by_cases h : ∃ rest, path.remaining = r.inClass ++ rest
    · obtain ⟨rest, hrest⟩ := h
      rw [matchRule_success r path rest hrest]
      simp only [List.length_append, List.length_cons, List.length_nil]
      rw [if_pos (by omega), List.mem_cons, mem_matchRules path rs p]
      constructor
      · rintro (h | ⟨r', h1, rest', h2, h3⟩)
        · exact ⟨r, List.mem_cons_self .., rest, hrest, h⟩
        · exact ⟨r', List.mem_cons_of_mem _ h1, rest', h2, h3⟩
      · rintro ⟨r', h1, rest', h2, h3⟩
        rcases List.mem_cons.1 h1 with rfl | h1
        · have : rest' = rest := List.append_cancel_left (h2.symm.trans hrest)
          subst this; exact Or.inl h3
        · exact Or.inr ⟨r', h1, rest', h2, h3⟩
    · rw [matchRule_fail r path h]
      simp only [List.length_nil, Nat.lt_irrefl, gt_iff_lt, ↓reduceIte]
      rw [mem_matchRules path rs p]
      constructor
      · rintro ⟨r', h1, rest', h2, h3⟩
        exact ⟨r', List.mem_cons_of_mem _ h1, rest', h2, h3⟩
      · rintro ⟨r', h1, rest', h2, h3⟩
        rcases List.mem_cons.1 h1 with rfl | h1
        · exact absurd ⟨rest', h2⟩ h
        · exact ⟨r', h1, rest', h2, h3⟩

/-! ### Sections of a well-formed grammar -/

theorem nodup_map_inj {α β : Type} {f : α → β} : ∀ {l : List α}, (l.map f).Nodup →
    ∀ {a b : α}, a ∈ l → b ∈ l → f a = f b → a = b
  | [], _, a, b, ha, _, _ => by cases ha
  | x :: xs, h, a, b, ha, hb, e => by
    rw [List.map_cons, List.nodup_cons] at h
    rcases List.mem_cons.1 ha with ha | ha <;> rcases List.mem_cons.1 hb with hb | hb
    · rw [ha, hb]
    · exact absurd (by rw [← ha, e]; exact List.mem_map_of_mem hb) h.1
    · exact absurd (by rw [← hb, ← e]; exact List.mem_map_of_mem ha) h.1
    · exact nodup_map_inj h.2 ha hb e

theorem WfGrammar.meta_unique {G : Grammar F} (h : WfGrammar G) {a b : MetaSection} (ha : a ∈ G.metas)
    (hb : b ∈ G.metas) (e : a.name = b.name) : a = b := by
  have hd := (List.nodup_append.1 h.distinct).1
  exact nodup_map_inj hd ha hb e

theorem WfGrammar.rule_unique {G : Grammar F} (h : WfGrammar G) {a b : RuleSection F} (ha : a ∈ G.rules)
    (hb : b ∈ G.rules) (e : a.name = b.name) : a = b := by
  have hd := (List.nodup_append.1 h.distinct).2.1
  exact nodup_map_inj hd ha hb e

theorem WfGrammar.disjoint {G : Grammar F} (h : WfGrammar G) {a : MetaSection} {b : RuleSection F} (ha : a ∈ G.metas)
    (hb : b ∈ G.rules) : a.name ≠ b.name :=
  (List.nodup_append.1 h.distinct).2.2 _ (List.mem_map_of_mem ha) _ (List.mem_map_of_mem hb)

/-! ### The recursion -/

/-- Exact description of the results of `matchNext`. -/
theorem mem_matchNext {G : Grammar F} (wf : WfGrammar G) (limit : Nat) :
    ∀ (fuel : Nat) (path : SearchPath F) (level : Nat) (res : List (SearchPath F)),
      matchNext G limit fuel path level = some res → path.next ≠ [] → (∀ ref ∈ path.next, PtrOk G ref) →
      ∀ p, p ∈ res ↔ ∃ rs m rest, Derives G (path.next.map (·.name)) rs m ∧ level + 1 + m ≤ limit ∧
        path.remaining = inputs rs ++ rest ∧ p = ⟨path.rules ++ rs, [], rest⟩
  | 0, _, _, _, h, _, _ => by cases h
  | fuel + 1, ⟨rules, [], remaining⟩, level, res, h, hne, _ => absurd rfl hne
  | fuel + 1, ⟨rules, ptr :: stack, remaining⟩, level, res, h, hne, hptr => by
    intro p
    simp only [matchNext] at h
    cases hm : matchPath G limit (matchNext G limit fuel) ptr ⟨rules, stack, remaining⟩ (level + 1) with
    | none => rw [hm] at h; cases h
    | some mr =>
      rw [hm] at h
      simp only at h
      by_cases hlev : level + 1 > limit
      · -- nesting limit exceeded
        rw [matchPath, if_pos hlev] at hm
        cases hm
        simp only [flatMapM, Option.some.injEq] at h
        subst h
        constructor
        · intro h; cases h
        · rintro ⟨rs, m, rest, _, hl, _⟩; omega
      rw [matchPath, if_neg hlev] at hm
      rcases hptr ptr (List.mem_cons_self ..) with ⟨i, sec, hp, hsec, hname⟩ | ⟨hp0, i, sec, hp, hsec, hname⟩
      · -- a meta section
        simp only [hp, hsec] at hm
        have hsecm : sec ∈ G.metas := List.mem_of_getElem? hsec
        have hmr := fun q => flatMapM_some hm q
        have hcur : ∀ refs ∈ sec.rules, ¬ ((refs ++ stack).length > 0) → False := by
          intro refs hr hlen
          have : refs ≠ [] := wf.nonempty sec hsecm refs hr
          have : 0 < refs.length := List.length_pos_iff.2 this
          rw [List.length_append] at hlen; omega
        have hmem : ∀ q, q ∈ mr ↔ ∃ rs m rest, Derives G (ptr.name :: stack.map (·.name)) rs m ∧
            level + 1 + m ≤ limit ∧ remaining = inputs rs ++ rest ∧ q = ⟨rules ++ rs, [], rest⟩ := by
          intro q
          rw [hmr q]
          constructor
          · rintro ⟨refs, hr, zs, hz, hq⟩
            split at hz
            · have ih := mem_matchNext wf limit fuel ⟨rules, refs ++ stack, remaining⟩ (level + 1) zs hz
                (by intro e; exact wf.nonempty sec hsecm refs hr (List.append_eq_nil_iff.1 e).1)
                (by
                  intro ref href
                  rcases List.mem_append.1 href with h1 | h1
                  · exact wf.linked sec hsecm refs hr ref h1
                  · exact hptr ref (List.mem_cons_of_mem _ h1)) q
              obtain ⟨rs, m, rest, hd, hl, he, hq'⟩ := ih.1 hq
              rw [List.map_append] at hd
              exact ⟨rs, m + 1, rest, .expand hsecm hname hr hd, by omega, he, hq'⟩
            · exact (hcur refs hr ‹_›).elim
          · rintro ⟨rs, m, rest, hd, hl, he, hq⟩
            cases hd with
            | rule h1 h2 => exact absurd (hname.trans h2.symm) (wf.disjoint hsecm h1)
            | @expand _ _ sec' refs _ m' h1 h2 h3 hd =>
              have : sec' = sec := wf.meta_unique h1 hsecm (h2.trans hname.symm)
              subst this
              obtain ⟨zs, hz⟩ := flatMapM_each hm refs h3
              refine ⟨refs, h3, zs, hz, ?_⟩
              split at hz
              · have ih := mem_matchNext wf limit fuel ⟨rules, refs ++ stack, remaining⟩ (level + 1) zs hz
                  (by intro e; exact wf.nonempty sec' hsecm refs h3 (List.append_eq_nil_iff.1 e).1)
                  (by
                    intro ref href
                    rcases List.mem_append.1 href with h1 | h1
                    · exact wf.linked sec' hsecm refs h3 ref h1
                    · exact hptr ref (List.mem_cons_of_mem _ h1)) q
                exact ih.2 ⟨rs, m', rest, by rw [List.map_append]; exact hd, by omega, he, hq⟩
              · exact (hcur refs h3 ‹_›).elim
        have hall : ∀ q ∈ mr, q.next = [] := by
          intro q hq
          obtain ⟨_, _, _, _, _, _, rfl⟩ := (hmem q).1 hq
          rfl
        rw [flatMapM_congr (g := fun x => some [x]) mr (by intro q hq; simp [hall q hq]), flatMapM_pure] at h
        cases h
        exact hmem p
      · -- a rule section
        simp only [hp0, hp, hsec, Option.some.injEq] at hm
        have hsecm : sec ∈ G.rules := List.mem_of_getElem? hsec
        subst hm
        have hmem := mem_matchRules ⟨rules, stack, remaining⟩ sec.rules
        simp only at hmem
        cases hst : stack with
        | nil =>
          subst hst
          rw [flatMapM_congr (g := fun x => some [x]) _ (by
            intro q hq
            obtain ⟨_, _, _, _, rfl⟩ := (hmem q).1 hq
            rfl), flatMapM_pure] at h
          cases h
          rw [hmem p]
          constructor
          · rintro ⟨r, hr, rest, he, rfl⟩
            exact ⟨[r], 0, rest, .rule hsecm hname hr .done, by omega, by simpa [inputs] using he, rfl⟩
          · rintro ⟨rs, m, rest, hd, _, he, rfl⟩
            cases hd with
            | @rule _ _ sec' r _ _ h1 h2 h3 hd =>
              have : sec' = sec := wf.rule_unique h1 hsecm (h2.trans hname.symm)
              subst this
              cases hd
              exact ⟨r, h3, rest, by simpa [inputs] using he, rfl⟩
            | expand h1 h2 => exact absurd (h2.trans hname.symm) (wf.disjoint h1 hsecm)
        | cons nx nxs =>
          rw [← hst]
          rw [flatMapM_some h p]
          have hpos : stack.length > 0 := by rw [hst]; simp
          have hne' : stack ≠ [] := by rw [hst]; simp
          have hptr' : ∀ ref ∈ stack, PtrOk G ref := fun ref hr => hptr ref (List.mem_cons_of_mem _ hr)
          constructor
          · rintro ⟨q, hq, zs, hz, hp⟩
            obtain ⟨_, _, _, _, rfl⟩ := (hmem q).1 hq
            simp only [hpos, ↓reduceIte] at hz
            obtain ⟨q', hq', zs', hz', hp'⟩ := (flatMapM_some hz p).1 hp
            obtain ⟨r, hr, rest, he, rfl⟩ := (hmem q').1 hq'
            simp only [hpos, ↓reduceIte] at hz'
            obtain ⟨rs, m, rest', hd, hl, he', rfl⟩ :=
              (mem_matchNext wf limit fuel _ level zs' hz' hne' hptr' p).1 hp'
            simp only at he' hd
            refine ⟨r :: rs, m, rest', .rule hsecm hname hr hd, hl, ?_, ?_⟩
            · rw [he, he']; simp [inputs]
            · simp
          · rintro ⟨rs, m, rest, hd, hl, he, rfl⟩
            simp only [List.map_cons] at hd
            cases hd with
            | @rule _ _ sec' r rs' _ h1 h2 h3 hd =>
              have : sec' = sec := wf.rule_unique h1 hsecm (h2.trans hname.symm)
              subst this
              have hq : (⟨rules ++ [r], stack, inputs rs' ++ rest⟩ : SearchPath F) ∈
                  matchRules ⟨rules, stack, remaining⟩ sec'.rules := by
                refine (hmem _).2 ⟨r, h3, inputs rs' ++ rest, ?_, rfl⟩
                rw [← List.append_assoc]; simpa [inputs] using he
              obtain ⟨zs, hz⟩ := flatMapM_each h _ hq
              refine ⟨_, hq, zs, hz, ?_⟩
              simp only [hpos, ↓reduceIte] at hz
              rw [flatMapM_some hz]
              obtain ⟨zs', hz'⟩ := flatMapM_each hz _ hq
              refine ⟨_, hq, zs', hz', ?_⟩
              simp only [hpos, ↓reduceIte] at hz'
              refine (mem_matchNext wf limit fuel _ level zs' hz' hne' hptr' _).2 ⟨rs', m, rest, hd, hl, rfl, ?_⟩
              simp
            | expand h1 h2 => exact absurd (h2.trans hname.symm) (wf.disjoint h1 hsecm)

/-! ### Termination -/

theorem foldl_max_ge {α : Type} (f : α → Nat) : ∀ (l : List α) (n : Nat),
    n ≤ l.foldl (fun n r => max n (f r)) n ∧ ∀ r ∈ l, f r ≤ l.foldl (fun n r => max n (f r)) n
  | [], n => by simp
  | x :: xs, n => by
    obtain ⟨h1, h2⟩ := foldl_max_ge f xs (max n (f x))
    refine ⟨by rw [List.foldl_cons]; omega, ?_⟩
    intro r hr
    rw [List.foldl_cons]
    rcases List.mem_cons.1 hr with rfl | hr
    · omega
    · exact h2 r hr

theorem le_maxRefs (G : Grammar F) : ∀ sec ∈ G.metas, ∀ refs ∈ sec.rules, refs.length ≤ maxRefs G := by
  have key : ∀ (ms : List MetaSection) (n : Nat),
      n ≤ ms.foldl (fun n m => m.rules.foldl (fun n r => max n r.length) n) n ∧
      ∀ sec ∈ ms, ∀ refs ∈ sec.rules,
        refs.length ≤ ms.foldl (fun n m => m.rules.foldl (fun n r => max n r.length) n) n := by
    intro ms
    induction ms with
    | nil => intro n; simp
    | cons m ms ih =>
      intro n
      rw [List.foldl_cons]
      obtain ⟨h1, h2⟩ := foldl_max_ge List.length m.rules n
      obtain ⟨h3, h4⟩ := ih (m.rules.foldl (fun n r => max n r.length) n)
      refine ⟨Nat.le_trans h1 h3, ?_⟩
      intro sec hs refs hr
      rcases List.mem_cons.1 hs with rfl | hs
      · exact Nat.le_trans (h2 refs hr) h3
      · exact h4 sec hs refs hr
  exact (key G.metas 0).2

theorem matchNext_isSome {G : Grammar F} (wf : WfGrammar G) (limit R : Nat)
    (hR : ∀ sec ∈ G.metas, ∀ refs ∈ sec.rules, refs.length ≤ R) :
    ∀ (fuel : Nat) (path : SearchPath F) (level : Nat),
      path.next.length + (limit + 1 - level) * R < fuel → (∀ ref ∈ path.next, PtrOk G ref) →
      ∃ res, matchNext G limit fuel path level = some res
  | 0, _, _, h, _ => by omega
  | fuel + 1, ⟨rules, [], remaining⟩, level, _, _ => ⟨[], by simp [matchNext]⟩
  | fuel + 1, ⟨rules, ptr :: stack, remaining⟩, level, hf, hptr => by
    simp only [matchNext]
    simp only [List.length_cons] at hf
    have hptr' : ∀ ref ∈ stack, PtrOk G ref := fun ref hr => hptr ref (List.mem_cons_of_mem _ hr)
    by_cases hlev : level + 1 > limit
    · rw [matchPath, if_pos hlev]; exact ⟨[], rfl⟩
    rw [matchPath, if_neg hlev]
    have hmul : (limit + 1 - level) * R = (limit + 1 - (level + 1)) * R + R := by
      have : limit + 1 - level = limit + 1 - (level + 1) + 1 := by omega
      rw [this, Nat.add_mul, Nat.one_mul]
    rcases hptr ptr (List.mem_cons_self ..) with ⟨i, sec, hp, hsec, hname⟩ | ⟨hp0, i, sec, hp, hsec, hname⟩
    · have hsecm : sec ∈ G.metas := List.mem_of_getElem? hsec
      simp only [hp, hsec]
      have hrefs : ∀ refs ∈ sec.rules, ∀ ref ∈ refs ++ stack, PtrOk G ref := by
        intro refs hr ref href
        rcases List.mem_append.1 href with h1 | h1
        · exact wf.linked sec hsecm refs hr ref h1
        · exact hptr' ref h1
      have hex : ∀ refs ∈ sec.rules, ∃ zs, (if (refs ++ stack).length > 0 then
          matchNext G limit fuel ⟨rules, refs ++ stack, remaining⟩ (level + 1) else some []) = some zs := by
        intro refs hr
        split
        · refine matchNext_isSome wf limit R hR fuel _ (level + 1) ?_ (hrefs refs hr)
          have := hR sec hsecm refs hr
          simp only [List.length_append]
          omega
        · exact ⟨[], rfl⟩
      obtain ⟨mr, hmr⟩ := flatMapM_isSome sec.rules hex
      rw [hmr]
      have hall : ∀ q ∈ mr, q.next = [] := by
        intro q hq
        obtain ⟨refs, hr, zs, hz, hq⟩ := (flatMapM_some hmr q).1 hq
        split at hz
        · obtain ⟨_, _, _, _, _, _, rfl⟩ := (mem_matchNext wf limit fuel _ _ zs hz
            (by intro e; exact wf.nonempty sec hsecm refs hr (List.append_eq_nil_iff.1 e).1) (hrefs refs hr) q).1 hq
          rfl
        · cases hz; cases hq
      simp only
      rw [flatMapM_congr (g := fun x => some [x]) mr (by intro q hq; simp [hall q hq]), flatMapM_pure]
      exact ⟨mr, rfl⟩
    · simp only [hp0, hp, hsec]
      refine flatMapM_isSome _ ?_
      intro q hq
      split
      · refine flatMapM_isSome _ ?_
        intro q' hq'
        obtain ⟨r, hr, rest, he, rfl⟩ := (mem_matchRules _ _ q').1 hq'
        split
        · exact matchNext_isSome wf limit R hR fuel _ level (by simp only; omega) hptr'
        · exact ⟨[], rfl⟩
      · exact ⟨[q], rfl⟩

/-- A result does not depend on the bound of the recursion. -/
theorem matchNext_mono (G : Grammar F) (limit : Nat) : ∀ (fuel : Nat) (path : SearchPath F) (level : Nat)
    (res : List (SearchPath F)), matchNext G limit fuel path level = some res →
      matchNext G limit (fuel + 1) path level = some res
  | 0, _, _, _, h => by cases h
  | fuel + 1, path, level, res, h => by
    rw [matchNext] at h ⊢
    cases hn : path.next with
    | nil => rw [hn] at h; exact h
    | cons ptr stack =>
      rw [hn] at h
      simp only at h ⊢
      cases hm : matchPath G limit (matchNext G limit fuel) ptr { path with next := stack } (level + 1) with
      | none => rw [hm] at h; cases h
      | some mr =>
        rw [hm] at h
        have hm' : matchPath G limit (matchNext G limit (fuel + 1)) ptr { path with next := stack } (level + 1) = some mr := by
          unfold matchPath at hm ⊢
          by_cases hl : level + 1 > limit
          · rw [if_pos hl] at hm ⊢; exact hm
          · rw [if_neg hl] at hm ⊢
            split at hm
            · split at hm
              · cases hm
              · refine flatMapM_mono ?_ _ _ hm
                intro x zs hx
                simp only at hx ⊢
                split at hx
                · rename_i hc
                  rw [if_pos hc]
                  exact matchNext_mono G limit fuel _ _ _ hx
                · rename_i hc
                  rw [if_neg hc]; exact hx
            · exact hm
        rw [hm']
        simp only at h ⊢
        refine flatMapM_mono ?_ _ _ h
        intro x zs hx
        split at hx
        · rename_i hc
          rw [if_pos hc]
          unfold matchNextAll at hx ⊢
          refine flatMapM_mono ?_ _ _ hx
          intro y ws hy
          split at hy
          · rename_i hc
            rw [if_pos hc]
            exact matchNext_mono G limit fuel _ _ _ hy
          · rename_i hc
            rw [if_neg hc]; exact hy
        · rename_i hc
          rw [if_neg hc]; exact hx

theorem matchNext_mono_le (G : Grammar F) (limit : Nat) (f f' : Nat) (hle : f ≤ f') (path : SearchPath F) (level : Nat)
    (res : List (SearchPath F)) (h : matchNext G limit f path level = some res) :
    matchNext G limit f' path level = some res := by
  induction hle with
  | refl => exact h
  | step _ ih => exact matchNext_mono G limit _ _ _ _ ih

/-! ### search -/

theorem matchNext_fuel {G : Grammar F} (wf : WfGrammar G) (limit : Nat) (sec : MetaSection) (hsec : sec ∈ G.metas)
    (refs : MetaRule) (hr : refs ∈ sec.rules) (rules : List (Rule F)) (remaining : List InType) :
    ∃ res, matchNext G limit (searchFuel G limit) ⟨rules, refs, remaining⟩ 0 = some res := by
  refine matchNext_isSome wf limit (maxRefs G) (le_maxRefs G) _ _ _ ?_ (wf.linked sec hsec refs hr)
  have := le_maxRefs G sec hsec refs hr
  simp only [searchFuel, Nat.sub_zero, Nat.add_mul, Nat.mul_add]
  omega

/-- Matching the start section. -/
theorem matchPath_top {G : Grammar F} (wf : WfGrammar G) (limit : Nat) (ptr : SectionPtr) (hp : PtrOk G ptr)
    (pat : List InType) :
    ∃ res, matchPath G limit (matchNext G limit (searchFuel G limit)) ptr { remaining := pat } 0 = some res ∧
      ∀ p, p ∈ res ↔ ∃ rs m rest, Derives G [ptr.name] rs m ∧ m ≤ limit ∧ pat = inputs rs ++ rest ∧
        p = ⟨rs, [], rest⟩ := by
  rw [matchPath, if_neg (by omega)]
  rcases hp with ⟨i, sec, hp, hsec, hname⟩ | ⟨hp0, i, sec, hp, hsec, hname⟩
  · have hsecm : sec ∈ G.metas := List.mem_of_getElem? hsec
    simp only [hp, hsec, List.append_nil]
    have hpos : ∀ refs ∈ sec.rules, refs.length > 0 :=
      fun refs hr => List.length_pos_iff.2 (wf.nonempty sec hsecm refs hr)
    have hex : ∀ refs ∈ sec.rules, ∃ zs, (if refs.length > 0 then
        matchNext G limit (searchFuel G limit) ⟨[], refs, pat⟩ 0 else some []) = some zs := by
      intro refs hr
      rw [if_pos (hpos refs hr)]
      exact matchNext_fuel wf limit sec hsecm refs hr [] pat
    obtain ⟨res, hres⟩ := flatMapM_isSome sec.rules hex
    refine ⟨res, hres, fun p => ?_⟩
    rw [flatMapM_some hres p]
    constructor
    · rintro ⟨refs, hr, zs, hz, hpz⟩
      rw [if_pos (hpos refs hr)] at hz
      obtain ⟨rs, m, rest, hd, hl, he, rfl⟩ := (mem_matchNext wf limit _ _ _ zs hz
        (wf.nonempty sec hsecm refs hr) (wf.linked sec hsecm refs hr) p).1 hpz
      refine ⟨rs, m + 1, rest, .expand hsecm hname hr ?_, by omega, he, by simp⟩
      rw [List.append_nil]; exact hd
    · rintro ⟨rs, m, rest, hd, hl, he, rfl⟩
      cases hd with
      | rule h1 h2 => exact absurd (hname.trans h2.symm) (wf.disjoint hsecm h1)
      | @expand _ _ sec' refs _ m' h1 h2 h3 hd =>
        have : sec' = sec := wf.meta_unique h1 hsecm (h2.trans hname.symm)
        subst this
        obtain ⟨zs, hz⟩ := hex refs h3
        refine ⟨refs, h3, zs, hz, ?_⟩
        rw [if_pos (hpos refs h3)] at hz
        refine (mem_matchNext wf limit _ _ _ zs hz (wf.nonempty sec' hsecm refs h3)
          (wf.linked sec' hsecm refs h3) _).2 ⟨rs, m', rest, ?_, by omega, he, by simp⟩
        rw [List.append_nil] at hd; exact hd
  · have hsecm : sec ∈ G.rules := List.mem_of_getElem? hsec
    simp only [hp0, hp, hsec]
    refine ⟨_, rfl, fun p => ?_⟩
    rw [mem_matchRules]
    constructor
    · rintro ⟨r, hr, rest, he, rfl⟩
      exact ⟨[r], 0, rest, .rule hsecm hname hr .done, by omega, by simpa [inputs] using he, by simp⟩
    · rintro ⟨rs, m, rest, hd, _, he, rfl⟩
      cases hd with
      | @rule _ _ sec' r _ _ h1 h2 h3 hd =>
        have : sec' = sec := wf.rule_unique h1 hsecm (h2.trans hname.symm)
        subst this
        cases hd
        exact ⟨r, h3, rest, by simpa [inputs] using he, by simp⟩
      | expand h1 h2 => exact absurd (h2.trans hname.symm) (wf.disjoint h1 hsecm)

theorem stringToSectionPtr_ok {G : Grammar F} (wf : WfGrammar G) (s : Str) :
    (∃ ptr, stringToSectionPtr G s = some ptr ∧ ptr.name = s ∧ PtrOk G ptr) ∨
    (stringToSectionPtr G s = none ∧ (∀ sec ∈ G.metas, sec.name ≠ s) ∧ (∀ sec ∈ G.rules, sec.name ≠ s)) := by
  have h := wf.indexed s
  unfold stringToSectionPtr
  cases hf : mapFind s G.sectionIndex with
  | none => rw [hf] at h; exact Or.inr ⟨rfl, h⟩
  | some k =>
    rw [hf] at h
    refine Or.inl ?_
    simp only at h ⊢
    rcases h with ⟨sec, h1, h2⟩ | ⟨sec, h1, h2⟩
    · refine ⟨{ name := s, mptr := some k }, ?_, rfl, Or.inl ⟨k, sec, rfl, h1, h2⟩⟩
      simp [h1, h2]
    · have hno : ¬ (G.metas[k]?.map (·.name) = some s) := by
        intro e
        cases hm : G.metas[k]? with
        | none => rw [hm] at e; cases e
        | some m =>
          rw [hm] at e
          simp only [Option.map_some, Option.some.injEq] at e
          exact wf.disjoint (List.mem_of_getElem? hm) (List.mem_of_getElem? h1) (e.trans h2.symm)
      refine ⟨{ name := s, rptr := some k }, ?_, rfl, Or.inr ⟨rfl, k, sec, rfl, h1, h2⟩⟩
      rw [if_neg hno]
      simp [h1, h2]

/-- Exact description of the results of `search`, relative to the enumerated patterns. -/
theorem search_spec {G : Grammar F} (wf : WfGrammar G) (node : Str) (phrase : List Token)
    (ps : List (List InType)) (hps : Token.enumerate phrase = some ps) :
    (∃ results, search G node phrase = .ok results ∧
      ((∃ sec ∈ G.metas, sec.name = node) ∨ (∃ sec ∈ G.rules, sec.name = node)) ∧
      ∀ p, p ∈ results ↔ ∃ rs m, Derives G [node] rs m ∧ m ≤ phrase.length + 2 ∧ inputs rs ∈ ps ∧ p = ⟨rs, [], []⟩) ∨
    (search G node phrase = .throws (c!"Search-Rule-Not-Found:" ++ node) ∧
      (∀ sec ∈ G.metas, sec.name ≠ node) ∧ (∀ sec ∈ G.rules, sec.name ≠ node)) := by
  simp only [search, hps]
  rcases stringToSectionPtr_ok wf node with ⟨ptr, h1, h2, h3⟩ | ⟨h1, h2, h3⟩
  · left
    rw [h1]
    simp only
    have hex : ∀ path ∈ ps.map (fun e => { remaining := e : SearchPath F }), ∃ zs,
        matchPath G (phrase.length + 2) (matchNext G (phrase.length + 2) (searchFuel G (phrase.length + 2))) ptr path 0
          = some zs := by
      intro path hpath
      obtain ⟨e, _, rfl⟩ := List.mem_map.1 hpath
      obtain ⟨res, hres, _⟩ := matchPath_top wf (phrase.length + 2) ptr h3 e
      exact ⟨res, hres⟩
    obtain ⟨ms, hms⟩ := flatMapM_isSome _ hex
    have hma : matchAll G (phrase.length + 2) ptr (ps.map (fun e => { remaining := e : SearchPath F })) 0 = some ms := hms
    rw [hma]
    refine ⟨_, rfl, ?_, fun p => ?_⟩
    · rcases h3 with ⟨i, sec, _, hs, hn⟩ | ⟨_, i, sec, _, hs, hn⟩
      · exact Or.inl ⟨sec, List.mem_of_getElem? hs, hn.trans h2⟩
      · exact Or.inr ⟨sec, List.mem_of_getElem? hs, hn.trans h2⟩
    · rw [List.mem_filter, flatMapM_some hms p]
      constructor
      · rintro ⟨⟨path, hpath, zs, hz, hp⟩, hrem⟩
        obtain ⟨e, he, rfl⟩ := List.mem_map.1 hpath
        obtain ⟨res, hres, hmem⟩ := matchPath_top wf (phrase.length + 2) ptr h3 e
        rw [hres] at hz
        cases hz
        obtain ⟨rs, m, rest, hd, hl, heq, rfl⟩ := (hmem p).1 hp
        have hrest : rest = [] := by simpa using hrem
        subst hrest
        rw [List.append_nil] at heq
        refine ⟨rs, m, by rw [← h2]; exact hd, hl, by rw [← heq]; exact he, rfl⟩
      · rintro ⟨rs, m, hd, hl, hin, rfl⟩
        refine ⟨?_, by simp⟩
        obtain ⟨res, hres, hmem⟩ := matchPath_top wf (phrase.length + 2) ptr h3 (inputs rs)
        exact ⟨_, List.mem_map.2 ⟨inputs rs, hin, rfl⟩, res, hres,
          (hmem _).2 ⟨rs, m, [], by rw [h2]; exact hd, hl, by simp, rfl⟩⟩
  · right
    rw [h1]
    exact ⟨rfl, h2, h3⟩

/-! ### Enumeration without bounds -/

namespace Token

theorem countCombos_zero : ∀ ts : List Token, countCombos 0 ts = 0
  | [] => rfl
  | t :: ts => by
    simp only [countCombos, Nat.zero_mul]
    exact countCombos_zero ts

theorem countCombos_pos : ∀ (ts : List Token) (c : Nat), 0 < countCombos c ts → ∀ t ∈ ts, 0 < t.inclass.length
  | [], _, _, t, ht => by cases ht
  | t :: ts, c, h, t', ht' => by
    rw [countCombos] at h
    rcases List.mem_cons.1 ht' with rfl | ht'
    · apply Nat.pos_of_ne_zero
      intro e
      simp only [inSize, e, Nat.mul_zero] at h
      have hz : u64 0 = 0 := rfl
      rw [hz, countCombos_zero ts] at h
      omega
    · exact countCombos_pos ts _ h t' ht'

theorem enumOne_picks (cnt i : Nat) : ∀ (ts : List Token) (num : Nat), (∀ t ∈ ts, 0 < t.inclass.length) →
    ∃ p, enumOne cnt i num ts = some p ∧ Picks p (ts.map inclass)
  | [], num, _ => ⟨[], rfl, .nil⟩
  | t :: ts, num, h => by
    have hlen := h t (List.mem_cons_self ..)
    obtain ⟨p, hp, hpk⟩ := enumOne_picks cnt i ts (u64 (num * t.inSize)) (fun x hx => h x (List.mem_cons_of_mem _ hx))
    have hlt : u64 (i * u64 (num * t.inSize)) / cnt % t.inSize < t.inclass.length := Nat.mod_lt _ hlen
    refine ⟨t.inclass[u64 (i * u64 (num * t.inSize)) / cnt % t.inSize] :: p, ?_, ?_⟩
    · simp only [enumOne]
      rw [List.getElem?_eq_getElem hlt]
      simp only [hp]
    · exact .cons (List.getElem_mem hlt) hpk

/-- For any number of combinations the enumeration has no undefined behaviour and every pattern picks
one class of each token. -/
theorem enumerate_picks (ts : List Token) :
    ∃ ps, enumerate ts = some ps ∧ ∀ p ∈ ps, Picks p (ts.map inclass) := by
  unfold enumerate
  simp only
  generalize hc : countCombos 1 ts = cnt
  have key : ∀ l : List Nat, (l ≠ [] → 0 < cnt) →
      ∃ ps, l.mapM (fun i => enumOne cnt i 1 ts) = some ps ∧ ∀ p ∈ ps, Picks p (ts.map inclass) := by
    intro l
    induction l with
    | nil => intro _; exact ⟨[], rfl, by intro p hp; cases hp⟩
    | cons i is ih =>
      intro h
      have hpos := h (by simp)
      obtain ⟨ps, h1, h2⟩ := ih (fun _ => hpos)
      obtain ⟨p, h3, h4⟩ := enumOne_picks cnt i ts 1 (countCombos_pos ts 1 (by rw [hc]; exact hpos))
      refine ⟨p :: ps, ?_, ?_⟩
      · rw [List.mapM_cons, h3, h1]; rfl
      · intro q hq
        rcases List.mem_cons.1 hq with rfl | hq
        · exact h4
        · exact h2 q hq
  refine key _ ?_
  intro h
  apply Nat.pos_of_ne_zero
  intro e
  exact h (by rw [e]; rfl)

end Token

end AS
