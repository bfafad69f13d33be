import Verif.Spec.Tally
import Verif.Lemmas.Search
/-
Lemmas on how often the search lists a sequence of rules.
-/
namespace AS
variable {F : Type}

/-! ### Lists -/

theorem flatMapM_eq_flatMap {α β : Type} {f : α → Option (List β)} : ∀ {xs : List α} {ys : List β},
    flatMapM f xs = some ys → ys = xs.flatMap (fun x => (f x).getD [])
  | [], ys, h => by
    simp only [flatMapM, Option.some.injEq] at h
    subst h; rfl
  | x :: xs, ys, h => by
    rw [flatMapM] at h
    cases hx : f x with
    | none => rw [hx] at h; cases h
    | some zs =>
      rw [hx] at h
      cases hr : flatMapM f xs with
      | none => rw [hr] at h; cases h
      | some ws =>
        rw [hr] at h
        simp only [Option.some.injEq] at h
        subst h
        rw [List.flatMap_cons, hx, flatMapM_eq_flatMap hr]; rfl

theorem count_flatMapM {α β : Type} [DecidableEq β] {f : α → Option (List β)} {xs : List α} {ys : List β}
    (h : flatMapM f xs = some ys) (g : α → Nat) (b : β)
    (hg : ∀ x ∈ xs, ∀ zs, f x = some zs → zs.count b = g x) : ys.count b = (xs.map g).sum := by
  induction xs generalizing ys with
  | nil => simp only [flatMapM, Option.some.injEq] at h; subst h; rfl
  | cons x xs ih =>
    rw [flatMapM] at h
    cases hx : f x with
    | none => rw [hx] at h; cases h
    | some zs =>
      rw [hx] at h
      cases hr : flatMapM f xs with
      | none => rw [hr] at h; cases h
      | some ws =>
        rw [hr] at h
        simp only [Option.some.injEq] at h
        subst h
        rw [List.count_append, hg x (List.mem_cons_self ..) zs hx,
          ih hr (fun y hy => hg y (List.mem_cons_of_mem _ hy)), List.map_cons, List.sum_cons]

theorem sum_map_const {α : Type} (n : Nat) : ∀ xs : List α, (xs.map (fun _ => n)).sum = xs.length * n
  | [] => by simp
  | x :: xs => by rw [List.map_cons, List.sum_cons, sum_map_const n xs, List.length_cons, Nat.add_mul]; omega

/-- A sum with terms only for one value. -/
theorem sum_map_single {α : Type} [DecidableEq α] (a : α) (g : α → Nat) : ∀ xs : List α,
    (∀ x ∈ xs, x ≠ a → g x = 0) → (xs.map g).sum = xs.count a * g a
  | [], _ => by simp
  | x :: xs, h => by
    rw [List.map_cons, List.sum_cons, sum_map_single a g xs (fun y hy => h y (List.mem_cons_of_mem _ hy))]
    by_cases e : x = a
    · subst e; rw [List.count_cons_self, Nat.add_mul]; omega
    · rw [h x (List.mem_cons_self ..) e, List.count_cons_of_ne e]; omega

theorem filter_unique {α β : Type} [DecidableEq β] {f : α → β} : ∀ {l : List α}, (l.map f).Nodup → ∀ {a : α}, a ∈ l →
    ∀ {b : β}, f a = b → l.filter (fun x => decide (f x = b)) = [a]
  | [], _, a, ha, _, _ => by cases ha
  | x :: xs, h, a, ha, b, e => by
    rw [List.map_cons, List.nodup_cons] at h
    rcases List.mem_cons.1 ha with rfl | ha
    · rw [List.filter_cons_of_pos (by simpa using e)]
      congr 1
      rw [List.filter_eq_nil_iff]
      intro y hy hc
      refine h.1 ?_
      rw [e, ← of_decide_eq_true hc]
      exact List.mem_map_of_mem hy
    · rw [List.filter_cons_of_neg, filter_unique h.2 ha e]
      intro hc
      refine h.1 ?_
      rw [of_decide_eq_true hc, ← e]
      exact List.mem_map_of_mem ha

/-! ### Sections -/

theorem linesNamed_eq {G : Grammar F} (wf : WfGrammar G) {sec : RuleSection F} (h : sec ∈ G.rules) {s : Str}
    (e : sec.name = s) : linesNamed G s = sec.rules := by
  unfold linesNamed
  rw [filter_unique (List.nodup_append.1 wf.distinct).2.1 h e]
  simp

theorem linesNamed_meta {G : Grammar F} (wf : WfGrammar G) {sec : MetaSection} (h : sec ∈ G.metas) {s : Str}
    (e : sec.name = s) : linesNamed G s = [] := by
  unfold linesNamed
  rw [List.filter_eq_nil_iff.2, List.flatMap_nil]
  intro x hx hc
  exact wf.disjoint h hx (e.trans (of_decide_eq_true hc).symm)

theorem refsNamed_eq {G : Grammar F} (wf : WfGrammar G) {sec : MetaSection} (h : sec ∈ G.metas) {s : Str}
    (e : sec.name = s) : refsNamed G s = sec.rules.map (·.map (·.name)) := by
  unfold refsNamed
  rw [filter_unique (List.nodup_append.1 wf.distinct).1 h e]
  simp

theorem refsNamed_rule {G : Grammar F} (wf : WfGrammar G) {sec : RuleSection F} (h : sec ∈ G.rules) {s : Str}
    (e : sec.name = s) : refsNamed G s = [] := by
  unfold refsNamed
  rw [List.filter_eq_nil_iff.2, List.flatMap_nil]
  intro x hx hc
  exact wf.disjoint hx h ((of_decide_eq_true hc).trans e.symm)

/-! ### The rules of a section -/

theorem length_matchRules (path : SearchPath F) : ∀ rs : List (Rule F),
    (matchRules path rs).length = fitting rs path.remaining
  | [] => rfl
  | r :: rs => by
    have ih := length_matchRules path rs
    simp only [matchRules]
    unfold fitting at ih ⊢
    by_cases h : ∃ rest, path.remaining = r.inClass ++ rest
    · obtain ⟨rest, hrest⟩ := h
      rw [matchRule_success r path rest hrest]
      simp only [List.length_append, List.length_cons, List.length_nil]
      rw [if_pos (by omega), List.filter_cons_of_pos (p := fun r : Rule F => r.inClass.isPrefixOf path.remaining)
          (List.isPrefixOf_iff_prefix.2 ⟨rest, hrest.symm⟩),
        List.length_cons, List.length_cons, ih]
    · rw [matchRule_fail r path h]
      simp only [List.length_nil, Nat.lt_irrefl, gt_iff_lt, ↓reduceIte]
      rw [List.filter_cons_of_neg, ih]
      intro hc
      obtain ⟨rest, hr⟩ := List.isPrefixOf_iff_prefix.1 hc
      exact h ⟨rest, hr.symm⟩

theorem count_matchRules [DecidableEq F] (path : SearchPath F) (r : Rule F) (rest : List InType)
    (hr : path.remaining = r.inClass ++ rest) : ∀ rs : List (Rule F),
    (matchRules path rs).count { path with rules := path.rules ++ [r], remaining := rest } = rs.count r
  | [] => rfl
  | x :: rs => by
    have ih := count_matchRules path r rest hr rs
    simp only [matchRules]
    by_cases h : ∃ rest, path.remaining = x.inClass ++ rest
    · obtain ⟨rest', hrest⟩ := h
      rw [matchRule_success x path rest' hrest]
      simp only [List.length_append, List.length_cons, List.length_nil]
      rw [if_pos (by omega)]
      by_cases e : x = r
      · subst e
        have : rest' = rest := List.append_cancel_left (hrest.symm.trans hr)
        subst this
        rw [List.count_cons_self, List.count_cons_self, ih]
      · rw [List.count_cons_of_ne e, List.count_cons_of_ne, ih]
        intro he
        injection he with he _ _
        exact e (by simpa using he)
    · rw [matchRule_fail x path h]
      simp only [List.length_nil, Nat.lt_irrefl, gt_iff_lt, ↓reduceIte]
      rw [List.count_cons_of_ne, ih]
      rintro rfl
      exact h ⟨rest, hr⟩

/-! ### The recursion -/

/-- The weight with which the search lists a rule. -/
def listWeight : Weight F := fun rules ss pat => if ss = [] then 1 else fitting rules pat

theorem tally_meta [DecidableEq F] {G : Grammar F} (wf : WfGrammar G) (w : Weight F) {sec : MetaSection} (h : sec ∈ G.metas)
    (s : Str) (e : sec.name = s) (ss : List Str) (pat : List InType) (rs : List (Rule F)) :
    tally G w 0 (s :: ss) pat rs = 0 ∧ ∀ m, tally G w (m + 1) (s :: ss) pat rs =
      (sec.rules.map (fun refs => tally G w m (refs.map (·.name) ++ ss) pat rs)).sum := by
  have h1 := linesNamed_meta wf h e
  have h2 := refsNamed_eq wf h e
  cases rs with
  | nil =>
    refine ⟨?_, fun m => ?_⟩
    · rw [tally, tallyStep, sum_map_const, Nat.mul_zero]
    · rw [tally, tallyStep, h2, List.map_map]; rfl
  | cons r rs =>
    refine ⟨?_, fun m => ?_⟩
    · rw [tally, tallyStep, sum_map_const, Nat.mul_zero, h1]; simp
    · rw [tally, tallyStep, h2, h1, List.map_map]; simp; rfl

theorem tally_rule_nil [DecidableEq F] {G : Grammar F} (wf : WfGrammar G) (w : Weight F) {sec : RuleSection F}
    (h : sec ∈ G.rules) (s : Str) (e : sec.name = s) (m : Nat) (ss : List Str) (pat : List InType) :
    tally G w m (s :: ss) pat [] = 0 := by
  have h2 := refsNamed_rule wf h e
  cases m <;> rw [tally, tallyStep, h2] <;> rfl

theorem tally_rule [DecidableEq F] {G : Grammar F} (wf : WfGrammar G) (w : Weight F) {sec : RuleSection F}
    (h : sec ∈ G.rules) (s : Str) (e : sec.name = s) (m : Nat) (ss : List Str) (pat : List InType) (r : Rule F)
    (rs : List (Rule F)) :
    tally G w m (s :: ss) pat (r :: rs) =
      sec.rules.count r * w sec.rules ss pat * tally G w m ss (pat.drop r.inClass.length) rs := by
  have h1 := linesNamed_eq wf h e
  have h2 := refsNamed_rule wf h e
  cases m <;> rw [tally, tallyStep, h1, h2] <;> simp

theorem tally_nil [DecidableEq F] (G : Grammar F) (w : Weight F) (m : Nat) (pat : List InType) (rs : List (Rule F)) :
    tally G w m [] pat rs = if rs = [] then 1 else 0 := by
  cases m <;> cases rs <;> simp [tally, tallyStep]

/-- How often a result of `matchNext` is in its list. -/
theorem count_matchNext [DecidableEq F] {G : Grammar F} (wf : WfGrammar G) (limit : Nat) :
    ∀ (fuel : Nat) (path : SearchPath F) (level : Nat) (res : List (SearchPath F)),
      matchNext G limit fuel path level = some res → path.next ≠ [] → (∀ ref ∈ path.next, PtrOk G ref) →
      ∀ rs rest, res.count ⟨path.rules ++ rs, [], rest⟩ =
        if level + 1 ≤ limit ∧ path.remaining = inputs rs ++ rest then
          tally G listWeight (limit - (level + 1)) (path.next.map (·.name)) path.remaining rs
        else 0
  | 0, _, _, _, h, _, _ => by cases h
  | fuel + 1, ⟨rules, [], remaining⟩, level, res, h, hne, _ => absurd rfl hne
  | fuel + 1, ⟨rules, ptr :: stack, remaining⟩, level, res, h, hne, hptr => by
    intro rs rest
    rcases (inferInstance : Decidable (level + 1 ≤ limit ∧ remaining = inputs rs ++ rest)) with hc | hc
    · rw [if_neg hc, List.count_eq_zero]
      intro hmem
      obtain ⟨rs', m, rest', _, hl, he, hp⟩ := (mem_matchNext wf limit (fuel + 1) _ level res h hne hptr _).1 hmem
      injection hp with h1 _ h3
      have h1 := List.append_cancel_left h1
      subst h1 h3
      exact hc ⟨by omega, he⟩
    rw [if_pos hc]
    obtain ⟨hlev, hrem⟩ := hc
    have hmemAll := mem_matchNext wf limit (fuel + 1) _ level res h hne hptr
    simp only [matchNext] at h
    cases hm : matchPath G limit (matchNext G limit fuel) ptr ⟨rules, stack, remaining⟩ (level + 1) with
    | none => rw [hm] at h; cases h
    | some mr =>
      rw [hm] at h
      simp only at h
      rw [matchPath, if_neg (by omega)] at hm
      simp only [List.map_cons]
      rcases hptr ptr (List.mem_cons_self ..) with ⟨i, sec, hp, hsec, hname⟩ | ⟨hp0, i, sec, hp, hsec, hname⟩
      · -- a meta section
        simp only [hp, hsec] at hm
        have hsecm : sec ∈ G.metas := List.mem_of_getElem? hsec
        have hok : ∀ refs ∈ sec.rules, refs ++ stack ≠ [] ∧ ∀ ref ∈ refs ++ stack, PtrOk G ref := by
          intro refs hr
          refine ⟨fun e => wf.nonempty sec hsecm refs hr (List.append_eq_nil_iff.1 e).1, fun ref href => ?_⟩
          rcases List.mem_append.1 href with h1 | h1
          · exact wf.linked sec hsecm refs hr ref h1
          · exact hptr ref (List.mem_cons_of_mem _ h1)
        have hall : ∀ q ∈ mr, q.next = [] := by
          intro q hq
          obtain ⟨refs, hr, zs, hz, hq⟩ := (flatMapM_some hm q).1 hq
          obtain ⟨ho1, ho2⟩ := hok refs hr
          rw [if_pos (List.length_pos_iff.2 ho1)] at hz
          obtain ⟨_, _, _, _, _, _, rfl⟩ := (mem_matchNext wf limit fuel _ (level + 1) zs hz ho1 ho2 q).1 hq
          rfl
        rw [flatMapM_congr (g := fun x => some [x]) mr (by intro q hq; simp [hall q hq]), flatMapM_pure] at h
        cases h
        obtain ⟨t0, t1⟩ := tally_meta wf listWeight hsecm ptr.name hname (stack.map (·.name)) remaining rs
        rw [count_flatMapM hm (fun refs => if level + 1 + 1 ≤ limit ∧ remaining = inputs rs ++ rest then
          tally G listWeight (limit - (level + 1 + 1)) ((refs ++ stack).map (·.name)) remaining rs else 0)]
        · cases hk : limit - (level + 1) with
          | zero =>
            rw [t0]
            rw [List.map_congr_left (g := fun _ => 0) (fun refs _ => by rw [if_neg (by omega)]), sum_map_const, Nat.mul_zero]
          | succ k =>
            rw [t1 k]
            refine congrArg List.sum (List.map_congr_left fun refs _ => ?_)
            rw [if_pos ⟨by omega, hrem⟩, List.map_append, show limit - (level + 1 + 1) = k by omega]
        · intro refs hr zs hz
          obtain ⟨ho1, ho2⟩ := hok refs hr
          rw [if_pos (List.length_pos_iff.2 ho1)] at hz
          exact count_matchNext wf limit fuel ⟨rules, refs ++ stack, remaining⟩ (level + 1) zs hz ho1 ho2 rs rest
      · -- a rule section
        simp only [hp0, hp, hsec, Option.some.injEq] at hm
        have hsecm : sec ∈ G.rules := List.mem_of_getElem? hsec
        subst hm
        have hmem := mem_matchRules ⟨rules, stack, remaining⟩ sec.rules
        simp only at hmem
        cases rs with
        | nil =>
          rw [tally_rule_nil wf _ hsecm ptr.name hname, List.count_eq_zero]
          intro hin
          obtain ⟨rs', m, rest', hd, _, _, hp⟩ := (hmemAll _).1 hin
          injection hp with h1 _ _
          have h1 := List.append_cancel_left h1
          subst h1
          cases hd with
          | expand h1 h2 => exact absurd (h2.trans hname.symm) (wf.disjoint h1 hsecm)
        | cons r rs' =>
          have hrem' : remaining = r.inClass ++ (inputs rs' ++ rest) := by
            rw [hrem]; simp [inputs]
          have hdrop : remaining.drop r.inClass.length = inputs rs' ++ rest := by
            rw [hrem', List.drop_left]
          rw [tally_rule wf _ hsecm ptr.name hname, hdrop]
          have hcount := count_matchRules ⟨rules, stack, remaining⟩ r (inputs rs' ++ rest) hrem' sec.rules
          simp only at hcount
          cases hst : stack with
          | nil =>
            subst hst
            rw [flatMapM_congr (g := fun x => some [x]) _ (by
              intro q hq
              obtain ⟨_, _, _, _, rfl⟩ := (hmem q).1 hq
              rfl), flatMapM_pure] at h
            cases h
            simp only [List.map_nil, listWeight, ↓reduceIte, Nat.mul_one, tally_nil]
            cases rs' with
            | nil =>
              simp only [↓reduceIte, Nat.mul_one]
              simpa [inputs] using hcount
            | cons r' rs'' =>
              simp only [reduceCtorEq, ↓reduceIte, Nat.mul_zero]
              rw [List.count_eq_zero]
              intro hin
              obtain ⟨_, _, _, _, hp⟩ := (hmem _).1 hin
              injection hp with h1 _ _
              have := congrArg List.length h1
              simp at this
          | cons nx nxs =>
            rw [← hst]
            have hpos : stack.length > 0 := by rw [hst]; simp
            have hne' : stack ≠ [] := by rw [hst]; simp
            have hptr' : ∀ ref ∈ stack, PtrOk G ref := fun ref hr => hptr ref (List.mem_cons_of_mem _ hr)
            have hnames : stack.map (·.name) ≠ [] := by rw [hst]; simp
            let star : SearchPath F := ⟨rules ++ [r], stack, inputs rs' ++ rest⟩
            let target : SearchPath F := ⟨rules ++ r :: rs', [], rest⟩
            let T := tally G listWeight (limit - (level + 1)) (stack.map (·.name)) (inputs rs' ++ rest) rs'
            have hinner : ∀ zs, matchNextAll (matchNext G limit fuel) (matchRules ⟨rules, stack, remaining⟩ sec.rules)
                level = some zs → zs.count target = sec.rules.count r * T := by
              intro zs hz
              rw [count_flatMapM hz (fun q => if q = star then T else 0)]
              · rw [sum_map_single star _ _ (fun x _ hx => if_neg hx), if_pos rfl, hcount]
              · intro q hq zs' hz'
                obtain ⟨r0, hr0, rest0, he0, rfl⟩ := (hmem q).1 hq
                simp only [hpos, ↓reduceIte] at hz'
                by_cases e : r0 = r
                · subst e
                  have : rest0 = inputs rs' ++ rest := List.append_cancel_left (he0.symm.trans hrem')
                  subst this
                  rw [if_pos rfl]
                  have ih := count_matchNext wf limit fuel ⟨rules ++ [r0], stack, inputs rs' ++ rest⟩ level zs' hz'
                    hne' hptr' rs' rest
                  rw [if_pos ⟨hlev, rfl⟩] at ih
                  simpa [target] using ih
                · rw [if_neg (fun he => e (by injection he with h1 _ _; simpa using h1)), List.count_eq_zero]
                  intro hin
                  obtain ⟨rs0, m0, rest1, _, _, _, hp⟩ :=
                    (mem_matchNext wf limit fuel _ level zs' hz' hne' hptr' _).1 hin
                  injection hp with h1 _ _
                  simp only [List.append_assoc] at h1
                  have h1 := List.append_cancel_left h1
                  injection h1 with h1 _
                  exact e h1.symm
            rw [count_flatMapM h (fun _ => sec.rules.count r * T)]
            · rw [sum_map_const, length_matchRules]
              simp only [listWeight, hnames, ↓reduceIte]
              rw [← Nat.mul_assoc, Nat.mul_comm (fitting _ _)]
            · intro q hq zs hz
              obtain ⟨_, _, _, _, rfl⟩ := (hmem q).1 hq
              simp only [hpos, ↓reduceIte] at hz
              exact hinner zs hz

/-- How often a result is listed when matching the start section. -/
theorem count_matchPath_top [DecidableEq F] {G : Grammar F} (wf : WfGrammar G) (limit : Nat) (ptr : SectionPtr)
    (hp : PtrOk G ptr) (pat : List InType) (res : List (SearchPath F))
    (h : matchPath G limit (matchNext G limit (searchFuel G limit)) ptr { remaining := pat } 0 = some res)
    (rs : List (Rule F)) (rest : List InType) :
    res.count ⟨rs, [], rest⟩ = if pat = inputs rs ++ rest then tally G listWeight limit [ptr.name] pat rs else 0 := by
  rcases (inferInstance : Decidable (pat = inputs rs ++ rest)) with hc | hc
  · rw [if_neg hc, List.count_eq_zero]
    intro hmem
    obtain ⟨res', h', hm⟩ := matchPath_top wf limit ptr hp pat
    rw [h] at h'
    cases h'
    obtain ⟨rs', m, rest', _, _, he, hq⟩ := (hm _).1 hmem
    injection hq with h1 _ h3
    subst h1 h3
    exact hc he
  rw [if_pos hc, ]
  rw [matchPath, if_neg (by omega)] at h
  rcases hp with ⟨i, sec, hp, hsec, hname⟩ | ⟨hp0, i, sec, hp, hsec, hname⟩
  · have hsecm : sec ∈ G.metas := List.mem_of_getElem? hsec
    simp only [hp, hsec, List.append_nil] at h
    obtain ⟨t0, t1⟩ := tally_meta wf listWeight hsecm ptr.name hname [] pat rs
    rw [count_flatMapM h (fun refs => if 0 + 1 ≤ limit ∧ pat = inputs rs ++ rest then
      tally G listWeight (limit - (0 + 1)) (refs.map (·.name)) pat rs else 0)]
    · cases limit with
      | zero =>
        rw [t0, List.map_congr_left (g := fun _ => 0) (fun refs _ => by rw [if_neg (by omega)]), sum_map_const,
          Nat.mul_zero]
      | succ k =>
        rw [t1 k]
        refine congrArg List.sum (List.map_congr_left fun refs _ => ?_)
        rw [if_pos ⟨by omega, hc⟩, List.append_nil]
        rfl
    · intro refs hr zs hz
      rw [if_pos (List.length_pos_iff.2 (wf.nonempty sec hsecm refs hr))] at hz
      have := count_matchNext wf limit _ ⟨[], refs, pat⟩ 0 zs hz (wf.nonempty sec hsecm refs hr)
        (wf.linked sec hsecm refs hr) rs rest
      simpa using this
  · have hsecm : sec ∈ G.rules := List.mem_of_getElem? hsec
    simp only [hp0, hp, hsec, Option.some.injEq] at h
    subst h
    cases rs with
    | nil =>
      rw [tally_rule_nil wf _ hsecm ptr.name hname, List.count_eq_zero]
      intro hin
      obtain ⟨_, _, _, _, hq⟩ := (mem_matchRules _ _ _).1 hin
      injection hq with h1 _ _
      simp at h1
    | cons r rs' =>
      rw [tally_rule wf _ hsecm ptr.name hname]
      simp only [listWeight, ↓reduceIte, Nat.mul_one, tally_nil]
      cases rs' with
      | nil =>
        simp only [↓reduceIte, Nat.mul_one]
        have := count_matchRules ({ remaining := pat } : SearchPath F) r rest (by simpa [inputs] using hc) sec.rules
        simpa using this
      | cons r' rs'' =>
        simp only [reduceCtorEq, ↓reduceIte, Nat.mul_zero]
        rw [List.count_eq_zero]
        intro hin
        obtain ⟨_, _, _, _, hq⟩ := (mem_matchRules _ _ _).1 hin
        injection hq with h1 _ _
        simp at h1

/-- How often a sequence of rules is in the results of the search. -/
theorem count_search [DecidableEq F] {G : Grammar F} (wf : WfGrammar G) (node : Str) (phrase : List Token)
    (ps : List (List InType)) (hps : Token.enumerate phrase = some ps) (results : List (SearchPath F))
    (h : search G node phrase = .ok results) (rs : List (Rule F)) :
    results.count ⟨rs, [], []⟩ = ps.count (inputs rs) * times G (phrase.length + 2) [node] rs := by
  simp only [search, hps] at h
  rcases stringToSectionPtr_ok wf node with ⟨ptr, h1, h2, h3⟩ | ⟨h1, h2, h3⟩
  · rw [h1] at h
    simp only at h
    cases hms : matchAll G (phrase.length + 2) ptr (ps.map (fun e => { remaining := e : SearchPath F })) 0 with
    | none => rw [hms] at h; cases h
    | some ms =>
      rw [hms] at h
      injection h with h
      subst h
      rw [List.count_filter (by simp)]
      rw [count_flatMapM hms (fun path => if path = ({ remaining := inputs rs } : SearchPath F) then
        tally G listWeight (phrase.length + 2) [ptr.name] (inputs rs) rs else 0)]
      · rw [sum_map_single ({ remaining := inputs rs } : SearchPath F) _ _ (fun x _ hx => if_neg hx), if_pos rfl, h2]
        unfold times
        congr 1
        have : ∀ l : List (List InType), (l.map (fun e => ({ remaining := e } : SearchPath F))).count
            { remaining := inputs rs } = l.count (inputs rs) := by
          intro l
          induction l with
          | nil => rfl
          | cons e l ih =>
            rw [List.map_cons]
            by_cases he : e = inputs rs
            · subst he; rw [List.count_cons_self, List.count_cons_self, ih]
            · rw [List.count_cons_of_ne he, List.count_cons_of_ne, ih]
              intro hc
              injection hc with _ _ hc
              exact he hc
        exact this ps
      · intro path hpath zs hz
        obtain ⟨e, _, rfl⟩ := List.mem_map.1 hpath
        have := count_matchPath_top wf (phrase.length + 2) ptr h3 e zs hz rs []
        rw [List.append_nil] at this
        rw [this]
        by_cases he : e = inputs rs
        · subst he; rw [if_pos rfl, if_pos rfl]
        · rw [if_neg he, if_neg]
          intro hc
          injection hc with _ _ hc
          exact he hc
  · rw [h1] at h
    cases h

/-! ### Comparing weights -/

theorem mem_linesNamed {G : Grammar F} {s : Str} {r : Rule F} :
    r ∈ linesNamed G s ↔ ∃ sec ∈ G.rules, sec.name = s ∧ r ∈ sec.rules := by
  simp [linesNamed, and_assoc]

theorem mem_refsNamed {G : Grammar F} {s : Str} {refs : List Str} :
    refs ∈ refsNamed G s ↔ ∃ sec ∈ G.metas, sec.name = s ∧ ∃ l ∈ sec.rules, l.map (·.name) = refs := by
  simp [refsNamed, and_assoc]

theorem sum_map_le {α : Type} {f g : α → Nat} : ∀ {l : List α}, (∀ x ∈ l, f x ≤ g x) → (l.map f).sum ≤ (l.map g).sum
  | [], _ => Nat.le_refl _
  | x :: l, h => by
    rw [List.map_cons, List.map_cons, List.sum_cons, List.sum_cons]
    exact Nat.add_le_add (h x (List.mem_cons_self ..)) (sum_map_le (fun y hy => h y (List.mem_cons_of_mem _ hy)))

theorem sum_map_mul {α : Type} (k : Nat) (g : α → Nat) : ∀ l : List α, (l.map (fun x => k * g x)).sum = k * (l.map g).sum
  | [] => by simp
  | x :: l => by rw [List.map_cons, List.map_cons, List.sum_cons, List.sum_cons, sum_map_mul k g l, Nat.mul_add]

/-- A smaller weight gives a smaller number. -/
theorem tally_le [DecidableEq F] (G : Grammar F) (w w' : Weight F)
    (hw : ∀ s ss r rs, r ∈ linesNamed G s → w (linesNamed G s) ss (inputs (r :: rs)) ≤ w' (linesNamed G s) ss (inputs (r :: rs))) :
    ∀ m ss rs, tally G w m ss (inputs rs) rs ≤ tally G w' m ss (inputs rs) rs := by
  have step : ∀ e e' : List Str → List InType → List (Rule F) → Nat,
      (∀ ss rs, e ss (inputs rs) rs ≤ e' ss (inputs rs) rs) →
      ∀ ss rs, tallyStep G w e ss (inputs rs) rs ≤ tallyStep G w' e' ss (inputs rs) rs := by
    intro e e' he ss
    induction ss with
    | nil => intro rs; cases rs <;> exact Nat.le_refl _
    | cons s ss ih =>
      intro rs
      cases rs with
      | nil => rw [tallyStep, tallyStep]; exact sum_map_le (fun refs _ => he _ _)
      | cons r rs =>
        rw [tallyStep, tallyStep]
        refine Nat.add_le_add (sum_map_le (fun refs _ => he _ _)) ?_
        have hd : (inputs (r :: rs)).drop r.inClass.length = inputs rs := by simp [inputs]
        rw [hd]
        by_cases hr : r ∈ linesNamed G s
        · exact Nat.mul_le_mul (Nat.mul_le_mul_left _ (hw s ss r rs hr)) (ih rs)
        · rw [List.count_eq_zero.2 hr]; simp
  intro m
  induction m with
  | zero => exact step _ _ (fun _ _ => Nat.le_refl _)
  | succ m ih => exact step _ _ ih

theorem tally_congr [DecidableEq F] (G : Grammar F) (w w' : Weight F)
    (hw : ∀ s ss r rs, r ∈ linesNamed G s → w (linesNamed G s) ss (inputs (r :: rs)) = w' (linesNamed G s) ss (inputs (r :: rs)))
    (m : Nat) (ss : List Str) (rs : List (Rule F)) : tally G w m ss (inputs rs) rs = tally G w' m ss (inputs rs) rs :=
  Nat.le_antisymm (tally_le G w w' (fun s ss r rs hr => Nat.le_of_eq (hw s ss r rs hr)) m ss rs)
    (tally_le G w' w (fun s ss r rs hr => Nat.le_of_eq (hw s ss r rs hr).symm) m ss rs)

theorem inputs_prefix (r : Rule F) (rs : List (Rule F)) : r.inClass <+: inputs (r :: rs) :=
  ⟨inputs rs, by simp [inputs]⟩

theorem fitting_pos {rules : List (Rule F)} {r : Rule F} (h : r ∈ rules) (rs : List (Rule F)) :
    1 ≤ fitting rules (inputs (r :: rs)) := by
  unfold fitting
  exact List.length_pos_of_mem (List.mem_filter.2 ⟨h, List.isPrefixOf_iff_prefix.2 (inputs_prefix r rs)⟩)

theorem fitting_one {rules : List (Rule F)}
    (hp : rules.Pairwise (fun a b => ¬ a.inClass <+: b.inClass ∧ ¬ b.inClass <+: a.inClass)) {r : Rule F} (h : r ∈ rules)
    (rs : List (Rule F)) : fitting rules (inputs (r :: rs)) = 1 := by
  refine Nat.le_antisymm ?_ (fitting_pos h rs)
  unfold fitting
  cases hf : rules.filter (fun r' => r'.inClass.isPrefixOf (inputs (r :: rs))) with
  | nil => simp
  | cons a l =>
    cases l with
    | nil => simp
    | cons b l =>
      exfalso
      have hpf := hp.filter (fun r' => r'.inClass.isPrefixOf (inputs (r :: rs)))
      rw [hf] at hpf
      have hab := (List.pairwise_cons.1 hpf).1 b (by simp)
      have ha : a ∈ rules.filter (fun r' => r'.inClass.isPrefixOf (inputs (r :: rs))) := by rw [hf]; simp
      have hb : b ∈ rules.filter (fun r' => r'.inClass.isPrefixOf (inputs (r :: rs))) := by rw [hf]; simp
      have ha := List.isPrefixOf_iff_prefix.1 (List.mem_filter.1 ha).2
      have hb := List.isPrefixOf_iff_prefix.1 (List.mem_filter.1 hb).2
      rcases List.prefix_or_prefix_of_prefix ha hb with h | h
      · exact hab.1 h
      · exact hab.2 h

/-- Sections give no empty sequence of rules if every meta rule refers to something. -/
theorem tally_no_rules [DecidableEq F] (G : Grammar F) (w : Weight F) (hne : ∀ s, [] ∉ refsNamed G s) :
    ∀ m ss pat, ss ≠ [] → tally G w m ss pat [] = 0
  | _, [], _, h => absurd rfl h
  | 0, s :: ss, pat, _ => by rw [tally, tallyStep, sum_map_const, Nat.mul_zero]
  | m + 1, s :: ss, pat, _ => by
    rw [tally, tallyStep]
    rw [List.map_congr_left (g := fun _ => 0), sum_map_const, Nat.mul_zero]
    intro refs hr
    refine tally_no_rules G w hne m _ pat ?_
    intro e
    rw [(List.append_eq_nil_iff.1 e).1] at hr
    exact hne s hr

theorem WfGrammar.refs_ne {G : Grammar F} (wf : WfGrammar G) (s : Str) : [] ∉ refsNamed G s := by
  intro h
  obtain ⟨sec, h1, _, l, h2, h3⟩ := mem_refsNamed.1 h
  exact wf.nonempty sec h1 l h2 (List.map_eq_nil_iff.1 h3)

/-- A bound on the number of rules of a section bounds the repetitions. -/
theorem times_le_pow [DecidableEq F] {G : Grammar F} (hne : ∀ s, [] ∉ refsNamed G s) (K : Nat)
    (hK : ∀ s, (linesNamed G s).length ≤ K) (hK1 : 1 ≤ K) : ∀ m ss rs,
    tally G listWeight m ss (inputs rs) rs ≤ K ^ (rs.length - 1) * tally G (fun _ _ _ => 1) m ss (inputs rs) rs := by
  have step : ∀ e e' : List Str → List InType → List (Rule F) → Nat,
      (∀ ss rs, e ss (inputs rs) rs ≤ K ^ (rs.length - 1) * e' ss (inputs rs) rs) →
      (∀ ss pat, ss ≠ [] → tallyStep G listWeight e ss pat [] = 0) →
      ∀ ss rs, tallyStep G listWeight e ss (inputs rs) rs ≤
        K ^ (rs.length - 1) * tallyStep G (fun _ _ _ => 1) e' ss (inputs rs) rs := by
    intro e e' he hz ss
    induction ss with
    | nil => intro rs; cases rs <;> simp [tallyStep]
    | cons s ss ih =>
      intro rs
      cases rs with
      | nil =>
        rw [tallyStep, tallyStep]
        rw [← sum_map_mul]
        exact sum_map_le (fun refs _ => he _ _)
      | cons r rs =>
        rw [tallyStep, tallyStep, Nat.mul_add, ← sum_map_mul]
        refine Nat.add_le_add (sum_map_le (fun refs _ => he _ _)) ?_
        have hd : (inputs (r :: rs)).drop r.inClass.length = inputs rs := by simp [inputs]
        rw [hd, Nat.mul_one, List.length_cons, Nat.add_sub_cancel]
        by_cases hss : ss = []
        · subst hss
          simp only [listWeight, ↓reduceIte, Nat.mul_one]
          have h1 : tallyStep G listWeight e [] (inputs rs) rs =
              tallyStep G (fun _ _ _ => 1) e' [] (inputs rs) rs := by
            cases rs <;> rfl
          rw [h1]
          exact Nat.le_mul_of_pos_left _ (Nat.pow_pos hK1)
        · cases rs with
          | nil => rw [hz ss _ hss]; simp
          | cons r' rs' =>
            have h1 := ih (r' :: rs')
            have h2 : listWeight (linesNamed G s) ss (inputs (r :: r' :: rs')) ≤ K := by
              simp only [listWeight, hss, ↓reduceIte]
              exact Nat.le_trans (List.length_filter_le _ _) (hK s)
            rw [List.length_cons, Nat.add_sub_cancel] at h1
            rw [List.length_cons, Nat.pow_succ]
            calc _ ≤ (linesNamed G s).count r * K * (K ^ rs'.length *
                  tallyStep G (fun _ _ _ => 1) e' ss (inputs (r' :: rs')) (r' :: rs')) :=
                  Nat.mul_le_mul (Nat.mul_le_mul_left _ h2) h1
              _ = _ := by simp only [Nat.mul_comm, Nat.mul_left_comm, Nat.mul_assoc]
  intro m
  induction m with
  | zero => exact step _ _ (fun _ _ => Nat.zero_le _) (fun ss pat h => tally_no_rules G listWeight hne 0 ss pat h)
  | succ m ih => exact step _ _ ih (fun ss pat h => tally_no_rules G listWeight hne (m + 1) ss pat h)

/-- There is a derivation iff the number of derivations is not zero. -/
theorem tally_pos [DecidableEq F] (G : Grammar F) : ∀ m ss pat rs,
    0 < tally G (fun _ _ _ => 1) m ss pat rs ↔ ∃ k, k ≤ m ∧ Derives G ss rs k := by
  have sum_pos : ∀ {α : Type} (g : α → Nat) (l : List α), 0 < (l.map g).sum ↔ ∃ x ∈ l, 0 < g x := by
    intro α g l
    induction l with
    | nil => simp
    | cons x l ih => rw [List.map_cons, List.sum_cons, Nat.add_pos_iff_pos_or_pos, ih]; simp
  have step : ∀ (e : List Str → List InType → List (Rule F) → Nat) (P : List Str → List (Rule F) → Prop)
      (m : Nat), (∀ ss pat rs, 0 < e ss pat rs ↔ P ss rs) →
      (∀ ss rs, P ss rs ↔ ∃ k, k + 1 ≤ m ∧ Derives G ss rs k) →
      ∀ ss pat rs, 0 < tallyStep G (fun _ _ _ => 1) e ss pat rs ↔ ∃ k, k ≤ m ∧ Derives G ss rs k := by
    intro e P m he hP ss
    have hmeta : ∀ s ss pat rs, 0 < ((refsNamed G s).map (fun refs => e (refs ++ ss) pat rs)).sum ↔
        ∃ sec ∈ G.metas, sec.name = s ∧ ∃ l ∈ sec.rules, ∃ k, k + 1 ≤ m ∧ Derives G (l.map (·.name) ++ ss) rs k := by
      intro s ss pat rs
      rw [sum_pos]
      constructor
      · rintro ⟨refs, hr, hpos⟩
        obtain ⟨sec, h1, h2, l, h3, rfl⟩ := mem_refsNamed.1 hr
        exact ⟨sec, h1, h2, l, h3, (hP _ _).1 ((he _ _ _).1 hpos)⟩
      · rintro ⟨sec, h1, h2, l, h3, hk⟩
        exact ⟨_, mem_refsNamed.2 ⟨sec, h1, h2, l, h3, rfl⟩, (he _ _ _).2 ((hP _ _).2 hk)⟩
    induction ss with
    | nil =>
      intro pat rs
      cases rs with
      | nil => simp only [tallyStep]; exact ⟨fun _ => ⟨0, Nat.zero_le _, .done⟩, fun _ => Nat.one_pos⟩
      | cons r rs =>
        simp only [tallyStep]
        exact ⟨fun h => absurd h (Nat.lt_irrefl _), fun ⟨k, _, h⟩ => by cases h⟩
    | cons s ss ih =>
      intro pat rs
      cases rs with
      | nil =>
        rw [tallyStep, hmeta]
        constructor
        · rintro ⟨sec, h1, h2, l, h3, k, hk, hd⟩
          exact ⟨k + 1, hk, .expand h1 h2 h3 hd⟩
        · rintro ⟨k, hk, hd⟩
          cases hd with
          | expand h1 h2 h3 hd => exact ⟨_, h1, h2, _, h3, _, hk, hd⟩
      | cons r rs =>
        have hmul : ∀ a b : Nat, 0 < a * b ↔ 0 < a ∧ 0 < b := by
          intro a b
          simp [Nat.pos_iff_ne_zero, Nat.mul_eq_zero]
        rw [tallyStep, Nat.add_pos_iff_pos_or_pos, hmeta, Nat.mul_one, hmul, ih, List.count_pos_iff, mem_linesNamed]
        constructor
        · rintro (⟨sec, h1, h2, l, h3, k, hk, hd⟩ | ⟨⟨sec, h1, h2, h3⟩, k, hk, hd⟩)
          · exact ⟨k + 1, hk, .expand h1 h2 h3 hd⟩
          · exact ⟨k, hk, .rule h1 h2 h3 hd⟩
        · rintro ⟨k, hk, hd⟩
          cases hd with
          | rule h1 h2 h3 hd => exact Or.inr ⟨⟨_, h1, h2, h3⟩, k, hk, hd⟩
          | expand h1 h2 h3 hd => exact Or.inl ⟨_, h1, h2, _, h3, _, hk, hd⟩
  intro m
  induction m with
  | zero =>
    exact step _ (fun _ _ => False) 0 (fun _ _ _ => by simp) (fun _ _ => by simp)
  | succ m ih =>
    exact step _ (fun ss rs => ∃ k, k ≤ m ∧ Derives G ss rs k) (m + 1) ih
      (fun ss rs => by simp only [Nat.succ_le_succ_iff])

/-- If every meta rule refers to one section, there is never a second section to come. -/
theorem tally_single [DecidableEq F] (G : Grammar F) (w w' : Weight F) (hw : ∀ rules pat, w rules [] pat = w' rules [] pat)
    (h1 : ∀ s, ∀ refs ∈ refsNamed G s, refs.length = 1) :
    ∀ m s pat rs, tally G w m [s] pat rs = tally G w' m [s] pat rs := by
  have step : ∀ e e' : List Str → List InType → List (Rule F) → Nat, (∀ s pat rs, e [s] pat rs = e' [s] pat rs) →
      ∀ s pat rs, tallyStep G w e [s] pat rs = tallyStep G w' e' [s] pat rs := by
    intro e e' he s pat rs
    have hm : ∀ rs, ((refsNamed G s).map (fun refs => e (refs ++ []) pat rs)).sum =
        ((refsNamed G s).map (fun refs => e' (refs ++ []) pat rs)).sum := by
      intro rs
      refine congrArg List.sum (List.map_congr_left fun refs hr => ?_)
      obtain ⟨x, rfl⟩ := List.length_eq_one_iff.1 (h1 s refs hr)
      exact he x pat rs
    cases rs with
    | nil => rw [tallyStep, tallyStep, hm]
    | cons r rs =>
      rw [tallyStep, tallyStep, hm, hw]
      congr 2
      cases rs <;> rfl
  intro m
  induction m with
  | zero => exact step _ _ (fun _ _ _ => rfl)
  | succ m ih => exact step _ _ ih

end AS
