import Verif.Lemmas.Improve
import Verif.Props.Inline
import Verif.Props.Whole
/-
Property C94: rules that are added, or scored higher, change only what they take part in.
-/
namespace AS.Props
open AS AS.Wrapper
variable {F D : Type} {fo : FloatOps F} {New : Rule F → Prop}

/-! ### One phrase -/

theorem best_none {G : Grammar F} (wf : WfGrammar G) (hb : Balanced G) (laws : LtLaws fo) (phrase : List Token)
    {p : SearchPath F} {l : List (SearchPath F)} (hs : search G c!"ADDRESS" phrase = .ok (p :: l))
    (h : ∀ q ∈ p :: l, fo.lt fo.zero (average fo q.rules) = false) :
    searchAndReclassBest G fo phrase =
      .ok ⟨reclassed phrase p, fo.zero, some (patternText (reclassed phrase p)), fo.ofInt (-1)⟩ := by
  obtain ⟨h1, h2, _⟩ := search_balanced wf hb _ phrase _ hs p List.mem_cons_self
  have hr : reclassTokens phrase p = some (true, reclassed phrase p) := reclassTokens_ok phrase p h1 h2
  have hst := bestLoop_eq fo (p :: l) 0 (fo.zero, none)
  have hinit : bestOf fo (fo.zero, none) = ⟨0, fo.zero, fo.ofInt (-1)⟩ := rfl
  rw [hinit, pickLoop_none laws (avgScore fo) (p :: l) 0 fo.zero none
    (fun q hq => by rw [avgScore_eq]; exact h q hq), hinit] at hst
  unfold searchAndReclassBest
  simp only [hs, List.length_cons, Nat.add_one_ne_zero, ↓reduceIte, hst, List.getElem?_cons_zero, hr, searchToString_eq]

theorem best_some {nan : F → Prop} {G : Grammar F} (wf : WfGrammar G) (hb : Balanced G) (laws : NanLaws fo nan)
    (phrase : List Token) {p : SearchPath F} {u v : List (SearchPath F)}
    (hs : search G c!"ADDRESS" phrase = .ok (u ++ p :: v)) (h0 : fo.lt fo.zero (average fo p.rules) = true)
    (hu : ∀ q ∈ u, nan (average fo q.rules) ∨ fo.lt (average fo q.rules) (average fo p.rules) = true)
    (hv : ∀ q ∈ v, fo.lt (average fo p.rules) (average fo q.rules) = false) :
    searchAndReclassBest G fo phrase = .ok ⟨reclassed phrase p, average fo p.rules,
      some (patternText (reclassed phrase p)), fo.ofInt p.rules.length⟩ := by
  obtain ⟨h1, h2, _⟩ := search_balanced wf hb _ phrase _ hs p (by simp)
  have hr : reclassTokens phrase p = some (true, reclassed phrase p) := reclassTokens_ok phrase p h1 h2
  have hst := bestLoop_eq fo (u ++ p :: v) 0 (fo.zero, none)
  have hinit : bestOf fo (fo.zero, none) = ⟨0, fo.zero, fo.ofInt (-1)⟩ := rfl
  rw [hinit, pickLoop_select laws (avgScore fo) u 0 fo.zero none (by rw [avgScore_eq]; exact h0)
    (fun q hq => by rw [avgScore_eq, avgScore_eq]; exact hu q hq)
    (fun q hq => by rw [avgScore_eq, avgScore_eq]; exact hv q hq)] at hst
  simp only [bestOf, Nat.zero_add] at hst
  unfold searchAndReclassBest
  have hlen : (u ++ p :: v).length ≠ 0 := by simp
  have hget : (u ++ p :: v)[u.length]? = some p := by simp
  simp only [hs, hlen, ↓reduceIte, hst, hget, hr, searchToString_eq, avgScore_eq]

/-- The two ways a result is chosen. -/
theorem best_cases {nan : F → Prop} {G : Grammar F} (wf : WfGrammar G) (hb : Balanced G) (laws : NanLaws fo nan)
    (phrase : List Token) {l : List (SearchPath F)} (hs : search G c!"ADDRESS" phrase = .ok l) (hne : l ≠ []) :
    (∃ p v, l = p :: v ∧ (∀ q ∈ l, fo.lt fo.zero (average fo q.rules) = false) ∧ searchAndReclassBest G fo phrase =
      .ok ⟨reclassed phrase p, fo.zero, some (patternText (reclassed phrase p)), fo.ofInt (-1)⟩) ∨
    ∃ u p v, l = u ++ p :: v ∧ fo.lt fo.zero (average fo p.rules) = true ∧
      (∀ q ∈ u, nan (average fo q.rules) ∨ fo.lt (average fo q.rules) (average fo p.rules) = true) ∧
      (∀ q ∈ l, fo.lt (average fo p.rules) (average fo q.rules) = false) ∧
      searchAndReclassBest G fo phrase = .ok ⟨reclassed phrase p, average fo p.rules,
        some (patternText (reclassed phrase p)), fo.ofInt p.rules.length⟩ := by
  rcases pickLoop_first laws (fun q : SearchPath F => average fo q.rules) l 0 fo.zero none with ⟨_, h⟩ | ⟨u, p, v, e, _, h1, h2, h3⟩
  · left
    obtain ⟨p, v, rfl⟩ := List.exists_cons_of_ne_nil hne
    exact ⟨p, v, rfl, h, best_none wf hb laws.toLtLaws phrase hs h⟩
  · right
    refine ⟨u, p, v, e, h1, h2, h3, ?_⟩
    subst e
    exact best_some wf hb laws phrase hs h1 h2 (fun q hq => h3 q (by simp [hq]))

/-- The reported result is that of the path `p`. -/
def Reports (fo : FloatOps F) (phrase : List Token) (p : SearchPath F) (r : BestResult F) : Prop :=
  r.tokens = reclassed phrase p ∧ r.matched = some (patternText (reclassed phrase p)) ∧
  (fo.lt fo.zero r.score = true → r.score = average fo p.rules ∧ r.nrules = fo.ofInt p.rules.length)

theorem positive_path {G : Grammar F} (wf : WfGrammar G) (hpos : ScoresCount fo G) (node : Str) (phrase : List Token)
    {l : List (SearchPath F)} (hs : search G node phrase = .ok l) : ∀ q ∈ l, q.rules ≠ [] ∧ ∀ r ∈ q.rules, fo.le0 r.score = false := by
  intro q hq
  obtain ⟨ps, hps, _⟩ := Token.enumerate_picks phrase
  rcases search_spec wf node phrase ps hps with ⟨res, h', _, hmem⟩ | ⟨h', _⟩
  · rw [hs] at h'
    cases h'
    obtain ⟨rs, m, hd, _, _, rfl⟩ := (hmem q).1 hq
    refine ⟨derives_nonempty wf hd (by simp), ?_⟩
    intro r hr
    obtain ⟨sec, h1, h2⟩ := AS.derives_rules hd r hr
    exact hpos (sec.name, sec.rules) (List.mem_map.2 ⟨sec, h1, rfl⟩) r h2
  · rw [hs] at h'; cases h'

/-- What is chosen for one phrase when what is found for it, `l'`, is that of another search, `l`, with further results, or
with better ones: the score is not lower, and the result is the same or that of a path that is not kept. -/
theorem one_choice {nan : F → Prop} (nl : NanLaws fo nan) (hm1 : fo.lt (fo.ofInt (-1)) fo.zero = true) {G H : Grammar F}
    (wfG : WfGrammar G) (wfH : WfGrammar H) (hbG : Balanced G) (hbH : Balanced H) {K : SearchPath F → Prop}
    {phrase phrase' : List Token} {l l' : List (SearchPath F)} (hl : search G c!"ADDRESS" phrase = .ok l)
    (hl' : search H c!"ADDRESS" phrase' = .ok l')
    (hup : ∀ q ∈ l, ∃ q' ∈ l', nan (average fo q.rules) ∨ AtMost fo (average fo q.rules) (average fo q'.rules))
    (hkeep : ∀ u' p' v', l' = u' ++ p' :: v' → K p' → ∃ a b, l = a ++ p' :: b ∧
      ∀ q ∈ a, ∃ q' ∈ u', nan (average fo q.rules) ∨ AtMost fo (average fo q.rules) (average fo q'.rules))
    (hre : ∀ p ∈ l', K p → reclassed phrase p = reclassed phrase' p) :
    ∃ r r', searchAndReclassBest G fo phrase = .ok r ∧ searchAndReclassBest H fo phrase' = .ok r' ∧
      fo.lt r'.score r.score = false ∧ (¬ nan r.score ∧ ¬ nan r'.score) ∧
      ((r = r' ∧ (r'.tokens = [] ∨ ∃ p ∈ l', K p ∧ Reports fo phrase' p r')) ∨ ∃ p ∈ l', ¬ K p ∧ Reports fo phrase' p r') := by
  have lt := nl.toLtLaws
  have hz : ¬ nan fo.zero := fun hn => by rw [nl.right _ _ hn] at hm1; cases hm1
  have hm : ¬ nan (fo.ofInt (-1)) := fun hn => by rw [nl.left _ _ hn] at hm1; cases hm1
  have hempty : ∀ {A : Grammar F} {ph : List Token}, search A c!"ADDRESS" ph = .ok [] → searchAndReclassBest A fo ph =
      .ok { tokens := [], score := fo.ofInt (-1), matched := none, nrules := fo.ofInt (-1) } := by
    intro A ph hA
    unfold searchAndReclassBest
    simp [hA]
  by_cases hne' : l' = []
  · have hne : l = [] := by
      cases l with
      | nil => rfl
      | cons q l =>
        obtain ⟨q', hq', _⟩ := hup q List.mem_cons_self
        rw [hne'] at hq'; cases hq'
    subst hne hne'
    exact ⟨_, _, hempty hl, hempty hl', lt.irrefl _, ⟨hm, hm⟩, Or.inl ⟨rfl, Or.inl rfl⟩⟩
  · have hl0 : ∀ x, fo.lt fo.zero x = true → fo.lt x (fo.ofInt (-1)) = false := by
      intro x hx
      cases hc : fo.lt x (fo.ofInt (-1)) with
      | false => rfl
      | true =>
        have := lt.trans _ _ _ (lt.trans _ _ _ hm1 hx) hc
        rw [lt.irrefl] at this; cases this
    have hz1 : fo.lt fo.zero (fo.ofInt (-1)) = false := by
      cases hc : fo.lt fo.zero (fo.ofInt (-1)) with
      | false => rfl
      | true =>
        have := lt.trans _ _ _ hm1 hc
        rw [lt.irrefl] at this; cases this
    have hgt : ∀ x, fo.lt fo.zero x = true → ¬ nan x := fun x hx hn => by rw [nl.right _ _ hn] at hx; cases hx
    rcases best_cases wfH hbH nl phrase' hl' hne' with ⟨p', v', e', hall', hbest'⟩ | ⟨u', p', v', e', hpos', hu', hv', hbest'⟩
    · have hall : ∀ q ∈ l, fo.lt fo.zero (average fo q.rules) = false := by
        intro q hq
        obtain ⟨q', hq', u⟩ := hup q hq
        exact AtMost.not_lt nl u (hall' q' hq')
      have hrep : Reports fo phrase' p' ⟨reclassed phrase' p', fo.zero, some (patternText (reclassed phrase' p')), fo.ofInt (-1)⟩ :=
        ⟨rfl, rfl, fun h => by rw [lt.irrefl] at h; cases h⟩
      have hp' : p' ∈ l' := by rw [e']; simp
      by_cases hne : l = []
      · subst hne
        refine ⟨_, _, hempty hl, hbest', hz1, ⟨hm, hz⟩, Or.inr ⟨p', hp', ?_, hrep⟩⟩
        intro hk
        obtain ⟨a, b, k1, _⟩ := hkeep [] p' v' e' hk
        have := congrArg List.length k1
        simp at this
      · obtain ⟨p, v, rfl⟩ := List.exists_cons_of_ne_nil hne
        have hbest := best_none wfG hbG lt phrase hl hall
        refine ⟨_, _, hbest, hbest', lt.irrefl _, ⟨hz, hz⟩, ?_⟩
        by_cases hk : K p'
        · left
          obtain ⟨a, b, k1, k2⟩ := hkeep [] p' v' e' hk
          cases a with
          | nil =>
            simp only [List.nil_append, List.cons.injEq] at k1
            rw [k1.1, hre p' hp' hk]
            exact ⟨rfl, Or.inr ⟨p', hp', hk, hrep⟩⟩
          | cons q a =>
            obtain ⟨q', hq', _⟩ := k2 q List.mem_cons_self
            cases hq'
        · exact Or.inr ⟨p', hp', hk, hrep⟩
    · have hp' : p' ∈ l' := by rw [e']; simp
      have hrep : Reports fo phrase' p' ⟨reclassed phrase' p', average fo p'.rules,
          some (patternText (reclassed phrase' p')), fo.ofInt p'.rules.length⟩ := ⟨rfl, rfl, fun _ => ⟨rfl, rfl⟩⟩
      by_cases hk : K p'
      · obtain ⟨a, b, k1, k2⟩ := hkeep u' p' v' e' hk
        have hsel := best_some (p := p') (u := a) (v := b) wfG hbG nl phrase (by rw [hl, k1]) hpos'
          (by
            intro q hq
            obtain ⟨q', hq', u⟩ := k2 q hq
            exact AtMost.lt nl u (hu' q' hq'))
          (by
            intro q hq
            have hql : q ∈ l := by rw [k1]; simp [hq]
            obtain ⟨q', hq', u⟩ := hup q hql
            exact AtMost.not_lt nl u (hv' q' hq'))
        rw [hre p' hp' hk] at hsel
        exact ⟨_, _, hsel, hbest', lt.irrefl _, ⟨hgt _ hpos', hgt _ hpos'⟩, Or.inl ⟨rfl, Or.inr ⟨p', hp', hk, hrep⟩⟩⟩
      · have hright := (⟨p', hp', hk, hrep⟩ : ∃ p ∈ l', ¬ K p ∧ Reports fo phrase' p _)
        by_cases hne : l = []
        · subst hne
          exact ⟨_, _, hempty hl, hbest', hl0 _ hpos', ⟨hm, hgt _ hpos'⟩, Or.inr hright⟩
        · rcases best_cases wfG hbG nl phrase hl hne with ⟨p, v, e, _, hbest⟩ | ⟨u, p, v, e, hposp, _, _, hbest⟩
          · refine ⟨_, _, hbest, hbest', ?_, ⟨hz, hgt _ hpos'⟩, Or.inr hright⟩
            cases hc : fo.lt (average fo p'.rules) fo.zero with
            | false => rfl
            | true =>
              have := lt.trans _ _ _ hpos' hc
              rw [lt.irrefl] at this; cases this
          · refine ⟨_, _, hbest, hbest', ?_, ⟨hgt _ hposp, hgt _ hpos'⟩, Or.inr hright⟩
            obtain ⟨q', hq', w⟩ := hup p (by rw [e]; simp)
            exact AtMost.not_lt nl w (hv' q' hq')

/-- What is chosen among several phrases when the scores of all are not lower than those of others. -/
theorem all_choice {α : Type} {nan : F → Prop} (nl : NanLaws fo nan) {G H : Grammar F} {phrases phrases' : List (List Token)}
    {zs : List (α × BestResult F × BestResult F)}
    (e2 : phrases.map (searchAndReclassBest G fo) = (zs.map (·.2.1)).map .ok)
    (e3 : phrases'.map (searchAndReclassBest H fo) = (zs.map (·.2.2)).map .ok)
    (hzs : ∀ z ∈ zs, fo.lt z.2.2.score z.2.1.score = false ∧ (¬ nan z.2.1.score ∧ ¬ nan z.2.2.score)) :
    ∃ r r', searchAndReclassBestOf G fo phrases = .ok r ∧ searchAndReclassBestOf H fo phrases' = .ok r' ∧
      fo.lt r'.score r.score = false ∧ ((r = r' ∧ r'.tokens = []) ∨
        ∃ z ∈ zs, r' = { z.2.2 with matched := some (z.2.2.matched.getD []) } ∧ (z.2.1 = z.2.2 → r = r')) := by
  have lt := nl.toLtLaws
  have init : phraseOf ⟨[], fo.ofInt (-1), some [], fo.ofInt (-1)⟩ (none : Option (Nat × BestResult F)) =
      ⟨[], fo.ofInt (-1), some [], fo.ofInt (-1)⟩ := rfl
  have hG := bestPhrases_eq (G := G) (fo := fo) ⟨[], fo.ofInt (-1), some [], fo.ofInt (-1)⟩ phrases _ 0
    (fo.ofInt (-1), none) e2 rfl
  have hH := bestPhrases_eq (G := H) (fo := fo) ⟨[], fo.ofInt (-1), some [], fo.ofInt (-1)⟩ phrases' _ 0
    (fo.ofInt (-1), none) e3 rfl
  rw [init] at hG hH
  refine ⟨_, _, hG, hH, ?_⟩
  rcases pickLoop_first nl (fun b : BestResult F => b.score) (zs.map (·.2.2)) 0 (fo.ofInt (-1)) none with
    ⟨p1, p2⟩ | ⟨u, x, v, p0, p1, p2, p3, p4⟩
  · have q : pickLoop fo (fun b : BestResult F => b.score) 0 (fo.ofInt (-1), none) (zs.map (·.2.1)) = (fo.ofInt (-1), none) := by
      refine pickLoop_none lt _ _ _ _ _ ?_
      intro b hb
      obtain ⟨z, hz, rfl⟩ := List.mem_map.1 hb
      obtain ⟨c1, c2⟩ := hzs z hz
      have c3 := p2 z.2.2 (List.mem_map.2 ⟨z, hz, rfl⟩)
      cases hc : fo.lt (fo.ofInt (-1)) z.2.1.score with
      | false => rfl
      | true =>
        rcases nl.total _ z.2.2.score _ c2.2 hc with h | h
        · rw [c3] at h; cases h
        · rw [c1] at h; cases h
    rw [p1, q]
    exact ⟨lt.irrefl _, Or.inl ⟨rfl, rfl⟩⟩
  · obtain ⟨zu, zxv, z1, z2, z3⟩ := List.map_eq_append_iff.1 p0
    obtain ⟨z, zv, z4, z5, z6⟩ := List.map_eq_cons_iff.1 z3
    subst z5
    have hz : z ∈ zs := by rw [z1, z4]; simp
    obtain ⟨c1, c2⟩ := hzs z hz
    have hbelow : ∀ y ∈ zs, ∀ s, fo.lt s y.2.2.score = false → fo.lt s y.2.1.score = false := by
      intro y hy s hs
      obtain ⟨d1, d2⟩ := hzs y hy
      cases hc : fo.lt s y.2.1.score with
      | false => rfl
      | true =>
        rcases nl.total _ y.2.2.score _ d2.2 hc with h | h
        · rw [hs] at h; cases h
        · rw [d1] at h; cases h
    rw [p1]
    refine ⟨?_, Or.inr ⟨z, hz, rfl, fun c3 => ?_⟩⟩
    · rcases pickLoop_first nl (fun b : BestResult F => b.score) (zs.map (·.2.1)) 0 (fo.ofInt (-1)) none with
        ⟨j1, _⟩ | ⟨u', x', v', j0, j1, _, _, _⟩
      · rw [j1]
        simp only [phraseOf]
        cases hc : fo.lt z.2.2.score (fo.ofInt (-1)) with
        | false => rfl
        | true =>
          have := lt.trans _ _ _ p2 hc
          rw [lt.irrefl] at this; cases this
      · rw [j1]
        have hx : x' ∈ zs.map (·.2.1) := by rw [j0]; simp
        obtain ⟨y, hy, rfl⟩ := List.mem_map.1 hx
        simp only [phraseOf]
        exact hbelow y hy _ (p4 y.2.2 (List.mem_map.2 ⟨y, hy, rfl⟩))
    · have hsel := pickLoop_select nl (fun b : BestResult F => b.score) (x := z.2.1) (v := zv.map (·.2.1)) (zu.map (·.2.1)) 0
        (fo.ofInt (-1)) none (by rw [c3]; exact p2)
        (by
          intro y hy
          obtain ⟨w, hw, rfl⟩ := List.mem_map.1 hy
          have hwz : w ∈ zs := by rw [z1]; simp [hw]
          obtain ⟨d1, d2⟩ := hzs w hwz
          right
          rw [c3]
          rcases p3 w.2.2 (by rw [← z2]; exact List.mem_map.2 ⟨w, hw, rfl⟩) with h | h
          · exact absurd h d2.2
          · rcases nl.total _ w.2.1.score _ d2.1 h with h | h
            · rw [d1] at h; cases h
            · exact h)
        (by
          intro y hy
          obtain ⟨w, hw, rfl⟩ := List.mem_map.1 hy
          have hwz : w ∈ zs := by rw [z1, z4]; simp [hw]
          rw [c3]
          exact hbelow w hwz _ (p4 w.2.2 (List.mem_map.2 ⟨w, hwz, rfl⟩)))
      have hlist : zs.map (·.2.1) = zu.map (·.2.1) ++ z.2.1 :: zv.map (·.2.1) := by rw [z1, z4]; simp
      rw [hlist, hsel]
      simp only [phraseOf]
      rw [c3]

theorem Reports.fixed {phrase : List Token} {p : SearchPath F} {r : BestResult F} (h : Reports fo phrase p r) :
    ({ r with matched := some (r.matched.getD []) } : BestResult F) = r := by
  cases r with
  | mk t s m n =>
    cases m with
    | none => exact absurd h.2.1 (by simp)
    | some m => rfl

/-- One phrase: the score is not lower, and the result is the same or that of a path with a new rule. -/
theorem one_phrase {nan : F → Prop} (laws : MonoLaws fo nan) (hm1 : fo.lt (fo.ofInt (-1)) fo.zero = true) {G H : Grammar F}
    (wfG : WfGrammar G) (wfH : WfGrammar H) (hbG : Balanced G) (hbH : Balanced H) (hrG : HasRoot G) (hrH : HasRoot H)
    (hpos : ScoresCount fo G) (hi : ImprovedIn fo New G H) (phrase : List Token) :
    ∃ r r', searchAndReclassBest G fo phrase = .ok r ∧ searchAndReclassBest H fo phrase = .ok r' ∧
      fo.lt r'.score r.score = false ∧ (¬ nan r.score ∧ ¬ nan r'.score) ∧
      (r = r' ∨ ∃ results' p, search H c!"ADDRESS" phrase = .ok results' ∧ p ∈ results' ∧ (∃ x ∈ p.rules, New x) ∧
        Reports fo phrase p r') := by
  obtain ⟨l, hl⟩ := search_root wfG hrG phrase
  obtain ⟨l', hl'⟩ := search_root wfH hrH phrase
  have hR := search_ranked wfG wfH hi c!"ADDRESS" phrase hl hl'
  have hp := positive_path wfG hpos c!"ADDRESS" phrase hl
  have up : ∀ q ∈ l, ∀ q', PathUp fo New q q' → nan (average fo q.rules) ∨ AtMost fo (average fo q.rules) (average fo q'.rules) :=
    fun q hq q' u => average_up laws u.2.2 (hp q hq).1 (hp q hq).2
  obtain ⟨r, r', h1, h2, h3, h4, h5⟩ := one_choice (K := Keep New) laws.toNanLaws hm1 wfG wfH hbG hbH hl hl'
    (fun q hq => by
      obtain ⟨q', hq', u⟩ := hR.1 q hq
      exact ⟨q', hq', up q hq q' u⟩)
    (fun u' p' v' e' hk => by
      obtain ⟨a, b, k1, k2⟩ := hR.2 u' p' v' e' hk
      refine ⟨a, b, k1, fun q hq => ?_⟩
      obtain ⟨q', hq', u⟩ := k2 q hq
      exact ⟨q', hq', up q (by rw [k1]; simp [hq]) q' u⟩)
    (fun _ _ _ => rfl)
  refine ⟨r, r', h1, h2, h3, h4, ?_⟩
  rcases h5 with ⟨h5, _⟩ | ⟨p, hp, hk, hrep⟩
  · exact Or.inl h5
  · refine Or.inr ⟨l', p, hl', hp, ?_, hrep⟩
    apply Classical.byContradiction
    intro hno
    exact hk (fun x hx hn => hno ⟨x, hx, hn⟩)

/-! ### C94 -/

/-- Whatever the alternatives of an address: the best match in the improved grammar is the one found before,
in every respect, or it is a match with a new rule, and its score is not lower. -/
theorem C94_same_or_new {nan : F → Prop} (laws : MonoLaws fo nan) (hm1 : fo.lt (fo.ofInt (-1)) fo.zero = true) {G H : Grammar F}
    (wfG : WfGrammar G) (wfH : WfGrammar H) (hbG : Balanced G) (hbH : Balanced H) (hrG : HasRoot G) (hrH : HasRoot H)
    (hpos : ScoresCount fo G) (hi : ImprovedIn fo New G H) (phrases : List (List Token)) :
    ∃ r r', searchAndReclassBestOf G fo phrases = .ok r ∧ searchAndReclassBestOf H fo phrases = .ok r' ∧
      fo.lt r'.score r.score = false ∧
      (r = r' ∨ ∃ phrase ∈ phrases, ∃ results' p, search H c!"ADDRESS" phrase = .ok results' ∧ p ∈ results' ∧
        (∃ x ∈ p.rules, New x) ∧ Reports fo phrase p r') := by
  have all : ∃ zs : List (List Token × BestResult F × BestResult F), phrases = zs.map (·.1) ∧
      phrases.map (searchAndReclassBest G fo) = (zs.map (·.2.1)).map .ok ∧
      phrases.map (searchAndReclassBest H fo) = (zs.map (·.2.2)).map .ok ∧
      ∀ z ∈ zs, fo.lt z.2.2.score z.2.1.score = false ∧ (¬ nan z.2.1.score ∧ ¬ nan z.2.2.score) ∧
        (z.2.1 = z.2.2 ∨ ∃ results' p, search H c!"ADDRESS" z.1 = .ok results' ∧ p ∈ results' ∧ (∃ x ∈ p.rules, New x) ∧
          Reports fo z.1 p z.2.2) := by
    induction phrases with
    | nil => exact ⟨[], rfl, rfl, rfl, by simp⟩
    | cons phrase ps ih =>
      obtain ⟨zs, h1, h2, h3, h4⟩ := ih
      obtain ⟨r, r', k1, k2, k3, k4, k5⟩ := one_phrase laws hm1 wfG wfH hbG hbH hrG hrH hpos hi phrase
      refine ⟨(phrase, r, r') :: zs, by rw [h1]; rfl, by rw [List.map_cons, h2, k1]; rfl, by rw [List.map_cons, h3, k2]; rfl, ?_⟩
      intro z hz
      rcases List.mem_cons.1 hz with rfl | hz
      · exact ⟨k3, k4, k5⟩
      · exact h4 z hz
  obtain ⟨zs, e1, e2, e3, hzs⟩ := all
  obtain ⟨r, r', h1, h2, h3, h4⟩ := all_choice laws.toNanLaws e2 e3 (fun z hz => ⟨(hzs z hz).1, (hzs z hz).2.1⟩)
  refine ⟨r, r', h1, h2, h3, ?_⟩
  rcases h4 with ⟨h4, _⟩ | ⟨z, hz, h5, h6⟩
  · exact Or.inl h4
  · rcases (hzs z hz).2.2 with h | ⟨results', p, c4, c5, c6, c7⟩
    · exact Or.inl (h6 h)
    · refine Or.inr ⟨z.1, by rw [e1]; exact List.mem_map.2 ⟨z, hz, rfl⟩, results', p, c4, c5, c6, ?_⟩
      rw [h5, c7.fixed]
      exact c7

/-- The scores of an accepted grammar. -/
theorem accepted_scores (ct : CharTables) (fo : FloatOps F) (h0 : fo.le0 fo.zero = true) (text : Str) (g : Grammar F)
    (h : Grammar.initialize ct fo text = .ok g) : ScoresCount fo g := by
  intro s hs r hr
  obtain ⟨_, _, _, hl⟩ := C29_constructed_closed ct fo h0 text g h
  obtain ⟨line, ins, outs, before, score, rest, _, _, h2, rfl⟩ := hl s hs r hr
  exact h2

/-- Lines with rules that are added to a grammar text, or whose score is raised, improve the grammar. -/
theorem C94_lines (ct : CharTables) (fo : FloatOps F) (h0 : fo.le0 fo.zero = true) (ls ls' : List Str)
    (hi : ImprovedLines ct fo New ls ls') (hn : ∀ l ∈ ls, '\n' ∉ l) (hn' : ∀ l ∈ ls', '\n' ∉ l)
    (hb : NoBom (unlines ls)) (hb' : NoBom (unlines ls')) (g g' : Grammar F)
    (hg : Grammar.initialize ct fo (unlines ls) = .ok g) (hg' : Grammar.initialize ct fo (unlines ls') = .ok g') :
    ImprovedIn fo New g g' := by
  obtain ⟨⟨gs, g1, _, g3⟩, _, _⟩ := (C32_text_meaning ct fo h0 _ hn hb _ _).1 ⟨g, hg, rfl, rfl⟩
  obtain ⟨⟨gs', g1', _, g3'⟩, _, _⟩ := (C32_text_meaning ct fo h0 _ hn' hb' _ _).1 ⟨g', hg', rfl, rfl⟩
  rw [groups_iff] at g1 g1'
  have hu := (groupLines_up hi).2
  rw [g1, g1'] at hu
  obtain ⟨h1, h2, h3⟩ := sections_up h0 hu g3 g3'
  exact ⟨fun s => by rw [h1], h2, h3⟩

/-- An address standardized with the improved grammar text: the result is that of the text before, or it is
that of a derivation with a new rule. -/
theorem C94_address (env : Env F D) {nan : F → Prop} (laws : MonoLaws env.fo nan) (hm1 : env.fo.lt (env.fo.ofInt (-1)) env.fo.zero = true)
    (h0 : env.fo.le0 env.fo.zero = true) (ls ls' : List Str)
    (hi : ImprovedLines env.u.toCharTables env.fo New ls ls') (hn : ∀ l ∈ ls, '\n' ∉ l) (hn' : ∀ l ∈ ls', '\n' ∉ l)
    (hb : NoBom (unlines ls)) (hb' : NoBom (unlines ls')) (g g' : Grammar F)
    (hg : Grammar.initialize env.u.toCharTables env.fo (unlines ls) = .ok g)
    (hg' : Grammar.initialize env.u.toCharTables env.fo (unlines ls') = .ok g')
    (address lexicon locale filter : Str) :
    stdStandardize env address (unlines ls') lexicon locale filter = stdStandardize env address (unlines ls) lexicon locale filter ∨
    ∃ l phrases phrase rs m, loadLexicon env lexicon = .ok l ∧ phrasesOf env l locale filter address = .ok phrases ∧
      phrase ∈ phrases ∧ Derives g' [c!"ADDRESS"] rs m ∧ (∃ r ∈ rs, New r) ∧ Picks (inputs rs) (phrase.map (·.inclass)) ∧
      ∀ a err, stdStandardize env address (unlines ls') lexicon locale filter = some ⟨some a, err⟩ →
        a.pattern = some (patternText (retag phrase (inputs rs) (outputs rs))) := by
  obtain ⟨wf, hbal, hr⟩ := C29_constructed_wf _ env.fo h0 _ g hg
  obtain ⟨wf', hbal', hr'⟩ := C29_constructed_wf _ env.fo h0 _ g' hg'
  have hpos := accepted_scores _ env.fo h0 _ g hg
  have him := C94_lines _ env.fo h0 ls ls' hi hn hn' hb hb' g g' hg hg'
  have hlg : loadGrammar env (unlines ls) = .ok g := by unfold loadGrammar; rw [hg]
  have hlg' : loadGrammar env (unlines ls') = .ok g' := by unfold loadGrammar; rw [hg']
  unfold stdStandardize
  rw [hlg, hlg']
  simp only
  cases hlex : loadLexicon env lexicon with
  | undefined => exact Or.inl rfl
  | throws m => exact Or.inl rfl
  | ok l =>
    simp only
    cases hp : phrasesOf env l locale filter address with
    | undefined => left; unfold standardizeAddr standardizeAddrWith; rw [hp]
    | throws m => left; unfold standardizeAddr standardizeAddrWith; rw [hp]
    | ok phrases =>
      obtain ⟨b, b', k1, k2, _, k3⟩ := C94_same_or_new laws hm1 wf wf' hbal hbal' hr hr' hpos him phrases
      rcases k3 with rfl | ⟨phrase, hphr, results, p, hs, hpm, hnew, hrep⟩
      · left
        unfold standardizeAddr standardizeAddrWith
        simp only [hp, k1, k2]
      · right
        obtain ⟨ps, hps, hpick⟩ := Token.enumerate_picks phrase
        rcases search_spec wf' c!"ADDRESS" phrase ps hps with ⟨res, h', _, hmem⟩ | ⟨h', _⟩
        · rw [hs] at h'
          cases h'
          obtain ⟨rs, m, hd, _, hin, rfl⟩ := (hmem p).1 hpm
          refine ⟨l, phrases, phrase, rs, m, rfl, hp, hphr, hd, hnew, hpick _ hin, ?_⟩
          intro a err h
          unfold standardizeAddr standardizeAddrWith at h
          simp only [hp, k2] at h
          split at h
          · cases hc : collect l (List.replicate 16 []) b'.tokens with
            | none => rw [hc] at h; cases h
            | some v =>
              rw [hc] at h
              simp only at h
              split at h
              · simp only [Option.some.injEq, Ret.mk.injEq] at h
                obtain ⟨rfl, _⟩ := h
                simp only [fill, hrep.2.1, Option.getD_some, reclassed]
                exact congrArg some (Archive.cstr_free (patternText_noNul phrase (inputs rs) (outputs rs)))
              · simp at h
          · simp at h
        · rw [hs] at h'; cases h'

/-- Rules for classes that do not occur in an address, one after the other, change nothing for it. -/
theorem C94_untouched (env : Env F D) {nan : F → Prop} (laws : MonoLaws env.fo nan) (hm1 : env.fo.lt (env.fo.ofInt (-1)) env.fo.zero = true)
    (h0 : env.fo.le0 env.fo.zero = true) (ls ls' : List Str)
    (hi : ImprovedLines env.u.toCharTables env.fo New ls ls') (hn : ∀ l ∈ ls, '\n' ∉ l) (hn' : ∀ l ∈ ls', '\n' ∉ l)
    (hb : NoBom (unlines ls)) (hb' : NoBom (unlines ls')) (g g' : Grammar F)
    (hg : Grammar.initialize env.u.toCharTables env.fo (unlines ls) = .ok g)
    (hg' : Grammar.initialize env.u.toCharTables env.fo (unlines ls') = .ok g')
    (address lexicon locale filter : Str)
    (hno : ∀ l phrases, loadLexicon env lexicon = .ok l → phrasesOf env l locale filter address = .ok phrases →
      ∀ phrase ∈ phrases, ∀ cs, Picks cs (phrase.map (·.inclass)) → ∀ r, New r → ¬ r.inClass <:+: cs) :
    stdStandardize env address (unlines ls') lexicon locale filter = stdStandardize env address (unlines ls) lexicon locale filter := by
  rcases C94_address env laws hm1 h0 ls ls' hi hn hn' hb hb' g g' hg hg' address lexicon locale filter with h |
    ⟨l, phrases, phrase, rs, m, h1, h2, h3, _, ⟨r, hr, hnew⟩, h5, _⟩
  · exact h
  · exfalso
    refine hno l phrases h1 h2 phrase h3 _ h5 r hnew ?_
    obtain ⟨a, b, rfl⟩ := List.append_of_mem hr
    exact ⟨inputs a, inputs b, by simp [inputs]⟩

/-- The text of the example: a rule scored higher and a rule added. -/
def plainLines : List Str :=
  [c!"[ADDRESS]", c!"@A", c!"[A]", c!"NUMBER CITY TYPE -> HOUSE CITY SUFTYP -> 0.5", c!"NUMBER CITY -> HOUSE CITY -> 0.2",
   c!"CITY -> CITY -> 0.3"]
def betterLines : List Str :=
  [c!"[ADDRESS]", c!"@A", c!"[A]", c!"NUMBER CITY TYPE -> HOUSE CITY SUFTYP -> 0.5",
   c!"NUMBER WORD WORD TYPE -> HOUSE STREET STREET SUFTYP -> 0.8", c!"NUMBER CITY -> HOUSE PROV -> 0.4", c!"CITY -> CITY -> 0.3"]
def betterRules : List (Rule Rat) :=
  [⟨[.NUMBER, .WORD, .WORD, .TYPE], [.HOUSE, .STREET, .STREET, .SUFTYP], 4 / 5⟩, ⟨[.NUMBER, .CITY], [.HOUSE, .PROV], 2 / 5⟩]

theorem ruleLine_of {l : Str} {r : Rule Rat} (h : isCommentLine asciiU.toCharTables l = false ∧ sectionName? asciiU.toCharTables l = none ∧
    '@' ∉ l ∧ Rule.ofLine ratOps l = .ok r) : IsRuleLine asciiU.toCharTables ratOps l r :=
  ⟨fun hc => by rw [(isCommentLine_iff _ _).2 hc] at h; exact absurd h.1 (by simp), noHeader h.2.1, h.2.2.1,
    (C26_rule_line_meaning ratOps (by decide) l r).1 h.2.2.2⟩

theorem better_lines : ImprovedLines asciiU.toCharTables ratOps (· ∈ betterRules) plainLines betterLines :=
  .same <| .same <| .same <| .same <|
  .added (r := ⟨[.NUMBER, .WORD, .WORD, .TYPE], [.HOUSE, .STREET, .STREET, .SUFTYP], 4 / 5⟩) (ruleLine_of (by decide +kernel))
    (.head _) <|
  .changed (r := ⟨[.NUMBER, .CITY], [.HOUSE, .CITY], 1 / 5⟩) (r' := ⟨[.NUMBER, .CITY], [.HOUSE, .PROV], 2 / 5⟩)
    (ruleLine_of (by decide +kernel)) (ruleLine_of (by decide +kernel)) (.tail _ (.head _)) rfl (Or.inl (by decide +kernel)) <|
  .same .nil

/-- The hypotheses hold of the example. The added rule takes an address over, the raised rule another one,
and an address in which neither takes part stays as it is. -/
example : MonoLaws exEnv.fo (fun _ => False) ∧ exEnv.fo.lt (exEnv.fo.ofInt (-1)) exEnv.fo.zero = true ∧
    exEnv.fo.le0 exEnv.fo.zero = true ∧
    ImprovedLines exEnv.u.toCharTables exEnv.fo (· ∈ betterRules) plainLines betterLines ∧
    (∀ l ∈ plainLines, '\n' ∉ l) ∧ (∀ l ∈ betterLines, '\n' ∉ l) ∧ NoBom (unlines plainLines) ∧ NoBom (unlines betterLines) ∧
    (∃ g, Grammar.initialize exEnv.u.toCharTables exEnv.fo (unlines plainLines) = .ok g ∧ g.ruleSections ≠ []) ∧
    (∃ g, Grammar.initialize exEnv.u.toCharTables exEnv.fo (unlines betterLines) = .ok g ∧ g.ruleSections ≠ []) ∧
    (stdStandardize exEnv c!"12 new york str" (unlines betterLines) exTown c!"en" c!"SPACE").map (fun r => r.value.map (·.pattern)) =
      some (some (some c!"NUMBER WORD WORD TYPE -> HOUSE STREET STREET SUFTYP")) ∧
    (stdStandardize exEnv c!"12 new york str" (unlines plainLines) exTown c!"en" c!"SPACE").map (fun r => r.value.map (·.pattern)) =
      some (some (some c!"NUMBER CITY TYPE -> HOUSE CITY SUFTYP")) ∧
    (stdStandardize exEnv c!"12 new york" (unlines betterLines) exTown c!"en" c!"SPACE").map (fun r => r.value.map (·.pattern)) =
      some (some (some c!"NUMBER CITY -> HOUSE PROV")) ∧
    (stdStandardize exEnv c!"12 new york" (unlines plainLines) exTown c!"en" c!"SPACE").map (fun r => r.value.map (·.pattern)) =
      some (some (some c!"NUMBER CITY -> HOUSE CITY")) ∧
    stdStandardize exEnv c!"new york" (unlines betterLines) exTown c!"en" c!"SPACE" =
      stdStandardize exEnv c!"new york" (unlines plainLines) exTown c!"en" c!"SPACE" ∧
    (stdStandardize exEnv c!"new york" (unlines betterLines) exTown c!"en" c!"SPACE").map (fun r => r.value.map (·.pattern)) =
      some (some (some c!"CITY -> CITY")) :=
  ⟨ratOps_mono, by decide, by decide, better_lines, by decide, by decide, by unfold NoBom; decide, by unfold NoBom; decide,
    exists_ok (by decide +kernel), exists_ok (by decide +kernel), by decide +kernel, by decide +kernel, by decide +kernel,
    by decide +kernel, by decide +kernel, by decide +kernel⟩

/-- The two grammars of the example meet the hypotheses of `C94_same_or_new`. -/
example : ∃ g g' : Grammar Rat, WfGrammar g ∧ WfGrammar g' ∧ Balanced g ∧ Balanced g' ∧ HasRoot g ∧ HasRoot g' ∧ ScoresCount ratOps g ∧
    ImprovedIn ratOps (· ∈ betterRules) g g' := by
  obtain ⟨g, hg, -⟩ := exists_ok (P := fun g : Grammar Rat => g.ruleSections ≠ [])
    (r := Grammar.initialize asciiU.toCharTables ratOps (unlines plainLines)) (by decide +kernel)
  obtain ⟨g', hg', -⟩ := exists_ok (P := fun g : Grammar Rat => g.ruleSections ≠ [])
    (r := Grammar.initialize asciiU.toCharTables ratOps (unlines betterLines)) (by decide +kernel)
  obtain ⟨wf, hb, hr⟩ := C29_constructed_wf _ ratOps (by decide) _ g hg
  obtain ⟨wf', hb', hr'⟩ := C29_constructed_wf _ ratOps (by decide) _ g' hg'
  exact ⟨g, g', wf, wf', hb, hb', hr, hr', accepted_scores _ ratOps (by decide) _ g hg,
    C94_lines _ ratOps (by decide) _ _ better_lines (by decide) (by decide) (by unfold NoBom; decide) (by unfold NoBom; decide) _ _ hg hg'⟩

/-- The laws also hold of arithmetic with NaN. -/
example : MonoLaws nanOps (· = none) := nanOps_mono

/-- No class sequence of the address contains the classes of the new rules. -/
example : ∃ l phrases, loadLexicon exEnv exTown = .ok l ∧ phrasesOf exEnv l c!"en" c!"SPACE" c!"new york" = .ok phrases ∧
    phrases ≠ [] ∧ ∀ phrase ∈ phrases, ∀ t ∈ phrase, InType.NUMBER ∉ t.inclass := by
  have key : (match loadLexicon exEnv exTown with
    | .ok l => (match phrasesOf exEnv l c!"en" c!"SPACE" c!"new york" with
      | .ok phrases => decide (phrases ≠ [] ∧ ∀ phrase ∈ phrases, ∀ t ∈ phrase, InType.NUMBER ∉ t.inclass)
      | _ => false)
    | _ => false) = true := by decide +kernel
  cases hl : loadLexicon exEnv exTown with
  | undefined => rw [hl] at key; cases key
  | throws m => rw [hl] at key; cases key
  | ok l =>
    rw [hl] at key
    simp only at key
    cases hp : phrasesOf exEnv l c!"en" c!"SPACE" c!"new york" with
    | undefined => rw [hp] at key; cases key
    | throws m => rw [hp] at key; cases key
    | ok phrases =>
      rw [hp] at key
      exact ⟨l, phrases, rfl, hp, of_decide_eq_true key⟩

end AS.Props
