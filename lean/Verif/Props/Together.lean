import Verif.Lemmas.Together
import Verif.Props.Improve
import Verif.Props.Order
import Verif.Lemmas.Alike
/-
Property C112: two grammars in one.
-/
namespace AS.Props
open AS AS.Wrapper
variable {F D : Type} {fo : FloatOps F}

/-! ### The best match -/

/-- What is chosen in the mixed list is what is chosen in the list it comes from. -/
theorem best_part {nan : F → Prop} (nl : NanLaws fo nan) {G A : Grammar F} (wfG : WfGrammar G) (wfA : WfGrammar A)
    (hbG : Balanced G) (hbA : Balanced A) {phrase : List Token} {a c : List (SearchPath F)}
    (ha : search A c!"ADDRESS" phrase = .ok a) (hc : search G c!"ADDRESS" phrase = .ok c) (hsub : ∀ q ∈ a, q ∈ c)
    {u v x y : List (SearchPath F)} {p : SearchPath F} (e : c = u ++ p :: v) (e' : a = x ++ p :: y) (hx : ∀ q ∈ x, q ∈ u)
    (hr : ∀ r, searchAndReclassBest G fo phrase = .ok r →
      (u = [] ∧ (∀ q ∈ c, fo.lt fo.zero (average fo q.rules) = false)) ∨
      (fo.lt fo.zero (average fo p.rules) = true ∧
        (∀ q ∈ u, nan (average fo q.rules) ∨ fo.lt (average fo q.rules) (average fo p.rules) = true) ∧
        (∀ q ∈ c, fo.lt (average fo p.rules) (average fo q.rules) = false))) (r : BestResult F)
    (h : searchAndReclassBest G fo phrase = .ok r) : searchAndReclassBest A fo phrase = .ok r := by
  rcases hr r h with ⟨rfl, hall⟩ | ⟨h1, h2, h3⟩
  · have hx' : x = [] := by
      cases x with
      | nil => rfl
      | cons q x => exact absurd (hx q List.mem_cons_self) (by simp)
    subst hx'
    rw [List.nil_append] at e e'
    rw [best_none wfG hbG nl.toLtLaws phrase (e ▸ hc) (fun q hq => hall q (e ▸ hq))] at h
    rw [best_none wfA hbA nl.toLtLaws phrase (e' ▸ ha) (fun q hq => hall q (hsub q (e' ▸ hq)))]
    exact h
  · rw [best_some wfG hbG nl phrase (e ▸ hc) h1 h2 (fun q hq => h3 q (by rw [e]; simp [hq]))] at h
    rw [best_some wfA hbA nl phrase (e' ▸ ha) h1 (fun q hq => h2 q (hx q hq))
      (fun q hq => h3 q (hsub q (by rw [e']; simp [hq])))]
    exact h

theorem no_result {A : Grammar F} {phrase : List Token} (h : search A c!"ADDRESS" phrase = .ok []) :
    searchAndReclassBest A fo phrase = .ok { tokens := [], score := fo.ofInt (-1), matched := none, nrules := fo.ofInt (-1) } := by
  unfold searchAndReclassBest
  simp [h]

/-- One phrase: the better of the two results. -/
theorem best_together {nan : F → Prop} (nl : NanLaws fo nan) (hm1 : fo.lt (fo.ofInt (-1)) fo.zero = true) {G A B : Grammar F}
    (wfG : WfGrammar G) (wfA : WfGrammar A) (wfB : WfGrammar B) (hbG : Balanced G) (hbA : Balanced A) (hbB : Balanced B)
    (h : Together G A B) (phrase : List Token) :
    ∃ ra rb r, searchAndReclassBest A fo phrase = .ok ra ∧ searchAndReclassBest B fo phrase = .ok rb ∧
      searchAndReclassBest G fo phrase = .ok r ∧ (r = ra ∨ r = rb) ∧
      fo.lt r.score ra.score = false ∧ fo.lt r.score rb.score = false ∧
      (¬ nan ra.score ∧ ¬ nan rb.score ∧ ¬ nan r.score) ∧
      (∀ ps, Token.enumerate phrase = some ps → ps.length ≤ 1 → fo.lt ra.score rb.score = false → r = ra) := by
  obtain ⟨a, b, c, ha, hb, hc, hi, h1⟩ := search_together wfG wfA wfB h phrase
  have subA : ∀ q ∈ a, q ∈ c := fun q hq => (hi.mem q).2 (Or.inl hq)
  have subB : ∀ q ∈ b, q ∈ c := fun q hq => (hi.mem q).2 (Or.inr hq)
  obtain ⟨ra, r, kA, kG, sA, ⟨nA, nG⟩, _⟩ := one_choice (K := fun _ => False) nl hm1 wfA wfG hbA hbG ha hc
    (fun q hq => ⟨q, subA q hq, Or.inr (Or.inr rfl)⟩) (fun _ _ _ _ hk => hk.elim) (fun _ _ hk => hk.elim)
  obtain ⟨rb, r', kB, kG', sB, ⟨nB, _⟩, _⟩ := one_choice (K := fun _ => False) nl hm1 wfB wfG hbB hbG hb hc
    (fun q hq => ⟨q, subB q hq, Or.inr (Or.inr rfl)⟩) (fun _ _ _ _ hk => hk.elim) (fun _ _ hk => hk.elim)
  rw [kG, Outcome.ok.injEq] at kG'
  subst kG'
  refine ⟨ra, rb, r, kA, kB, kG, ?_, sA, sB, ⟨nA, nB, nG⟩, ?_⟩
  · by_cases hne : c = []
    · subst hne
      have : a = [] := by
        cases a with
        | nil => rfl
        | cons q a => exact absurd (subA q List.mem_cons_self) (by simp)
      subst this
      rw [no_result ha, Outcome.ok.injEq] at kA
      rw [no_result hc, Outcome.ok.injEq] at kG
      exact Or.inl (kG.symm.trans kA)
    · have key : ∃ u p v, c = u ++ p :: v ∧ ∀ r, searchAndReclassBest G fo phrase = .ok r →
          (u = [] ∧ (∀ q ∈ c, fo.lt fo.zero (average fo q.rules) = false)) ∨
          (fo.lt fo.zero (average fo p.rules) = true ∧
            (∀ q ∈ u, nan (average fo q.rules) ∨ fo.lt (average fo q.rules) (average fo p.rules) = true) ∧
            (∀ q ∈ c, fo.lt (average fo p.rules) (average fo q.rules) = false)) := by
        rcases best_cases wfG hbG nl phrase hc hne with ⟨p, v, e, hall, _⟩ | ⟨u, p, v, e, p1, p2, p3, _⟩
        · exact ⟨[], p, v, e, fun _ _ => Or.inl ⟨rfl, hall⟩⟩
        · exact ⟨u, p, v, e, fun _ _ => Or.inr ⟨p1, p2, p3⟩⟩
      obtain ⟨u, p, v, e, hcase⟩ := key
      rcases hi.split e with ⟨x, y, e', hx⟩ | ⟨x, y, e', hx⟩
      · have := best_part nl wfG wfA hbG hbA ha hc subA e e' hx hcase r kG
        rw [kA, Outcome.ok.injEq] at this
        exact Or.inl this.symm
      · have := best_part nl wfG wfB hbG hbB hb hc subB e e' hx hcase r kG
        rw [kB, Outcome.ok.injEq] at this
        exact Or.inr this.symm
  · intro ps hps hl hlt
    have hab := h1 ps hps hl
    by_cases hae : a = []
    · subst hae
      rw [List.nil_append] at hab
      subst hab
      rw [no_result ha, Outcome.ok.injEq] at kA
      by_cases hbe : c = []
      · subst hbe
        rw [no_result hc, Outcome.ok.injEq] at kG
        exact kG.symm.trans kA
      · exfalso
        rcases best_cases wfB hbB nl phrase hb hbe with ⟨_, _, _, _, k⟩ | ⟨_, p, _, _, p1, _, _, k⟩
        · rw [kB, Outcome.ok.injEq] at k
          rw [k, ← kA, hm1] at hlt
          cases hlt
        · rw [kB, Outcome.ok.injEq] at k
          rw [k, ← kA, nl.trans _ _ _ hm1 p1] at hlt
          cases hlt
    · rcases best_cases wfA hbA nl phrase ha hae with ⟨p, v, e, hall, k⟩ | ⟨u, p, v, e, p1, p2, p3, k⟩
      · have hallb : ∀ q ∈ b, fo.lt fo.zero (average fo q.rules) = false := by
          intro q hq
          rcases best_cases wfB hbB nl phrase hb (List.ne_nil_of_mem hq) with ⟨_, _, _, hall', _⟩ | ⟨_, p', _, _, p1, _, _, k'⟩
          · exact hall' q hq
          · rw [kA, Outcome.ok.injEq] at k
            rw [kB, Outcome.ok.injEq] at k'
            rw [k, k', p1] at hlt
            cases hlt
        have hG := best_none (p := p) (l := v ++ b) wfG hbG nl.toLtLaws phrase (by rw [hc, hab, e]; rfl) (by
          intro q hq
          rcases List.mem_append.1 (show q ∈ (p :: v) ++ b from hq) with hq | hq
          · exact hall q (e ▸ hq)
          · exact hallb q hq)
        rw [← k, kA, kG, Outcome.ok.injEq] at hG
        exact hG
      · have hG := best_some (p := p) (u := u) (v := v ++ b) wfG hbG nl phrase (by rw [hc, hab, e, List.append_assoc]; rfl) p1 p2 (by
          intro q hq
          rcases List.mem_append.1 hq with hq | hq
          · exact p3 q (by rw [e]; simp [hq])
          · rw [kA, Outcome.ok.injEq] at k
            rcases best_cases wfB hbB nl phrase hb (List.ne_nil_of_mem hq) with ⟨_, _, _, hall', _⟩ | ⟨_, p', _, _, p1', _, p3', k'⟩
            · cases hcase : fo.lt (average fo p.rules) (average fo q.rules) with
              | false => rfl
              | true => exact absurd (hall' q hq) (by rw [nl.trans _ _ _ p1 hcase]; simp)
            · rw [kB, Outcome.ok.injEq] at k'
              rw [k, k'] at hlt
              simp only at hlt
              cases hcase : fo.lt (average fo p.rules) (average fo q.rules) with
              | false => rfl
              | true =>
                rcases nl.total _ (average fo p'.rules) _ (fun hn => by rw [nl.right _ _ hn] at p1'; cases p1') hcase with h | h
                · rw [hlt] at h; cases h
                · rw [p3' q hq] at h; cases h)
        rw [← k, kA, kG, Outcome.ok.injEq] at hG
        exact hG

/-- Several phrases: if the result that is chosen among them is that of a part, it is chosen in the part. -/
theorem part_choice {ζ : Type} {nan : F → Prop} (nl : NanLaws fo nan) (f g : ζ → BestResult F) (zs : List ζ)
    (hzs : ∀ z ∈ zs, fo.lt (g z).score (f z).score = false ∧ ¬ nan (f z).score ∧ ¬ nan (g z).score) {zu zv : List ζ} {z : ζ}
    (e : zs = zu ++ z :: zv) (p2 : fo.lt (fo.ofInt (-1)) (g z).score = true)
    (p3 : ∀ w ∈ zu, nan (g w).score ∨ fo.lt (g w).score (g z).score = true)
    (p4 : ∀ w ∈ zs, fo.lt (g z).score (g w).score = false) (c3 : f z = g z) :
    pickLoop fo (fun b : BestResult F => b.score) 0 (fo.ofInt (-1), none) (zs.map f) = ((g z).score, some (0 + (zu.map f).length, g z)) := by
  have hsel := pickLoop_select nl (fun b : BestResult F => b.score) (x := f z) (v := zv.map f) (zu.map f) 0
    (fo.ofInt (-1)) none (by rw [c3]; exact p2)
    (by
      intro y hy
      obtain ⟨w, hw, rfl⟩ := List.mem_map.1 hy
      obtain ⟨d1, d2, d3⟩ := hzs w (by rw [e]; simp [hw])
      right
      rw [c3]
      rcases p3 w hw with h | h
      · exact absurd h d3
      · rcases nl.total _ (f w).score _ d2 h with h | h
        · rw [d1] at h; cases h
        · exact h)
    (by
      intro y hy
      obtain ⟨w, hw, rfl⟩ := List.mem_map.1 hy
      have hwz : w ∈ zs := by rw [e]; simp [hw]
      obtain ⟨d1, d2, d3⟩ := hzs w hwz
      rw [c3]
      cases hc : fo.lt (g z).score (f w).score with
      | false => rfl
      | true =>
        rcases nl.total _ (g w).score _ d3 hc with h | h
        · rw [p4 w hwz] at h; cases h
        · rw [d1] at h; cases h)
  have hlist : zs.map f = zu.map f ++ f z :: zv.map f := by rw [e]; simp
  rw [hlist, hsel, c3]

theorem one_class {phrase : List Token} (hone : ∀ t ∈ phrase, t.inclass.length = 1) {ps : List (List InType)}
    (h : Token.enumerate phrase = some ps) : ps.length ≤ 1 := by
  have key : ∀ ts : List Token, (∀ t ∈ ts, t.inclass.length = 1) → sizeProd (ts.map Token.inclass) = 1 := by
    intro ts
    induction ts with
    | nil => intro _; rfl
    | cons t ts ih =>
      intro h
      rw [List.map_cons, sizeProd, h t List.mem_cons_self, Nat.one_mul]
      exact ih (fun x hx => h x (List.mem_cons_of_mem _ hx))
  have hp := key phrase hone
  rw [Token.enumerate_eq phrase (by rw [hp]; decide), Option.some.injEq] at h
  rw [← h, length_cart, hp]
  exact Nat.le_refl _

/-! ### C112 -/

/-- What is found in a grammar made of two is what is found in either, each in its order; and if every token has one class,
first all that is found in the one, then all that is found in the other. -/
theorem C112_matches {G A B : Grammar F} (wfG : WfGrammar G) (wfA : WfGrammar A) (wfB : WfGrammar B) (h : Together G A B)
    (phrase : List Token) : ∃ a b c, search A c!"ADDRESS" phrase = .ok a ∧ search B c!"ADDRESS" phrase = .ok b ∧
      search G c!"ADDRESS" phrase = .ok c ∧ Interleaved a b c ∧ ((∀ t ∈ phrase, t.inclass.length = 1) → c = a ++ b) := by
  obtain ⟨a, b, c, h1, h2, h3, h4, h5⟩ := search_together wfG wfA wfB h phrase
  refine ⟨a, b, c, h1, h2, h3, h4, fun hone => ?_⟩
  obtain ⟨ps, hps, _⟩ := Token.enumerate_picks phrase
  exact h5 ps hps (one_class hone hps)

/-- The best match among all alternatives of an address is the one found with the first grammar or the one found with the
second, whichever has the higher score. -/
theorem C112_best {nan : F → Prop} (nl : NanLaws fo nan) (hm1 : fo.lt (fo.ofInt (-1)) fo.zero = true) {G A B : Grammar F}
    (wfG : WfGrammar G) (wfA : WfGrammar A) (wfB : WfGrammar B) (hbG : Balanced G) (hbA : Balanced A) (hbB : Balanced B)
    (h : Together G A B) (phrases : List (List Token)) :
    ∃ ra rb r, searchAndReclassBestOf A fo phrases = .ok ra ∧ searchAndReclassBestOf B fo phrases = .ok rb ∧
      searchAndReclassBestOf G fo phrases = .ok r ∧ (r = ra ∨ r = rb) ∧
      fo.lt r.score ra.score = false ∧ fo.lt r.score rb.score = false ∧
      (fo.lt ra.score rb.score = true → r = rb) ∧ (fo.lt rb.score ra.score = true → r = ra) := by
  have all : ∃ zs : List (Unit × BestResult F × BestResult F × BestResult F),
      phrases.map (searchAndReclassBest A fo) = (zs.map (·.2.1)).map .ok ∧
      phrases.map (searchAndReclassBest B fo) = (zs.map (·.2.2.1)).map .ok ∧
      phrases.map (searchAndReclassBest G fo) = (zs.map (·.2.2.2)).map .ok ∧
      ∀ z ∈ zs, (z.2.2.2 = z.2.1 ∨ z.2.2.2 = z.2.2.1) ∧ fo.lt z.2.2.2.score z.2.1.score = false ∧
        fo.lt z.2.2.2.score z.2.2.1.score = false ∧ ¬ nan z.2.1.score ∧ ¬ nan z.2.2.1.score ∧ ¬ nan z.2.2.2.score := by
    induction phrases with
    | nil => exact ⟨[], rfl, rfl, rfl, by simp⟩
    | cons phrase ps ih =>
      obtain ⟨zs, h1, h2, h3, h4⟩ := ih
      obtain ⟨ra, rb, r, k1, k2, k3, k4, k5, k6, k7, _⟩ := best_together nl hm1 wfG wfA wfB hbG hbA hbB h phrase
      refine ⟨((), ra, rb, r) :: zs, by rw [List.map_cons, h1, k1]; rfl, by rw [List.map_cons, h2, k2]; rfl,
        by rw [List.map_cons, h3, k3]; rfl, ?_⟩
      intro z hz
      rcases List.mem_cons.1 hz with rfl | hz
      · exact ⟨k4, k5, k6, k7⟩
      · exact h4 z hz
  obtain ⟨zs, eA, eB, eG, hzs⟩ := all
  have eA' : phrases.map (searchAndReclassBest A fo) = ((zs.map (fun z => ((), z.2.1, z.2.2.2))).map (·.2.1)).map .ok := by
    rw [eA]; simp
  have eB' : phrases.map (searchAndReclassBest B fo) = ((zs.map (fun z => ((), z.2.2.1, z.2.2.2))).map (·.2.1)).map .ok := by
    rw [eB]; simp
  have eGA : phrases.map (searchAndReclassBest G fo) = ((zs.map (fun z => ((), z.2.1, z.2.2.2))).map (·.2.2)).map .ok := by
    rw [eG]; simp
  have eGB : phrases.map (searchAndReclassBest G fo) = ((zs.map (fun z => ((), z.2.2.1, z.2.2.2))).map (·.2.2)).map .ok := by
    rw [eG]; simp
  obtain ⟨ra, r, a1, a2, a3, _⟩ := all_choice nl eA' eGA (by
    intro z hz
    obtain ⟨w, hw, rfl⟩ := List.mem_map.1 hz
    obtain ⟨_, d2, _, d4, _, d6⟩ := hzs w hw
    exact ⟨d2, d4, d6⟩)
  obtain ⟨rb, r', b1, b2, b3, _⟩ := all_choice nl eB' eGB (by
    intro z hz
    obtain ⟨w, hw, rfl⟩ := List.mem_map.1 hz
    obtain ⟨_, _, d3, _, d5, d6⟩ := hzs w hw
    exact ⟨d3, d5, d6⟩)
  rw [a2, Outcome.ok.injEq] at b2
  subst b2
  have init : phraseOf ⟨[], fo.ofInt (-1), some [], fo.ofInt (-1)⟩ (none : Option (Nat × BestResult F)) =
      ⟨[], fo.ofInt (-1), some [], fo.ofInt (-1)⟩ := rfl
  have hA := bestPhrases_eq (G := A) (fo := fo) ⟨[], fo.ofInt (-1), some [], fo.ofInt (-1)⟩ phrases _ 0
    (fo.ofInt (-1), none) eA rfl
  have hB := bestPhrases_eq (G := B) (fo := fo) ⟨[], fo.ofInt (-1), some [], fo.ofInt (-1)⟩ phrases _ 0
    (fo.ofInt (-1), none) eB rfl
  have hG := bestPhrases_eq (G := G) (fo := fo) ⟨[], fo.ofInt (-1), some [], fo.ofInt (-1)⟩ phrases _ 0
    (fo.ofInt (-1), none) eG rfl
  rw [init] at hA hB hG
  change searchAndReclassBestOf A fo phrases = _ at hA
  change searchAndReclassBestOf B fo phrases = _ at hB
  change searchAndReclassBestOf G fo phrases = _ at hG
  rw [a1, Outcome.ok.injEq] at hA
  rw [b1, Outcome.ok.injEq] at hB
  rw [a2, Outcome.ok.injEq] at hG
  have hor : r = ra ∨ r = rb := by
    rcases pickLoop_first nl (fun b : BestResult F => b.score) (zs.map (·.2.2.2)) 0 (fo.ofInt (-1)) none with
      ⟨p1, p2⟩ | ⟨u, x, v, p0, p1, p2, p3, p4⟩
    · left
      have q : pickLoop fo (fun b : BestResult F => b.score) 0 (fo.ofInt (-1), none) (zs.map (·.2.1)) = (fo.ofInt (-1), none) := by
        refine pickLoop_none nl.toLtLaws _ _ _ _ _ ?_
        intro b hb
        obtain ⟨z, hz, rfl⟩ := List.mem_map.1 hb
        obtain ⟨_, c1, _, _, _, c2⟩ := hzs z hz
        have c3 := p2 z.2.2.2 (List.mem_map.2 ⟨z, hz, rfl⟩)
        cases hc : fo.lt (fo.ofInt (-1)) z.2.1.score with
        | false => rfl
        | true =>
          rcases nl.total _ z.2.2.2.score _ c2 hc with h | h
          · rw [c3] at h; cases h
          · rw [c1] at h; cases h
      rw [hA, hG, p1, q]
    · obtain ⟨zu, zxv, z1, z2, z3⟩ := List.map_eq_append_iff.1 p0
      obtain ⟨z, zv, z4, z5, z6⟩ := List.map_eq_cons_iff.1 z3
      subst z5
      have e : zs = zu ++ z :: zv := by rw [z1, z4]
      have hz : z ∈ zs := by rw [e]; simp
      have p3' : ∀ w ∈ zu, nan w.2.2.2.score ∨ fo.lt w.2.2.2.score z.2.2.2.score = true :=
        fun w hw => p3 w.2.2.2 (by rw [← z2]; exact List.mem_map.2 ⟨w, hw, rfl⟩)
      have p4' : ∀ w ∈ zs, fo.lt z.2.2.2.score w.2.2.2.score = false := fun w hw => p4 w.2.2.2 (List.mem_map.2 ⟨w, hw, rfl⟩)
      rcases (hzs z hz).1 with c | c
      · left
        have := part_choice nl (fun z => z.2.1) (fun z => z.2.2.2) zs
          (fun w hw => ⟨(hzs w hw).2.1, (hzs w hw).2.2.2.1, (hzs w hw).2.2.2.2.2⟩) e p2 p3' p4' c.symm
        rw [hA, hG, p1, this]
        rfl
      · right
        have := part_choice nl (fun z => z.2.2.1) (fun z => z.2.2.2) zs
          (fun w hw => ⟨(hzs w hw).2.2.1, (hzs w hw).2.2.2.2.1, (hzs w hw).2.2.2.2.2⟩) e p2 p3' p4' c.symm
        rw [hB, hG, p1, this]
        rfl
  refine ⟨ra, rb, r, a1, b1, a2, hor, a3, b3, ?_, ?_⟩
  · intro hlt
    rcases hor with e | e
    · rw [← e, b3] at hlt; cases hlt
    · exact e
  · intro hlt
    rcases hor with e | e
    · exact e
    · rw [← e, a3] at hlt; cases hlt

/-- For a phrase whose tokens have one class each the first grammar has priority: its result is the one of the grammar made of
both unless the score with the second is higher. -/
theorem C112_priority {nan : F → Prop} (nl : NanLaws fo nan) (hm1 : fo.lt (fo.ofInt (-1)) fo.zero = true) {G A B : Grammar F}
    (wfG : WfGrammar G) (wfA : WfGrammar A) (wfB : WfGrammar B) (hbG : Balanced G) (hbA : Balanced A) (hbB : Balanced B)
    (h : Together G A B) (phrase : List Token) (hone : ∀ t ∈ phrase, t.inclass.length = 1) (ra rb r : BestResult F)
    (hA : searchAndReclassBest A fo phrase = .ok ra) (hB : searchAndReclassBest B fo phrase = .ok rb)
    (hG : searchAndReclassBest G fo phrase = .ok r) : (fo.lt ra.score rb.score = false → r = ra) ∧
      (fo.lt ra.score rb.score = true → r = rb) := by
  obtain ⟨ra', rb', r', k1, k2, k3, k4, k5, k6, _, k7⟩ := best_together nl hm1 wfG wfA wfB hbG hbA hbB h phrase
  rw [hA, Outcome.ok.injEq] at k1
  rw [hB, Outcome.ok.injEq] at k2
  rw [hG, Outcome.ok.injEq] at k3
  subst k1 k2 k3
  constructor
  · obtain ⟨ps, hps, _⟩ := Token.enumerate_picks phrase
    exact k7 ps hps (one_class hone hps)
  · intro hlt
    rcases k4 with e | e
    · rw [← e, k6] at hlt; cases hlt
    · exact e

/-! ### Texts -/

section
variable (ct : CharTables)

theorem groupLines_append : ∀ (xs ys : List Str), (groupLines ct ys).1 = [] →
    groupLines ct (xs ++ ys) = ((groupLines ct xs).1, (groupLines ct xs).2 ++ (groupLines ct ys).2)
  | [], ys, h => by
    rw [List.nil_append]
    exact Prod.ext h rfl
  | x :: xs, ys, h => by
    have ih := groupLines_append xs ys h
    rw [List.cons_append, groupLines, groupLines, ih]
    split
    · rfl
    · split <;> rfl

theorem groupLines_lines : ∀ (ls : List Str), (∀ l ∈ (groupLines ct ls).1, l ∈ ls) ∧
    ∀ g ∈ (groupLines ct ls).2, (∃ h ∈ ls, IsHeader ct h g.1) ∧ ∀ l ∈ g.2, l ∈ ls
  | [] => by simp [groupLines]
  | x :: xs => by
    obtain ⟨i1, i2⟩ := groupLines_lines xs
    have i2' : ∀ g ∈ (groupLines ct xs).2, (∃ h ∈ x :: xs, IsHeader ct h g.1) ∧ ∀ l ∈ g.2, l ∈ x :: xs := by
      intro g hg
      obtain ⟨⟨h, hh, e⟩, k⟩ := i2 g hg
      exact ⟨⟨h, List.mem_cons_of_mem _ hh, e⟩, fun l hl => List.mem_cons_of_mem _ (k l hl)⟩
    rw [groupLines]
    split
    · exact ⟨fun l hl => List.mem_cons_of_mem _ (i1 l hl), i2'⟩
    · split
      · next n hn =>
        refine ⟨by simp, ?_⟩
        intro g hg
        rcases List.mem_cons.1 hg with rfl | hg
        · exact ⟨⟨x, List.mem_cons_self, (sectionName?_iff ct x n).1 hn⟩, fun l hl => List.mem_cons_of_mem _ (i1 l hl)⟩
        · exact i2' g hg
      · refine ⟨?_, i2'⟩
        intro l hl
        rcases List.mem_cons.1 hl with rfl | hl
        · exact List.mem_cons_self
        · exact List.mem_cons_of_mem _ (i1 l hl)

theorem groupLines_header {h n : Str} (hh : IsHeader ct h n) (ls : List Str) :
    groupLines ct (h :: ls) = ([], (n, (groupLines ct ls).1) :: (groupLines ct ls).2) := by
  have hs := (sectionName?_iff ct h n).2 hh
  rw [groupLines, header_not_comment ct hs, hs]
  simp

variable {ct} {fo : FloatOps F}

/-- The groups of a text that begins with section ADDRESS. -/
theorem rootFirst_groups {header : Str} {body rest : List Str} (h : RootFirst ct header body rest) :
    (groupLines ct rest).1 = [] ∧ (groupLines ct body).2 = [] ∧ (groupLines ct body).1 ≠ [] ∧
    (∀ l ∈ (groupLines ct body).1, '@' ∈ l) ∧
    groupLines ct (header :: (body ++ rest)) = ([], (c!"ADDRESS", (groupLines ct body).1) :: (groupLines ct rest).2) := by
  have h1 : (groupLines ct rest).1 = [] := by
    rcases h.sections with rfl | ⟨x, more, n, rfl, hx⟩
    · rfl
    · rw [groupLines_header ct hx]
  have h2 : (groupLines ct body).2 = [] := by
    have := groupLines_body ct body [] h.below rfl
    rw [List.append_nil] at this
    rw [this]
    rfl
  refine ⟨h1, h2, groupLines_body_ne ct body h.below h.inhabited, ?_, ?_⟩
  · intro l hl
    obtain ⟨k1, k2⟩ := (groupLines_body_mem ct body h.below l).1 hl
    refine h.refs l k1 (fun hc => ?_)
    rw [(isCommentLine_iff ct l).2 hc] at k2
    cases k2
  · rw [groupLines_header ct h.isHeader, groupLines_body ct body rest h.below h1]

theorem sections_append {gs gs' : List (Str × List Str)} {ms ms' : List (Str × List (List Str))}
    {rs rs' : List (Str × List (Rule F))} (h : Sections ct fo gs ms rs) (h' : Sections ct fo gs' ms' rs') :
    Sections ct fo (gs ++ gs') (ms ++ ms') (rs ++ rs') := by
  induction h with
  | nil => exact h'
  | empty _ ih => exact .empty ih
  | metas a b c _ ih => exact .metas a b c ih
  | rules a b c _ ih => exact .rules a b c ih

theorem sections_refs {gs : List (Str × List Str)} {ms : List (Str × List (List Str))} {rs : List (Str × List (Rule F))}
    (h : Sections ct fo gs ms rs) : ∀ s ∈ ms, ∀ refs ∈ s.2, ∃ g ∈ gs, ∃ l ∈ g.2, IsRefs ct l refs := by
  have up : ∀ {gs : List (Str × List Str)} {g : Str × List Str} {refs : List Str},
      (∃ g ∈ gs, ∃ l ∈ g.2, IsRefs ct l refs) → ∃ x ∈ g :: gs, ∃ l ∈ x.2, IsRefs ct l refs := by
    rintro gs g refs ⟨x, hx, k⟩
    exact ⟨x, List.mem_cons_of_mem _ hx, k⟩
  induction h with
  | nil => simp
  | empty _ ih => exact fun s hs refs hr => up (ih s hs refs hr)
  | metas a b c _ ih =>
    intro s hs refs hr
    rcases List.mem_cons.1 hs with rfl | hs
    · rw [(metasMean_iff ct _ _).1 c] at hr
      obtain ⟨l, hl, e⟩ := List.mem_filterMap.1 hr
      exact ⟨_, List.mem_cons_self, l, hl, (refsOf?_some ct l refs).1 e⟩
    · exact up (ih s hs refs hr)
  | rules _ _ _ _ ih => exact fun s hs refs hr => up (ih s hs refs hr)

/-- The sections of a text that begins with section ADDRESS. -/
theorem rootFirst_means {header : Str} {body rest : List Str} (h : RootFirst ct header body rest)
    {ms : List (Str × List (List Str))} {rs : List (Str × List (Rule F))}
    (hm : GrammarMeans ct fo (header :: (body ++ rest)) ms rs) :
    ∃ mm more, ms = (c!"ADDRESS", mm) :: more ∧ MetasMean ct (groupLines ct body).1 mm ∧
      Sections ct fo (groupLines ct rest).2 more rs ∧ (∀ g ∈ (groupLines ct rest).2, g.1 ≠ c!"ADDRESS") ∧
      NoRepeat (groupLines ct rest).2 := by
  obtain ⟨_, _, h3, h4, h5⟩ := rootFirst_groups h
  obtain ⟨gs, g1, g2, g3⟩ := hm
  rw [groups_iff, h5, Prod.mk.injEq] at g1
  obtain ⟨_, rfl⟩ := g1
  obtain ⟨n1, n2⟩ := List.pairwise_cons.1 g2
  generalize (groupLines ct body).1 = ls at *
  cases g3 with
  | empty => exact absurd rfl h3
  | metas a b c k => exact ⟨_, _, rfl, c, k, fun g hg => n1 g hg h3, n2⟩
  | rules a b c k =>
    obtain ⟨l, hl⟩ := List.exists_mem_of_ne_nil _ h3
    exact absurd (h4 l hl) (b l hl)
end

/-- A grammar text that is accepted as `g`, with section ADDRESS first and with references there, and without references to
ADDRESS. -/
structure OneText (ct : CharTables) (fo : FloatOps F) (header : Str) (body rest : List Str) (g : Grammar F) : Prop where
  root : RootFirst ct header body rest
  lines : ∀ l ∈ header :: (body ++ rest), '\n' ∉ l
  bom : NoBom (unlines (header :: (body ++ rest)))
  free : ∀ l ∈ header :: (body ++ rest), ∀ ns, IsRefs ct l ns → c!"ADDRESS" ∉ ns
  accepted : Grammar.initialize ct fo (unlines (header :: (body ++ rest))) = .ok g

/-- Two such texts, without a section name in common otherwise. -/
structure TwoTexts (ct : CharTables) (fo : FloatOps F) (headerA : Str) (bodyA restA : List Str) (headerB : Str)
    (bodyB restB : List Str) (a b : Grammar F) : Prop where
  first : OneText ct fo headerA bodyA restA a
  second : OneText ct fo headerB bodyB restB b
  apart : ∀ h ∈ restA, ∀ h' ∈ restB, ∀ n, IsHeader ct h n → ¬ IsHeader ct h' n

/-- The text of both: the lines of section ADDRESS of the one, those of the other, then the other sections. -/
def bothTexts (headerA : Str) (bodyA restA bodyB restB : List Str) : Str :=
  unlines (headerA :: ((bodyA ++ bodyB) ++ (restA ++ restB)))

/-- The text of both is accepted, and its grammar is made of the two. -/
theorem C112_text (ct : CharTables) (fo : FloatOps F) (h0 : fo.le0 fo.zero = true) {headerA headerB : Str}
    {bodyA restA bodyB restB : List Str} {a b : Grammar F} (h : TwoTexts ct fo headerA bodyA restA headerB bodyB restB a b) :
    ∃ g, Grammar.initialize ct fo (bothTexts headerA bodyA restA bodyB restB) = .ok g ∧ Together g a b := by
  have hnA : ∀ l ∈ headerA :: (bodyA ++ restA), '\n' ∉ l := h.first.lines
  have hnB : ∀ l ∈ headerB :: (bodyB ++ restB), '\n' ∉ l := h.second.lines
  have hn : ∀ l ∈ headerA :: ((bodyA ++ bodyB) ++ (restA ++ restB)), '\n' ∉ l := by
    intro l hl
    simp only [List.mem_append, List.mem_cons] at hl
    rcases hl with hl | (hl | hl) | hl | hl
    · exact hnA l (by simp [hl])
    · exact hnA l (by simp [hl])
    · exact hnB l (by simp [hl])
    · exact hnA l (by simp [hl])
    · exact hnB l (by simp [hl])
  have hb : NoBom (unlines (headerA :: ((bodyA ++ bodyB) ++ (restA ++ restB)))) := by
    have := h.first.bom
    unfold NoBom unlines at this ⊢
    rw [List.flatMap_cons] at this ⊢
    cases headerA with
    | nil => simp
    | cons c cs => simpa using this
  obtain ⟨mA, dA, _⟩ := (C32_text_meaning ct fo h0 _ hnA h.first.bom _ _).1 ⟨a, h.first.accepted, rfl, rfl⟩
  obtain ⟨mB, dB, _⟩ := (C32_text_meaning ct fo h0 _ hnB h.second.bom _ _).1 ⟨b, h.second.accepted, rfl, rfl⟩
  obtain ⟨mmA, moreA, a1, a2, a3, a4, a5⟩ := rootFirst_means h.first.root mA
  obtain ⟨mmB, moreB, b1, b2, b3, b4, b5⟩ := rootFirst_means h.second.root mB
  obtain ⟨ga1, ga2, ga3, ga4, ga5⟩ := rootFirst_groups h.first.root
  obtain ⟨gb1, gb2, gb3, gb4, gb5⟩ := rootFirst_groups h.second.root
  have hrest := groupLines_append ct restA restB gb1
  have hbelow : ∀ l ∈ bodyA ++ bodyB, ∀ n, ¬ IsHeader ct l n := by
    intro l hl
    rcases List.mem_append.1 hl with hl | hl
    · exact h.first.root.below l hl
    · exact h.second.root.below l hl
  have hbody : (groupLines ct (bodyA ++ bodyB)).1 = (groupLines ct bodyA).1 ++ (groupLines ct bodyB).1 := by
    have key : ∀ xs : List Str, (∀ l ∈ xs, ∀ n, ¬ IsHeader ct l n) →
        (groupLines ct (xs ++ bodyB)).1 = (groupLines ct xs).1 ++ (groupLines ct bodyB).1 := by
      intro xs
      induction xs with
      | nil => intro _; rfl
      | cons x xs ih =>
        intro hx
        have ih := ih (fun l hl => hx l (List.mem_cons_of_mem _ hl))
        have hs : sectionName? ct x = none := by
          cases hs : sectionName? ct x with
          | none => rfl
          | some n => exact absurd ((sectionName?_iff ct x n).1 hs) (hx x List.mem_cons_self n)
        rw [List.cons_append, groupLines, groupLines, hs]
        split
        · exact ih
        · simp [ih]
    exact key bodyA h.first.root.below
  have hall := groupLines_header ct h.first.root.isHeader ((bodyA ++ bodyB) ++ (restA ++ restB))
  rw [groupLines_body ct (bodyA ++ bodyB) (restA ++ restB) hbelow (by rw [hrest]; exact ga1), hrest, hbody] at hall
  simp only at hall
  have hnr : NoRepeat ((c!"ADDRESS", (groupLines ct bodyA).1 ++ (groupLines ct bodyB).1) ::
      ((groupLines ct restA).2 ++ (groupLines ct restB).2)) := by
    refine List.pairwise_cons.2 ⟨?_, List.pairwise_append.2 ⟨a5, b5, ?_⟩⟩
    · intro g hg _
      rcases List.mem_append.1 hg with hg | hg
      · exact a4 g hg
      · exact b4 g hg
    · intro g hg g' hg' _ e
      obtain ⟨⟨x, hx, kx⟩, _⟩ := (groupLines_lines ct restA).2 g hg
      obtain ⟨⟨y, hy, ky⟩, _⟩ := (groupLines_lines ct restB).2 g' hg'
      exact h.apart x hx y hy _ kx (e ▸ ky)
  have hsec : Sections ct fo ((c!"ADDRESS", (groupLines ct bodyA).1 ++ (groupLines ct bodyB).1) ::
      ((groupLines ct restA).2 ++ (groupLines ct restB).2)) ((c!"ADDRESS", mmA ++ mmB) :: (moreA ++ moreB))
      (a.ruleSections ++ b.ruleSections) := by
    refine .metas (by simp [ga3]) ?_ ?_ (sections_append a3 b3)
    · intro l hl
      rcases List.mem_append.1 hl with hl | hl
      · exact ga4 l hl
      · exact gb4 l hl
    · rw [metasMean_iff] at a2 b2 ⊢
      rw [a2, b2, List.filterMap_append]
  have hmem : ∀ m ∈ (c!"ADDRESS", mmA ++ mmB) :: (moreA ++ moreB), ∀ refs ∈ m.2,
      (∃ m' ∈ a.metaNames, refs ∈ m'.2) ∨ ∃ m' ∈ b.metaNames, refs ∈ m'.2 := by
    intro m hm refs hr
    rw [a1, b1]
    rcases List.mem_cons.1 hm with rfl | hm
    · rcases List.mem_append.1 hr with hr | hr
      · exact Or.inl ⟨_, List.mem_cons_self, hr⟩
      · exact Or.inr ⟨_, List.mem_cons_self, hr⟩
    · rcases List.mem_append.1 hm with hm | hm
      · exact Or.inl ⟨m, List.mem_cons_of_mem _ hm, hr⟩
      · exact Or.inr ⟨m, List.mem_cons_of_mem _ hm, hr⟩
  have hdang : ¬ Dangling ((c!"ADDRESS", mmA ++ mmB) :: (moreA ++ moreB)) (a.ruleSections ++ b.ruleSections) := by
    rintro ⟨m, hm, refs, hr, n, hnn, n1, n2⟩
    simp only [List.map_cons, List.map_append, List.mem_cons, List.mem_append, not_or] at n1 n2
    rcases hmem m hm refs hr with ⟨m', hm', hr'⟩ | ⟨m', hm', hr'⟩
    · refine dA ⟨m', hm', refs, hr', n, hnn, ?_, n2.1⟩
      rw [a1, List.map_cons, List.mem_cons, not_or]
      exact ⟨n1.1, n1.2.1⟩
    · refine dB ⟨m', hm', refs, hr', n, hnn, ?_, n2.2⟩
      rw [b1, List.map_cons, List.mem_cons, not_or]
      exact ⟨n1.1, n1.2.2⟩
  obtain ⟨g, hg, hgm, hgr⟩ := (C32_text_meaning ct fo h0 _ hn hb _ _).2
    ⟨⟨_, (groups_iff ct _ _ _).2 hall, hnr, hsec⟩, hdang, Or.inl (by simp)⟩
  refine ⟨g, hg, ⟨mmA, mmB, by rw [a1]; simp, by rw [b1]; simp, by rw [hgm]; simp⟩, ?_, ?_, ?_⟩
  · intro s hs hne
    rw [hgm]
    rw [a1, b1] at hs
    rcases hs with hs | hs
    · rcases List.mem_cons.1 hs with rfl | hs
      · exact absurd rfl hne
      · simp [hs]
    · rcases List.mem_cons.1 hs with rfl | hs
      · exact absurd rfl hne
      · simp [hs]
  · intro s hs
    rw [hgr]
    exact List.mem_append.2 hs
  · intro s hs refs hr
    rcases hs with hs | hs
    · obtain ⟨gs, k1, _, k3⟩ := mA
      obtain ⟨x, hx, l, hl, e⟩ := sections_refs k3 s hs refs hr
      have hll : l ∈ headerA :: (bodyA ++ restA) := by
        rw [groups_iff] at k1
        exact ((groupLines_lines ct _).2 x (by rw [k1]; exact hx)).2 l hl
      exact h.first.free l hll refs e
    · obtain ⟨gs, k1, _, k3⟩ := mB
      obtain ⟨x, hx, l, hl, e⟩ := sections_refs k3 s hs refs hr
      have hll : l ∈ headerB :: (bodyB ++ restB) := by
        rw [groups_iff] at k1
        exact ((groupLines_lines ct _).2 x (by rw [k1]; exact hx)).2 l hl
      exact h.second.free l hll refs e

/-- An address standardized with the text of both: the result is that of the one text or that of the other, and there is an
address exactly if there is one with one of the two. -/
theorem C112_address (env : Env F D) {nan : F → Prop} (nl : NanLaws env.fo nan) (signs : SignLaws env.fo)
    (h0 : env.fo.le0 env.fo.zero = true) {headerA headerB : Str} {bodyA restA bodyB restB : List Str} {a b : Grammar F}
    (h : TwoTexts env.u.toCharTables env.fo headerA bodyA restA headerB bodyB restB a b) (address lexicon locale filter : Str) :
    let both := stdStandardize env address (bothTexts headerA bodyA restA bodyB restB) lexicon locale filter
    let one := stdStandardize env address (unlines (headerA :: (bodyA ++ restA))) lexicon locale filter
    let other := stdStandardize env address (unlines (headerB :: (bodyB ++ restB))) lexicon locale filter
    (both = one ∨ both = other) ∧
    ((∃ x, both = some ⟨some x, none⟩) ↔ (∃ x, one = some ⟨some x, none⟩) ∨ ∃ x, other = some ⟨some x, none⟩) := by
  obtain ⟨g, hg, ht⟩ := C112_text _ env.fo h0 h
  obtain ⟨wfG, hbG, _⟩ := C29_constructed_wf _ env.fo h0 _ g hg
  obtain ⟨wfA, hbA, _⟩ := C29_constructed_wf _ env.fo h0 _ a h.first.accepted
  obtain ⟨wfB, hbB, _⟩ := C29_constructed_wf _ env.fo h0 _ b h.second.accepted
  have lG : loadGrammar env (bothTexts headerA bodyA restA bodyB restB) = .ok g := by unfold loadGrammar; rw [hg]
  have lA : loadGrammar env (unlines (headerA :: (bodyA ++ restA))) = .ok a := by unfold loadGrammar; rw [h.first.accepted]
  have lB : loadGrammar env (unlines (headerB :: (bodyB ++ restB))) = .ok b := by unfold loadGrammar; rw [h.second.accepted]
  intro both one other
  simp only [both, one, other, stdStandardize, lG, lA, lB]
  cases hlex : loadLexicon env lexicon with
  | undefined => simp
  | throws m => simp
  | ok l =>
    simp only
    cases hp : phrasesOf env l locale filter address with
    | undefined => simp [standardizeAddr, standardizeAddrWith, hp]
    | throws m => simp [standardizeAddr, standardizeAddrWith, hp]
    | ok phrases =>
      obtain ⟨ra, rb, r, k1, k2, k3, k4, _⟩ := C112_best nl signs.neg_lt wfG wfA wfB hbG hbA hbB ht phrases
      have hor : standardizeAddr env g l locale filter address = standardizeAddr env a l locale filter address ∨
          standardizeAddr env g l locale filter address = standardizeAddr env b l locale filter address := by
        unfold standardizeAddr standardizeAddrWith
        simp only [hp, k1, k2, k3]
        rcases k4 with rfl | rfl
        · exact Or.inl rfl
        · exact Or.inr rfl
      refine ⟨hor, ?_, ?_⟩
      · rintro ⟨x, hx⟩
        rcases hor with e | e
        · exact Or.inl ⟨x, e ▸ hx⟩
        · exact Or.inr ⟨x, e ▸ hx⟩
      · intro hx
        have ha : env.alloc 1 = true := by
          cases ha : env.alloc 1 with
          | true => rfl
          | false =>
            have no : ∀ (c : Grammar F) x, standardizeAddr env c l locale filter address ≠ some ⟨some x, none⟩ := by
              intro c x hcx
              unfold standardizeAddr standardizeAddrWith at hcx
              rw [hp] at hcx
              simp only [ha] at hcx
              split at hcx
              · cases hcx
              · simp at hcx
              · split at hcx
                · split at hcx
                  · cases hcx
                  · simp at hcx
                · simp at hcx
            rcases hx with ⟨x, hx⟩ | ⟨x, hx⟩ <;> exact absurd hx (no _ x)
        rcases C48_address_iff_match env nl.toLtLaws signs h0 ha _ g lG l locale filter address phrases hp with
          ⟨y, hy, _⟩ | ⟨_, hnone⟩
        · exact ⟨y, hy⟩
        · exfalso
          have part : ∀ phrase ∈ phrases, search a c!"ADDRESS" phrase = .ok [] ∧ search b c!"ADDRESS" phrase = .ok [] := by
            intro phrase hph
            obtain ⟨x, y, z, s1, s2, s3, s4, _⟩ := search_together wfG wfA wfB ht phrase
            rw [hnone phrase hph, Outcome.ok.injEq] at s3
            subst s3
            cases s4
            exact ⟨s1, s2⟩
          rcases hx with ⟨x, hx⟩ | ⟨x, hx⟩
          · rcases C48_address_iff_match env nl.toLtLaws signs h0 ha _ a lA l locale filter address phrases hp with
              ⟨_, _, ph, hph, ⟨res, s, hne⟩, _⟩ | ⟨e, _⟩
            · rw [(part ph hph).1, Outcome.ok.injEq] at s
              exact hne s.symm
            · rw [e] at hx; cases hx
          · rcases C48_address_iff_match env nl.toLtLaws signs h0 ha _ b lB l locale filter address phrases hp with
              ⟨_, _, ph, hph, ⟨res, s, hne⟩, _⟩ | ⟨e, _⟩
            · rw [(part ph hph).2, Outcome.ok.injEq] at s
              exact hne s.symm
            · rw [e] at hx; cases hx

/-! ### All matches -/

/-- The rows for these matches: the one row that says there is none if there is none. -/
def orFailed (dops : FloatOps D) (rows : List (MatchRow D)) : List (MatchRow D) :=
  if rows.isEmpty then [⟨c!"Failed to match to grammar!", dops.ofInt (-1), dops.ofInt (-1)⟩] else rows

theorem found_together {G A B : Grammar F} (dops : FloatOps D) (widen : F → D) (wfG : WfGrammar G) (wfA : WfGrammar A)
    (wfB : WfGrammar B) (h : Together G A B) : ∀ (phrases : List (List Token)) (xs ys zs : List (List (SearchPath F))),
    phrases.map (search A c!"ADDRESS") = xs.map .ok → phrases.map (search B c!"ADDRESS") = ys.map .ok →
    phrases.map (search G c!"ADDRESS") = zs.map .ok →
    Interleaved ((phrases.zip xs).flatMap (fun q => q.2.map (rowFor dops widen q.1)))
      ((phrases.zip ys).flatMap (fun q => q.2.map (rowFor dops widen q.1)))
      ((phrases.zip zs).flatMap (fun q => q.2.map (rowFor dops widen q.1)))
  | [], xs, ys, zs, _, _, _ => by simpa using Interleaved.nil
  | p :: ps, xs, ys, zs, hx, hy, hz => by
    cases xs with
    | nil => simp at hx
    | cons x xs =>
    cases ys with
    | nil => simp at hy
    | cons y ys =>
    cases zs with
    | nil => simp at hz
    | cons z zs =>
      simp only [List.map_cons, List.cons.injEq] at hx hy hz
      obtain ⟨a, b, c, s1, s2, s3, s4, _⟩ := search_together wfG wfA wfB h p
      rw [hx.1, Outcome.ok.injEq] at s1
      rw [hy.1, Outcome.ok.injEq] at s2
      rw [hz.1, Outcome.ok.injEq] at s3
      subst s1 s2 s3
      simp only [List.zip_cons_cons, List.flatMap_cons]
      exact (s4.map _).append (found_together dops widen wfG wfA wfB h ps xs ys zs hx.2 hy.2 hz.2)

theorem rows_found (env : Env F D) (hsort : SortContract env.sort) {g : Grammar F} (wf : WfGrammar g) (hb : Balanced g)
    (hr : HasRoot g) (l : Lexicon) (locale filter address : Str) (phrases : List (List Token))
    (hp : phrasesOf env l locale filter address = .ok phrases) {rows : List (MatchRow D)} {err : Option Str}
    (h : matchAddr env g l locale filter address = some ⟨some rows, err⟩) :
    ∃ rss : List (List (SearchPath F)), phrases.map (search g c!"ADDRESS") = rss.map .ok ∧
      rows.Perm (orFailed env.dops
        (((phrases.zip rss).flatMap (fun q => q.2.map (rowFor env.dops env.widen q.1))).map reported)) := by
  obtain ⟨rss, h1, h2⟩ := rowsOfAll_eq env.dops env.widen wf hb hr phrases
  refine ⟨rss, h1, ?_⟩
  unfold matchAddr matchAddrWith at h
  rw [hp] at h
  simp only [searchAndReclassAll, h2] at h
  generalize (phrases.zip rss).flatMap (fun q => q.2.map (rowFor env.dops env.widen q.1)) = found at h ⊢
  have key : ∀ toks : List (MatchResult D),
      (if strictWeakOn (sortByScoresDesc env.dops) toks then
        let toks := env.sort (sortByScoresDesc env.dops) toks
        if ¬ env.alloc toks.length then some ⟨none, some c!"Out of memory!"⟩
        else if toks.length ≥ 2 ^ 31 then none
        else some ⟨some (toks.map (fun t => ({ tokens := cstr t.matched, score := t.score, nrules := t.nrules } : MatchRow D))), none⟩
      else none) = some (⟨some rows, err⟩ : Ret (List (MatchRow D))) → rows.Perm (toks.map reported) := by
    intro toks h
    split at h
    · next hsw =>
      obtain ⟨w1, w2, w3⟩ := (strictWeakOn_iff _ _).1 hsw
      obtain ⟨hperm, _⟩ := hsort (sortByScoresDesc env.dops) toks w1 w2 w3
      simp only at h
      split at h
      · simp at h
      · split at h
        · cases h
        · simp only [Option.some.injEq, Ret.mk.injEq] at h
          rw [← h.1]
          exact hperm.map _
    · cases h
  cases found with
  | nil => exact key _ h
  | cons x xs => exact key _ h

theorem arrow_in (ts : List Token) : '>' ∈ patternText ts := by
  unfold patternText
  have key : ∀ (xs ys : List Str), '>' ∈ joinWith c!" " (xs ++ [c!"->"] ++ ys) := by
    intro xs ys
    induction xs with
    | nil => cases ys <;> simp [joinWith]
    | cons x xs ih =>
      cases h : xs ++ [c!"->"] ++ ys with
      | nil => simp at h
      | cons z zs =>
        rw [List.cons_append, List.cons_append, h, joinWith]
        rw [h] at ih
        exact List.mem_append_right _ ih
  exact key _ _

/-- All matches listed with the text of both: those listed with the one text and those listed with the other, where the row
that says there is none counts for nothing. -/
theorem C112_rows (env : Env F D) (hsort : SortContract env.sort) (h0 : env.fo.le0 env.fo.zero = true)
    {headerA headerB : Str} {bodyA restA bodyB restB : List Str} {a b : Grammar F}
    (h : TwoTexts env.u.toCharTables env.fo headerA bodyA restA headerB bodyB restB a b) (address lexicon locale filter : Str)
    (both one other : List (MatchRow D)) (eG eA eB : Option Str)
    (hG : stdMatchAddress env address (bothTexts headerA bodyA restA bodyB restB) lexicon locale filter = some ⟨some both, eG⟩)
    (hA : stdMatchAddress env address (unlines (headerA :: (bodyA ++ restA))) lexicon locale filter = some ⟨some one, eA⟩)
    (hB : stdMatchAddress env address (unlines (headerB :: (bodyB ++ restB))) lexicon locale filter = some ⟨some other, eB⟩) :
    ∃ xs ys : List (MatchRow D), (∀ row ∈ xs ++ ys, row.tokens ≠ c!"Failed to match to grammar!") ∧
      one.Perm (orFailed env.dops xs) ∧ other.Perm (orFailed env.dops ys) ∧ both.Perm (orFailed env.dops (xs ++ ys)) := by
  obtain ⟨g, hg, ht⟩ := C112_text _ env.fo h0 h
  obtain ⟨wfG, hbG, hrG⟩ := C29_constructed_wf _ env.fo h0 _ g hg
  obtain ⟨wfA, hbA, hrA⟩ := C29_constructed_wf _ env.fo h0 _ a h.first.accepted
  obtain ⟨wfB, hbB, hrB⟩ := C29_constructed_wf _ env.fo h0 _ b h.second.accepted
  have lG : loadGrammar env (bothTexts headerA bodyA restA bodyB restB) = .ok g := by unfold loadGrammar; rw [hg]
  have lA : loadGrammar env (unlines (headerA :: (bodyA ++ restA))) = .ok a := by unfold loadGrammar; rw [h.first.accepted]
  have lB : loadGrammar env (unlines (headerB :: (bodyB ++ restB))) = .ok b := by unfold loadGrammar; rw [h.second.accepted]
  unfold stdMatchAddress at hG hA hB
  rw [lG] at hG
  rw [lA] at hA
  rw [lB] at hB
  simp only at hG hA hB
  cases hlex : loadLexicon env lexicon with
  | undefined => rw [hlex] at hG; cases hG
  | throws m => rw [hlex] at hG; simp at hG
  | ok l =>
    rw [hlex] at hG hA hB
    simp only at hG hA hB
    cases hp : phrasesOf env l locale filter address with
    | undefined => simp [matchAddr, matchAddrWith, hp] at hG
    | throws m => simp [matchAddr, matchAddrWith, hp] at hG
    | ok phrases =>
      obtain ⟨zs, z1, z2⟩ := rows_found env hsort wfG hbG hrG l locale filter address phrases hp hG
      obtain ⟨xs, x1, x2⟩ := rows_found env hsort wfA hbA hrA l locale filter address phrases hp hA
      obtain ⟨ys, y1, y2⟩ := rows_found env hsort wfB hbB hrB l locale filter address phrases hp hB
      have hi := (found_together env.dops env.widen wfG wfA wfB ht phrases xs ys zs x1 y1 z1).map reported
      have real : ∀ (rss : List (List (SearchPath F))), ∀ row ∈ ((phrases.zip rss).flatMap
          (fun q => q.2.map (rowFor env.dops env.widen q.1))).map reported, row.tokens ≠ c!"Failed to match to grammar!" := by
        intro rss row hrow e
        obtain ⟨t, ht, rfl⟩ := List.mem_map.1 hrow
        obtain ⟨q, _, ht⟩ := List.mem_flatMap.1 ht
        obtain ⟨p, _, rfl⟩ := List.mem_map.1 ht
        have hno : '\x00' ∉ patternText (reclassed q.1 p) := patternText_noNul _ _ _
        have harrow := arrow_in (reclassed q.1 p)
        simp only [reported, rowFor] at e
        rw [← cstr_upToNul, Archive.cstr_free hno] at e
        rw [e] at harrow
        revert harrow
        decide
      refine ⟨_, _, ?_, x2, y2, z2.trans ?_⟩
      · intro row hrow
        rcases List.mem_append.1 hrow with hrow | hrow
        · exact real xs row hrow
        · exact real ys row hrow
      · have hperm := hi.perm
        unfold orFailed
        split
        · next he =>
          rw [List.isEmpty_iff] at he
          rw [he] at hperm
          rw [hperm.symm.eq_nil]
          exact .refl _
        · next he =>
          rw [if_neg]
          · exact hperm
          · intro he'
            rw [List.isEmpty_iff] at he'
            rw [he'] at hperm
            exact he (by rw [hperm.eq_nil]; rfl)

/-! ### References to ADDRESS, examples -/

def selfBody : List Str := [c!"@N @ADDRESS", c!"@N"]
def selfRest : List Str := [c!"[N]", c!"NUMBER -> HOUSE -> 0.5"]
def wordBody : List Str := [c!"@W", c!"", c!"# that is all"]
def wordRest : List Str := [c!"[W]", c!"NUMBER WORD -> HOUSE STREET -> 0.4", c!"WORD -> STREET -> 0.5"]
def townBody : List Str := [c!"@T @Z", c!"@Z"]
def townRest : List Str := [c!"[T]", c!"NUMBER -> HOUSE -> 0.5", c!"[Z]", c!"CITY TYPE -> CITY SUFTYP -> 0.3", c!"WORD -> CITY -> 0.4"]

/-- With a reference to ADDRESS the grammar made of both matches more: a house number by the one grammar, then the rest by the
other. -/
theorem C112_recursive : ∃ a b : Grammar Rat,
    Grammar.initialize exEnv.u.toCharTables exEnv.fo (unlines (c!"[ADDRESS]" :: (selfBody ++ selfRest))) = .ok a ∧
    Grammar.initialize exEnv.u.toCharTables exEnv.fo (unlines (c!"[ADDRESS]" :: (wordBody ++ [c!"[W]", c!"WORD -> STREET -> 0.5"]))) = .ok b ∧
    stdStandardize exEnv c!"12 main" (unlines (c!"[ADDRESS]" :: (selfBody ++ selfRest))) exTown c!"en" c!"SPACE" = some ⟨none, none⟩ ∧
    stdStandardize exEnv c!"12 main" (unlines (c!"[ADDRESS]" :: (wordBody ++ [c!"[W]", c!"WORD -> STREET -> 0.5"]))) exTown c!"en"
      c!"SPACE" = some ⟨none, none⟩ ∧
    (stdStandardize exEnv c!"12 main" (bothTexts c!"[ADDRESS]" selfBody selfRest wordBody [c!"[W]", c!"WORD -> STREET -> 0.5"]) exTown
      c!"en" c!"SPACE").map (fun r => r.value.map (·.pattern)) = some (some (some c!"NUMBER WORD -> HOUSE STREET")) := by
  obtain ⟨a, ha, -⟩ := exists_ok (P := fun g : Grammar Rat => g.ruleSections ≠ [])
    (r := Grammar.initialize exEnv.u.toCharTables exEnv.fo (unlines (c!"[ADDRESS]" :: (selfBody ++ selfRest)))) (by decide +kernel)
  obtain ⟨b, hb, -⟩ := exists_ok (P := fun g : Grammar Rat => g.ruleSections ≠ [])
    (r := Grammar.initialize exEnv.u.toCharTables exEnv.fo
      (unlines (c!"[ADDRESS]" :: (wordBody ++ [c!"[W]", c!"WORD -> STREET -> 0.5"])))) (by decide +kernel)
  exact ⟨a, b, ha, hb, by decide +kernel, by decide +kernel, by decide +kernel⟩

theorem rootFirst_of {ct : CharTables} {header : Str} {body rest : List Str}
    (h : sectionName? ct header = some c!"ADDRESS" ∧ (∀ l ∈ body, sectionName? ct l = none) ∧
      (∀ l ∈ body, isCommentLine ct l = false → '@' ∈ l) ∧ (∃ l ∈ body, isCommentLine ct l = false) ∧
      (rest = [] ∨ (rest.head?.bind (sectionName? ct)).isSome)) : RootFirst ct header body rest where
  isHeader := (sectionName?_iff ct header _).1 h.1
  below l hl := noHeader (h.2.1 l hl)
  refs l hl hc := h.2.2.1 l hl (by
    cases hh : isCommentLine ct l with
    | false => rfl
    | true => exact absurd ((isCommentLine_iff ct l).1 hh) hc)
  inhabited := by
    obtain ⟨l, hl, e⟩ := h.2.2.2.1
    exact ⟨l, hl, fun hc => by rw [(isCommentLine_iff ct l).2 hc] at e; cases e⟩
  sections := by
    rcases h.2.2.2.2 with h | h
    · exact Or.inl h
    · cases rest with
      | nil => exact Or.inl rfl
      | cons x xs =>
        simp only [List.head?_cons, Option.bind_some] at h
        obtain ⟨n, hn⟩ := Option.isSome_iff_exists.1 h
        exact Or.inr ⟨x, xs, n, rfl, (sectionName?_iff ct x n).1 hn⟩

theorem free_of {ct : CharTables} {ls : List Str} (h : ∀ l ∈ ls, ∀ ns ∈ refsOf? ct l, c!"ADDRESS" ∉ ns) :
    ∀ l ∈ ls, ∀ ns, IsRefs ct l ns → c!"ADDRESS" ∉ ns :=
  fun l hl ns hns => h l hl ns ((refsOf?_some _ l ns).2 hns)

theorem twoTexts_example : ∃ a b : Grammar Rat,
    TwoTexts exEnv.u.toCharTables exEnv.fo c!"[ADDRESS]" townBody townRest c!" [ADDRESS] " wordBody wordRest a b := by
  obtain ⟨a, ha, -⟩ := exists_ok (P := fun g : Grammar Rat => g.ruleSections ≠ [])
    (r := Grammar.initialize exEnv.u.toCharTables exEnv.fo (unlines (c!"[ADDRESS]" :: (townBody ++ townRest)))) (by decide +kernel)
  obtain ⟨b, hb, -⟩ := exists_ok (P := fun g : Grammar Rat => g.ruleSections ≠ [])
    (r := Grammar.initialize exEnv.u.toCharTables exEnv.fo (unlines (c!" [ADDRESS] " :: (wordBody ++ wordRest)))) (by decide +kernel)
  refine ⟨a, b, ⟨rootFirst_of (by decide +kernel), by decide, by unfold NoBom; decide, free_of (by decide +kernel), ha⟩,
    ⟨rootFirst_of (by decide +kernel), by decide, by unfold NoBom; decide, free_of (by decide +kernel), hb⟩, ?_⟩
  have key : ∀ h ∈ townRest, ∀ h' ∈ wordRest, sectionName? exEnv.u.toCharTables h ≠ none →
      sectionName? exEnv.u.toCharTables h ≠ sectionName? exEnv.u.toCharTables h' := by decide +kernel
  intro h hh h' hh' n hn hn'
  have e := (sectionName?_iff _ _ _).2 hn
  have e' := (sectionName?_iff _ _ _).2 hn'
  exact key h hh h' hh' (by rw [e]; simp) (by rw [e, e'])

/-- The hypotheses hold of the example. One address is standardized by the first text, one by the second; `12 main` matches
with both, and the better score counts; all matches are listed. -/
example : NanLaws exEnv.fo (fun _ => False) ∧ SignLaws exEnv.fo ∧ exEnv.fo.le0 exEnv.fo.zero = true ∧
    (∃ a b, TwoTexts exEnv.u.toCharTables exEnv.fo c!"[ADDRESS]" townBody townRest c!" [ADDRESS] " wordBody wordRest a b) ∧
    [c!"12 new york str", c!"main", c!"12 main"].map (fun address =>
      [bothTexts c!"[ADDRESS]" townBody townRest wordBody wordRest, unlines (c!"[ADDRESS]" :: (townBody ++ townRest)),
        unlines (c!" [ADDRESS] " :: (wordBody ++ wordRest))].map (fun text =>
        (stdStandardize exEnv address text exTown c!"en" c!"SPACE").map (fun r => r.value.bind (·.pattern)))) =
    [[some (some c!"NUMBER CITY TYPE -> HOUSE CITY SUFTYP"), some (some c!"NUMBER CITY TYPE -> HOUSE CITY SUFTYP"), some none],
     [some (some c!"WORD -> STREET"), some (some c!"WORD -> CITY"), some (some c!"WORD -> STREET")],
     [some (some c!"NUMBER WORD -> HOUSE CITY"), some (some c!"NUMBER WORD -> HOUSE CITY"), some (some c!"NUMBER WORD -> HOUSE STREET")]] :=
  ⟨ratOps_mono.toNanLaws, ratOps_signs, by decide, twoTexts_example, by decide +kernel⟩

/-- All matches of `12 main` and of `12`: those of the one text, those of the other. -/
example : SortContract exEnv.sort ∧
    [c!"12 main", c!"12 new york str", c!"12"].map (fun address =>
      [bothTexts c!"[ADDRESS]" townBody townRest wordBody wordRest, unlines (c!"[ADDRESS]" :: (townBody ++ townRest)),
        unlines (c!" [ADDRESS] " :: (wordBody ++ wordRest))].map (fun text =>
        (stdMatchAddress exEnv address text exTown c!"en" c!"SPACE").bind (fun r => r.value.map (·.map (·.tokens))))) =
    [[some [c!"NUMBER WORD -> HOUSE CITY", c!"NUMBER WORD -> HOUSE STREET"], some [c!"NUMBER WORD -> HOUSE CITY"],
        some [c!"NUMBER WORD -> HOUSE STREET"]],
     [some [c!"NUMBER CITY TYPE -> HOUSE CITY SUFTYP"], some [c!"NUMBER CITY TYPE -> HOUSE CITY SUFTYP"],
        some [c!"Failed to match to grammar!"]],
     [some [c!"Failed to match to grammar!"], some [c!"Failed to match to grammar!"], some [c!"Failed to match to grammar!"]]] :=
  ⟨insertionSort_contract, by decide +kernel⟩

/-- Grammars that meet the hypotheses of `C112_matches`, `C112_best` and `C112_priority`, with a phrase that matches in both. -/
example : ∃ g a b : Grammar Rat, WfGrammar g ∧ WfGrammar a ∧ WfGrammar b ∧ Balanced g ∧ Balanced a ∧ Balanced b ∧ Together g a b ∧
    NanLaws ratOps (fun _ => False) ∧ ratOps.lt (ratOps.ofInt (-1)) ratOps.zero = true ∧
    (∀ t ∈ [({ inclass := [.NUMBER] } : Token), { inclass := [.WORD] }], t.inclass.length = 1) := by
  obtain ⟨a, b, h⟩ := twoTexts_example
  obtain ⟨g, hg, ht⟩ := C112_text exEnv.u.toCharTables exEnv.fo (by decide) h
  obtain ⟨wfG, hbG, _⟩ := C29_constructed_wf _ exEnv.fo (by decide) _ g hg
  obtain ⟨wfA, hbA, _⟩ := C29_constructed_wf _ exEnv.fo (by decide) _ a h.first.accepted
  obtain ⟨wfB, hbB, _⟩ := C29_constructed_wf _ exEnv.fo (by decide) _ b h.second.accepted
  exact ⟨g, a, b, wfG, wfA, wfB, hbG, hbA, hbB, ht, ratOps_mono.toNanLaws, by decide, by decide⟩

end AS.Props
