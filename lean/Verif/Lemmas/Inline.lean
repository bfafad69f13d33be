import Verif.Spec.Inline
import Verif.Spec.Search
import Verif.Lemmas.Alike
/-
Derivations of grammars in which the references to a section are written out.
-/
namespace AS
variable {F : Type}

/-- Derivations one after the other. -/
theorem derives_append {G : Grammar F} {as : List Str} {rs : List (Rule F)} {m : Nat} (h : Derives G as rs m)
    {bs : List Str} {qs : List (Rule F)} {k : Nat} (h' : Derives G bs qs k) : Derives G (as ++ bs) (rs ++ qs) (m + k) := by
  induction h with
  | done => simpa using h'
  | rule h1 h2 h3 _ ih => exact .rule h1 h2 h3 ih
  | @expand s ss sec refs rs m h1 h2 h3 _ ih =>
    rw [show m + 1 + k = m + k + 1 by omega]
    refine .expand h1 h2 h3 ?_
    rw [List.append_assoc] at ih
    exact ih

theorem derives_split {G : Grammar F} {ss : List Str} {rs : List (Rule F)} {m : Nat} (h : Derives G ss rs m) :
    ∀ as bs, ss = as ++ bs → ∃ r1 r2 m1 m2, rs = r1 ++ r2 ∧ m = m1 + m2 ∧ Derives G as r1 m1 ∧ Derives G bs r2 m2 := by
  induction h with
  | done =>
    intro as bs e
    obtain ⟨rfl, rfl⟩ := List.append_eq_nil_iff.1 e.symm
    exact ⟨[], [], 0, 0, rfl, rfl, .done, .done⟩
  | @rule s ss sec r rs m h1 h2 h3 hd ih =>
    intro as bs e
    cases as with
    | nil => cases e; exact ⟨[], _, 0, m, rfl, by omega, .done, .rule h1 h2 h3 hd⟩
    | cons a as =>
      cases e
      obtain ⟨r1, r2, m1, m2, rfl, rfl, d1, d2⟩ := ih as bs rfl
      exact ⟨r :: r1, r2, m1, m2, rfl, rfl, .rule h1 h2 h3 d1, d2⟩
  | @expand s ss sec refs rs m h1 h2 h3 hd ih =>
    intro as bs e
    cases as with
    | nil => cases e; exact ⟨[], _, 0, m + 1, rfl, by omega, .done, .expand h1 h2 h3 hd⟩
    | cons a as =>
      cases e
      obtain ⟨r1, r2, m1, m2, rfl, rfl, d1, d2⟩ := ih (refs.map (·.name) ++ as) bs (by simp)
      exact ⟨r1, r2, m1 + 1, m2, rfl, by omega, .expand h1 h2 h3 d1, d2⟩

/-- A derivation step by a line of references, in terms of the names. -/
theorem Derives.line {G : Grammar F} {a : Str} {rules : List (List Str)} {refs ss : List Str} {rs : List (Rule F)} {m : Nat}
    (h : (a, rules) ∈ G.metaNames) (hr : refs ∈ rules) (hd : Derives G (refs ++ ss) rs m) : Derives G (a :: ss) rs (m + 1) := by
  obtain ⟨sec, hs, e⟩ := List.mem_map.1 h
  simp only [Prod.mk.injEq] at e
  obtain ⟨e1, rfl⟩ := e
  obtain ⟨rf, hrf, rfl⟩ := List.mem_map.1 hr
  exact .expand hs e1 hrf hd

theorem mem_metaNames {G : Grammar F} {sec : MetaSection} {refs : MetaRule} (h : sec ∈ G.metas) (hr : refs ∈ sec.rules) :
    (sec.name, sec.rules.map (·.map (·.name))) ∈ G.metaNames ∧ refs.map (·.name) ∈ sec.rules.map (·.map (·.name)) :=
  ⟨List.mem_map.2 ⟨sec, h, rfl⟩, List.mem_map.2 ⟨refs, hr, rfl⟩⟩

theorem metaNames_unique {G : Grammar F} (wf : WfGrammar G) {a : Str} {l l' : List (List Str)}
    (h : (a, l) ∈ G.metaNames) (h' : (a, l') ∈ G.metaNames) : l = l' := by
  have hd : (G.metaNames.map (·.1)).Nodup := by
    have := (List.nodup_append.1 wf.distinct).1
    unfold Grammar.metaNames
    rw [List.map_map]
    exact this
  revert h h' hd
  generalize G.metaNames = ms
  induction ms with
  | nil => intro h; cases h
  | cons s ms ih =>
    intro h h' hd
    simp only [List.map_cons, List.nodup_cons] at hd
    rcases List.mem_cons.1 h with e | h
    · rcases List.mem_cons.1 h' with e' | h'
      · rw [← e] at e'; cases e'; rfl
      · exact absurd (List.mem_map.2 ⟨_, h', by rw [← e]⟩) hd.1
    · rcases List.mem_cons.1 h' with e' | h'
      · exact absurd (List.mem_map.2 ⟨_, h, by rw [← e']⟩) hd.1
      · exact ih h h' hd.2

/-- Names of which some are marked to be written out; the ways to do so. -/
inductive Out (t : Str) (ls : List (List Str)) : List (Str × Bool) → List Str → Prop
  | nil : Out t ls [] []
  | keep {n : Str} {b : Bool} {xs : List (Str × Bool)} {ns : List Str} :
      (b = true → n ≠ t) → Out t ls xs ns → Out t ls ((n, b) :: xs) (n :: ns)
  | put {l : List Str} {xs : List (Str × Bool)} {ns : List Str} :
      l ∈ ls → Out t ls xs ns → Out t ls ((t, true) :: xs) (l ++ ns)

theorem Out.split_false {t : Str} {ls : List (List Str)} : ∀ {refs : List Str} {xs : List (Str × Bool)} {ns : List Str},
    Out t ls (refs.map (·, false) ++ xs) ns → ∃ ns', ns = refs ++ ns' ∧ Out t ls xs ns'
  | [], _, ns, h => ⟨ns, rfl, h⟩
  | r :: refs, xs, ns, h => by
    rw [List.map_cons, List.cons_append] at h
    cases h with
    | keep _ h =>
      obtain ⟨ns', rfl, h'⟩ := Out.split_false h
      exact ⟨ns', rfl, h'⟩

theorem Out.split_true {t : Str} {ls : List (List Str)} : ∀ {refs : List Str} {xs : List (Str × Bool)} {ns : List Str},
    Out t ls (refs.map (·, true) ++ xs) ns → ∃ refs' ns', ns = refs' ++ ns' ∧ refs' ∈ writeOut t ls refs ∧ Out t ls xs ns'
  | [], _, ns, h => ⟨[], ns, rfl, by simp [writeOut], h⟩
  | r :: refs, xs, ns, h => by
    rw [List.map_cons, List.cons_append] at h
    cases h with
    | keep hb h =>
      obtain ⟨refs', ns', rfl, hm, h'⟩ := Out.split_true h
      refine ⟨r :: refs', ns', rfl, ?_, h'⟩
      rw [writeOut, if_neg (hb rfl)]
      exact List.mem_map.2 ⟨refs', hm, rfl⟩
    | @put l _ _ hl h =>
      obtain ⟨refs', ns', rfl, hm, h'⟩ := Out.split_true h
      refine ⟨l ++ refs', ns', by simp, ?_, h'⟩
      rw [writeOut, if_pos rfl]
      exact List.mem_flatMap.2 ⟨l, hl, List.mem_map.2 ⟨refs', hm, rfl⟩⟩

/-- Sections of the first grammar in the second. -/
theorem inlined_lines {t : Str} {G H : Grammar F} {ls : List (List Str)}
    (ha : Alike (G.metaNames.map (fun s => if s.1 = t then s else (s.1, s.2.flatMap (writeOut t ls)))) H.metaNames)
    {a : Str} {rules : List (List Str)} (h : (a, rules) ∈ G.metaNames) :
    ∃ rules', (a, rules') ∈ H.metaNames ∧
      ∀ x, x ∈ rules' ↔ x ∈ (if a = t then rules else rules.flatMap (writeOut t ls)) := by
  have hm : (a, if a = t then rules else rules.flatMap (writeOut t ls)) ∈
      G.metaNames.map (fun s => if s.1 = t then s else (s.1, s.2.flatMap (writeOut t ls))) := by
    refine List.mem_map.2 ⟨_, h, ?_⟩
    by_cases e : a = t <;> simp [e]
  obtain ⟨⟨b, ys⟩, hs, e1, e2⟩ := ha.find _ hm
  cases e1
  exact ⟨ys, hs, fun x => (e2 x).symm⟩

/-- Sections of the second grammar in the first. -/
theorem lines_inlined {t : Str} {G H : Grammar F} {ls : List (List Str)}
    (ha : Alike (G.metaNames.map (fun s => if s.1 = t then s else (s.1, s.2.flatMap (writeOut t ls)))) H.metaNames)
    {a : Str} {rules' : List (List Str)} (h : (a, rules') ∈ H.metaNames) :
    ∃ rules, (a, rules) ∈ G.metaNames ∧
      ∀ x, x ∈ rules' ↔ x ∈ (if a = t then rules else rules.flatMap (writeOut t ls)) := by
  obtain ⟨⟨b, ys⟩, hs, e1, e2⟩ := ha.symm.find _ h
  obtain ⟨⟨c, rules⟩, hc, e⟩ := List.mem_map.1 hs
  by_cases ec : c = t
  · simp only [ec, if_true, Prod.mk.injEq] at e
    obtain ⟨rfl, rfl⟩ := e
    simp only at e1
    subst e1
    exact ⟨rules, by rw [← ec]; exact hc, fun x => by rw [if_pos rfl]; exact e2 x⟩
  · simp only [ec, if_false, Prod.mk.injEq] at e
    obtain ⟨rfl, rfl⟩ := e
    simp only at e1
    subst e1
    exact ⟨rules, hc, fun x => by rw [if_neg ec]; exact e2 x⟩

/-- What the first grammar derives, the second derives with no more meta rules. -/
theorem inlined_derives {t : Str} {G H : Grammar F} (wf : WfGrammar G) (hi : Inlined t G H) {ss : List Str}
    {rs : List (Rule F)} {m : Nat} (hd : Derives G ss rs m) : ∃ m', m' ≤ m ∧ Derives H ss rs m' := by
  obtain ⟨ls, hls, h1, h2⟩ := hi
  have key : ∀ {ss : List Str} {rs : List (Rule F)} {m : Nat}, Derives G ss rs m → ∀ xs : List (Str × Bool),
      xs.map (·.1) = ss → ∃ ss' m', Out t ls xs ss' ∧ Derives H ss' rs m' ∧ m' ≤ m := by
    intro ss rs m hd
    induction hd with
    | done =>
      intro xs e
      rw [List.map_eq_nil_iff.1 e]
      exact ⟨[], 0, .nil, .done, Nat.le_refl _⟩
    | @rule s ss sec r rs m k1 k2 k3 _ ih =>
      intro xs e
      cases xs with
      | nil => cases e
      | cons x xs =>
        obtain ⟨n, b⟩ := x
        simp only [List.map_cons, List.cons.injEq] at e
        obtain ⟨rfl, e⟩ := e
        obtain ⟨ss', m', o, d, hm⟩ := ih xs e
        obtain ⟨⟨_, ys⟩, hs, e1, e2⟩ := h2.find _ (List.mem_map.2 ⟨sec, k1, rfl⟩ : (sec.name, sec.rules) ∈ G.ruleSections)
        obtain ⟨sec', hs', e'⟩ := List.mem_map.1 hs
        cases e'
        refine ⟨n :: ss', m', .keep ?_ o, .rule hs' (e1.trans k2) ((e2 r).1 k3) d, hm⟩
        rintro - rfl
        obtain ⟨sec2, hsec2, e⟩ := List.mem_map.1 hls
        have hn : sec2.name = n := congrArg Prod.fst e
        exact (List.nodup_append.1 wf.distinct).2.2 n (List.mem_map.2 ⟨sec2, hsec2, hn⟩) n
          (List.mem_map.2 ⟨sec, k1, k2⟩) rfl
    | @expand s ss sec refs rs m k1 k2 k3 _ ih =>
      intro xs e
      obtain ⟨g1, g2⟩ := mem_metaNames k1 k3
      rw [k2] at g1
      cases xs with
      | nil => cases e
      | cons x xs =>
        obtain ⟨n, b⟩ := x
        simp only [List.map_cons, List.cons.injEq] at e
        obtain ⟨rfl, e⟩ := e
        obtain ⟨rules', hr', hx⟩ := inlined_lines h1 g1
        by_cases hn : n = t
        · subst hn
          obtain ⟨ss', m', o, d, hm⟩ := ih ((refs.map (·.name)).map (·, false) ++ xs) (by simp [e, Function.comp_def])
          obtain ⟨ns, rfl, o'⟩ := o.split_false
          cases b with
          | true =>
            rw [metaNames_unique wf g1 hls] at g2
            exact ⟨_, m', .put g2 o', d, by omega⟩
          | false =>
            refine ⟨n :: ns, m' + 1, .keep (by simp) o', .line hr' ?_ d, by omega⟩
            rw [hx, if_pos rfl]
            exact g2
        · obtain ⟨ss', m', o, d, hm⟩ := ih ((refs.map (·.name)).map (·, true) ++ xs) (by simp [e, Function.comp_def])
          obtain ⟨refs', ns, rfl, hw, o'⟩ := o.split_true
          refine ⟨n :: ns, m' + 1, .keep (fun _ => hn) o', .line hr' ?_ d, by omega⟩
          rw [hx, if_neg hn]
          exact List.mem_flatMap.2 ⟨_, g2, hw⟩
  obtain ⟨ss', m', o, d, hm⟩ := key hd (ss.map (·, false)) (by simp [Function.comp_def])
  have : Out t ls (ss.map (·, false) ++ []) ss' := by simpa using o
  obtain ⟨ns, rfl, o'⟩ := this.split_false
  cases o'
  exact ⟨m', hm, by simpa using d⟩

/-- Undoing the writing out in a derivation. -/
theorem unwrite {t : Str} {G : Grammar F} {ls : List (List Str)} (hls : (t, ls) ∈ G.metaNames) : ∀ {ns ns' : List Str},
    ns' ∈ writeOut t ls ns → ∀ {ss : List Str} {rs : List (Rule F)} {m : Nat}, Derives G (ns' ++ ss) rs m →
    ∃ m', Derives G (ns ++ ss) rs m'
  | [], ns', h, ss, rs, m, hd => by
    rw [writeOut, List.mem_singleton] at h
    subst h
    exact ⟨m, hd⟩
  | n :: ns, ns', h, ss, rs, m, hd => by
    rw [writeOut] at h
    by_cases hn : n = t
    · rw [if_pos hn] at h
      subst hn
      obtain ⟨l, hl, h⟩ := List.mem_flatMap.1 h
      obtain ⟨k, hk, rfl⟩ := List.mem_map.1 h
      rw [List.append_assoc] at hd
      obtain ⟨r1, r2, m1, m2, rfl, rfl, d1, d2⟩ := derives_split hd l _ rfl
      obtain ⟨m', d⟩ := unwrite hls hk d2
      exact ⟨_, .line hls hl (derives_append d1 d)⟩
    · rw [if_neg hn] at h
      obtain ⟨k, hk, rfl⟩ := List.mem_map.1 h
      obtain ⟨r1, r2, m1, m2, rfl, rfl, d1, d2⟩ := derives_split hd [n] (k ++ ss) rfl
      obtain ⟨m', d⟩ := unwrite hls hk d2
      exact ⟨_, derives_append d1 d⟩

/-- What the second grammar derives, the first derives. -/
theorem derives_inlined {t : Str} {G H : Grammar F} (hi : Inlined t G H) {ss : List Str}
    {rs : List (Rule F)} {m : Nat} (hd : Derives H ss rs m) : ∃ m', Derives G ss rs m' := by
  obtain ⟨ls, hls, h1, h2⟩ := hi
  induction hd with
  | done => exact ⟨0, .done⟩
  | @rule s ss sec r rs m k1 k2 k3 _ ih =>
    obtain ⟨m', d⟩ := ih
    obtain ⟨⟨_, ys⟩, hs, e1, e2⟩ := h2.symm.find _ (List.mem_map.2 ⟨sec, k1, rfl⟩ : (sec.name, sec.rules) ∈ H.ruleSections)
    obtain ⟨sec', hs', e'⟩ := List.mem_map.1 hs
    cases e'
    exact ⟨m', .rule hs' (e1.trans k2) ((e2 r).1 k3) d⟩
  | @expand s ss sec refs rs m k1 k2 k3 _ ih =>
    obtain ⟨m', d⟩ := ih
    obtain ⟨g1, g2⟩ := mem_metaNames k1 k3
    rw [k2] at g1
    obtain ⟨rules, hr, hx⟩ := lines_inlined h1 g1
    rw [hx] at g2
    by_cases hs : s = t
    · rw [if_pos hs] at g2
      exact ⟨_, .line hr g2 d⟩
    · rw [if_neg hs] at g2
      obtain ⟨refs0, h0, hw⟩ := List.mem_flatMap.1 g2
      obtain ⟨m2, d2⟩ := unwrite hls hw d
      exact ⟨_, .line hr h0 d2⟩

end AS
