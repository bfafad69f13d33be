import Verif.Lemmas.Single
import Verif.Lemmas.SampleScores
import Verif.Props.Samples
/-
C105: what rounding can do to the choice of a match.
-/
namespace AS.Props
open AS Wrapper
variable {F D : Type}

/-- The rules of a match are rules of the grammar, and there is at least one. -/
theorem match_rules {G : Grammar F} (wf : WfGrammar G) {phrases : List (List Token)} {phrase : List Token} {p : SearchPath F}
    (h : MatchOf G phrases phrase p) : p.rules ≠ [] ∧ (∀ r ∈ p.rules, ∃ sec ∈ G.rules, r ∈ sec.rules) ∧
      Picks (inputs p.rules) (phrase.map (·.inclass)) := by
  obtain ⟨_, results, hs, hp⟩ := h
  obtain ⟨ps, hps, hpk⟩ := Token.enumerate_picks phrase
  rcases search_spec wf c!"ADDRESS" phrase ps hps with ⟨results', h1, _, hmem⟩ | ⟨h1, _⟩
  · rw [hs] at h1; cases h1
    obtain ⟨qs, m, hd, _, hin, rfl⟩ := (hmem p).1 hp
    exact ⟨derives_nonempty wf hd (by simp), AS.derives_rules hd, hpk _ hin⟩
  · rw [hs] at h1; cases h1

/-- The computed average of a match is the exact one, up to as many roundings as it has rules, and two. -/
theorem C105_average {fo : FloatOps F} {fin : F → Prop} {val exact : F → Rat} {u lo hi a b : Rat} {q N : Nat}
    (R : RoundedArith fo fin val u lo hi) (hfine : FineEnough u lo hi a b q N) {G : Grammar F} (wf : WfGrammar G)
    (hread : ScoresRead fin val exact u a b q G) (phrases : List (List Token)) (phrase : List Token) (p : SearchPath F)
    (hp : MatchOf G phrases phrase p) (hN : p.rules.length ≤ N) :
    fin (average fo p.rules) ∧
      Near u (p.rules.length + 2) (exactAverage exact p.rules) (val (average fo p.rules)) := by
  obtain ⟨h0, h1, ha, _, hN', hlo, hhi, _⟩ := hfine
  obtain ⟨m1, m2, _⟩ := match_rules wf hp
  refine average_near R h0 h1 ha N hN' hlo hhi p.rules m1 hN ?_
  intro r hr
  obtain ⟨sec, hs, hrs⟩ := m2 r hr
  obtain ⟨a1, a2, a3, a4, _⟩ := hread sec hs r hrs
  exact ⟨a1, a2, a3, a4⟩

/-- Of two matches the one with the greater exact average has the greater computed one. -/
theorem C105_ordered {fo : FloatOps F} {fin : F → Prop} {val exact : F → Rat} {u lo hi a b : Rat} {q N : Nat}
    (R : RoundedArith fo fin val u lo hi) (hfine : FineEnough u lo hi a b q N) {G : Grammar F} (wf : WfGrammar G)
    (hread : ScoresRead fin val exact u a b q G) (phrases : List (List Token))
    (hN : ∀ phrase p, MatchOf G phrases phrase p → p.rules.length ≤ N)
    (phrase phrase' : List Token) (p p' : SearchPath F) (hp : MatchOf G phrases phrase p) (hp' : MatchOf G phrases phrase' p')
    (hlt : exactAverage exact p.rules < exactAverage exact p'.rules) :
    fo.lt (average fo p.rules) (average fo p'.rules) = true := by
  rw [R.lt _ _ (C105_average R hfine wf hread phrases phrase p hp (hN _ _ hp)).1
    (C105_average R hfine wf hread phrases phrase' p' hp' (hN _ _ hp')).1]
  refine averages_ordered (ex := fun r : Rule F => exact r.score) R hfine p.rules p'.rules (match_rules wf hp).1
    (match_rules wf hp').1 (hN _ _ hp) (hN _ _ hp') ?_ hlt
  intro r hr
  have : ∃ sec ∈ G.rules, r ∈ sec.rules := by
    rcases List.mem_append.1 hr with hr | hr
    · exact (match_rules wf hp).2.1 r hr
    · exact (match_rules wf hp').2.1 r hr
  obtain ⟨sec, hs, hrs⟩ := this
  exact hread sec hs r hrs

/-- The chosen match has the greatest exact average of all matches of all phrases. -/
theorem C105_best {fo : FloatOps F} (laws : LtLaws fo) (hm1 : fo.lt (fo.ofInt (-1)) fo.zero = true)
    {fin : F → Prop} {val exact : F → Rat} {u lo hi a b : Rat} {q N : Nat}
    (R : RoundedArith fo fin val u lo hi) (hfine : FineEnough u lo hi a b q N) {G : Grammar F} (wf : WfGrammar G) (hb : Balanced G)
    (hroot : HasRoot G) (hread : ScoresRead fin val exact u a b q G) (phrases : List (List Token))
    (hN : ∀ phrase p, MatchOf G phrases phrase p → p.rules.length ≤ N) :
    ∃ r, searchAndReclassBestOf G fo phrases = .ok r ∧
      ((∃ phrase p, MatchOf G phrases phrase p ∧ r.tokens = reclassed phrase p ∧ r.score = average fo p.rules ∧
          r.nrules = fo.ofInt p.rules.length ∧
          ∀ phrase' p', MatchOf G phrases phrase' p' → exactAverage exact p'.rules ≤ exactAverage exact p.rules) ∨
       ((∀ phrase p, ¬ MatchOf G phrases phrase p) ∧ r = ⟨[], fo.ofInt (-1), some [], fo.ofInt (-1)⟩)) := by
  have pos : ∀ phrase p, MatchOf G phrases phrase p → fo.lt fo.zero (average fo p.rules) = true := by
    intro phrase p hp
    obtain ⟨f, n⟩ := C105_average R hfine wf hread phrases phrase p hp (hN _ _ hp)
    rw [R.lt _ _ R.zero.1 f, R.zero.2]
    obtain ⟨h0, h1, ha, _⟩ := hfine
    have hlen : 0 < p.rules.length := List.length_pos_iff.2 (match_rules wf hp).1
    have hA : a ≤ exactAverage exact p.rules := by
      unfold exactAverage
      rw [← Rat.not_lt, Rat.div_lt_iff (by exact_mod_cast hlen), Rat.not_lt, Rat.mul_comm]
      refine (total_range _ a b p.rules ?_).1
      intro r hr
      obtain ⟨sec, hs, hrs⟩ := (match_rules wf hp).2.1 r hr
      exact ⟨(hread sec hs r hrs).2.2.1, (hread sec hs r hrs).2.2.2.1⟩
    have := Rat.mul_pos (pow_pos' (x := 1 - u) (by grind) (p.rules.length + 2)) (show 0 < exactAverage exact p.rules by grind)
    have := n.1
    grind
  obtain ⟨rs, hrs, hc⟩ := C42_first_best_phrase laws hm1 wf hb hroot phrases
  have one : ∀ phrase ∈ phrases, ∀ r, searchAndReclassBest G fo phrase = .ok r →
      (∃ p, MatchOf G phrases phrase p ∧ r.tokens = reclassed phrase p ∧ r.score = average fo p.rules ∧
        r.nrules = fo.ofInt p.rules.length ∧
        ∀ p', MatchOf G phrases phrase p' → fo.lt (average fo p.rules) (average fo p'.rules) = false) ∨
      (r.matched = none ∧ ∀ p', ¬ MatchOf G phrases phrase p') := by
    intro phrase hph r hr
    obtain ⟨results, hs⟩ := search_root wf hroot phrase
    by_cases hne : results = []
    · right
      obtain ⟨results', r', hs', e', hnone, _⟩ := C41_no_match_iff laws wf hb hroot phrase
      rw [hs] at hs'; cases hs'
      rw [hr] at e'; cases e'
      refine ⟨by rw [hnone hne], ?_⟩
      rintro p' ⟨_, results', h1, h2⟩
      rw [hs] at h1; cases h1
      rw [hne] at h2; cases h2
    · left
      obtain ⟨j, p, score, nrules, hp, hbest, hcc⟩ := C39_best_is_first_max laws wf hb phrase results hs hne
      rw [hr] at hbest
      cases hbest
      have hm : MatchOf G phrases phrase p := ⟨hph, results, hs, List.mem_of_getElem? hp⟩
      rcases hcc with ⟨hf, _, hnr⟩ | ⟨hz, _⟩
      · have h1 := hf.1
        rw [List.getElem?_map, hp] at h1
        simp only [Option.map_some, Option.some.injEq] at h1
        refine ⟨p, hm, rfl, h1.symm, hnr, ?_⟩
        rintro p' ⟨_, results', h2, h3⟩
        rw [hs] at h2; cases h2
        rw [h1]
        exact hf.2.1 _ (List.mem_map.2 ⟨p', h3, rfl⟩)
      · have := hz p (List.mem_of_getElem? hp)
        rw [pos _ _ hm] at this
        cases this
  have get : ∀ phrase ∈ phrases, ∃ r ∈ rs, searchAndReclassBest G fo phrase = .ok r := by
    intro phrase hph
    have : searchAndReclassBest G fo phrase ∈ rs.map Outcome.ok := by
      rw [← hrs]; exact List.mem_map.2 ⟨phrase, hph, rfl⟩
    obtain ⟨r, h1, h2⟩ := List.mem_map.1 this
    exact ⟨r, h1, h2.symm⟩
  rcases hc with ⟨i, r, hi', ⟨_, hmax, _⟩, hmt, hok⟩ | ⟨hall, hok⟩
  · refine ⟨r, hok, Or.inl ?_⟩
    have hm : Outcome.ok r ∈ phrases.map (searchAndReclassBest G fo) := by
      rw [hrs]; exact List.mem_map.2 ⟨r, List.mem_of_getElem? hi', rfl⟩
    obtain ⟨phrase, hph, e⟩ := List.mem_map.1 hm
    rcases one phrase hph r e with ⟨p, hp, e1, e2, e3, _⟩ | ⟨hn, _⟩
    · refine ⟨phrase, p, hp, e1, e2, e3, ?_⟩
      intro phrase' p' hp'
      rw [← Rat.not_lt]
      intro hlt
      have c1 := C105_ordered R hfine wf hread phrases hN phrase phrase' p p' hp hp' hlt
      obtain ⟨r', hr', e'⟩ := get phrase' hp'.1
      rcases one phrase' hp'.1 r' e' with ⟨p'', hp'', _, f2, _, f4⟩ | ⟨_, hno⟩
      · have c2 := hmax r'.score (List.mem_map.2 ⟨r', hr', rfl⟩)
        have c3 := f4 p' hp'
        rw [e2, f2] at c2
        have fp := (C105_average R hfine wf hread phrases phrase p hp (hN _ _ hp)).1
        have fp' := (C105_average R hfine wf hread phrases phrase' p' hp' (hN _ _ hp')).1
        have fp'' := (C105_average R hfine wf hread phrases phrase' p'' hp'' (hN _ _ hp'')).1
        rw [R.lt _ _ fp fp'] at c1
        have c2' : ¬ val (average fo p.rules) < val (average fo p''.rules) := by
          rw [← R.lt _ _ fp fp'', c2]; simp
        have c3' : ¬ val (average fo p''.rules) < val (average fo p'.rules) := by
          rw [← R.lt _ _ fp'' fp', c3]; simp
        grind
      · exact hno p' hp'
    · rw [hn] at hmt; cases hmt
  · refine ⟨_, hok, Or.inr ⟨?_, rfl⟩⟩
    rintro phrase p ⟨h1, results, h2, h3⟩
    rw [hall phrase h1] at h2; cases h2; cases h3

/-- A rearrangement of the images of a list is the image of a rearrangement. -/
theorem perm_of_map {α β : Type} (f : α → β) {rows l' : List β} (h : rows.Perm l') :
    ∀ l : List α, l' = l.map f → ∃ l0 : List α, l0.Perm l ∧ rows = l0.map f := by
  induction h with
  | nil => intro l e; exact ⟨[], by rw [List.map_eq_nil_iff.1 e.symm], rfl⟩
  | cons x _ ih =>
    intro l e
    cases l with
    | nil => cases e
    | cons y l =>
      rw [List.map_cons, List.cons.injEq] at e
      obtain ⟨l0, h1, rfl⟩ := ih l e.2
      exact ⟨y :: l0, h1.cons y, by rw [List.map_cons, e.1]⟩
  | swap x y l2 =>
    intro l e
    match l, e with
    | a :: b :: l, e =>
      simp only [List.map_cons, List.cons.injEq] at e
      exact ⟨b :: a :: l, List.Perm.swap a b l, by rw [List.map_cons, List.map_cons, e.1, e.2.1, e.2.2]⟩
  | trans _ _ ih1 ih2 =>
    intro l e
    obtain ⟨l0, h1, rfl⟩ := ih2 l e
    obtain ⟨l1, h2, h3⟩ := ih1 l0 rfl
    exact ⟨l1, h2.trans h1, h3⟩

/-- The rows of `match`, if there is a match: they are those of all matches, by descending exact average. -/
theorem C105_rows (env : Env F D) (hsort : SortContract env.sort) (nan : D → Prop) (laws : NanLaws env.dops nan)
    (h0 : env.fo.le0 env.fo.zero = true) (halloc : ∀ n, env.alloc n = true) (hneg : ¬ nan (env.dops.ofInt (-1)))
    {fin : F → Prop} {val exact : F → Rat} {dfin : D → Prop} {dval : D → Rat} {u lo hi a b : Rat} {q N : Nat}
    (R : RoundedArith env.dops dfin dval u lo hi) (hwiden : ∀ x, fin x → dfin (env.widen x) ∧ dval (env.widen x) = val x)
    (hnan : ∀ x, dfin x → ¬ nan x) (hfine : FineEnough u lo hi a b q N)
    (text : Str) (g : Grammar F) (hg : loadGrammar env text = .ok g) (hread : ScoresRead fin val exact u a b q g)
    (l : Lexicon) (locale filter address : Str) (phrases : List (List Token))
    (hp : phrasesOf env l locale filter address = .ok phrases)
    (hN : ∀ phrase p, MatchOf g phrases phrase p → p.rules.length ≤ N) :
    ∃ rss : List (List (SearchPath F)), phrases.map (search g c!"ADDRESS") = rss.map .ok ∧
      let found := (phrases.zip rss).flatMap (fun x => x.2.map (fun p => (x.1, p)))
      (found ≠ [] → found.length < 2 ^ 31 → ∃ ms : List (List Token × SearchPath F), ms.Perm found ∧
        matchAddr env g l locale filter address =
          some ⟨some (ms.map (fun m => reported (rowFor env.dops env.widen m.1 m.2))), none⟩ ∧
        ms.Pairwise (fun m m' => exactAverage exact m'.2.rules ≤ exactAverage exact m.2.rules)) := by
  have hinit : Grammar.initialize env.u.toCharTables env.fo text = .ok g := by
    unfold loadGrammar at hg
    split at hg
    · next g' e => cases hg; exact e
    · cases hg
  obtain ⟨wf, hb, hr⟩ := C29_constructed_wf _ env.fo h0 text g hinit
  obtain ⟨rss, h1, h2⟩ := C47_complete env hsort nan laws h0 text g hg l locale filter address phrases hp halloc hneg
  refine ⟨rss, h1, ?_⟩
  intro found hne hlen
  have hmatch : ∀ m ∈ found, MatchOf g phrases m.1 m.2 := by
    intro m hm
    obtain ⟨x, hx, hm⟩ := List.mem_flatMap.1 hm
    obtain ⟨p, hpx, rfl⟩ := List.mem_map.1 hm
    obtain ⟨i, hi⟩ := List.getElem?_of_mem hx
    rw [List.getElem?_zip_eq_some] at hi
    refine ⟨List.mem_of_getElem? hi.1, x.2, ?_, hpx⟩
    have := congrArg (fun z => z[i]?) h1
    simpa [List.getElem?_map, hi.1, hi.2] using this
  have hsc : ∀ m ∈ found, ∀ r ∈ m.2.rules, dfin (env.widen r.score) ∧ Near u 1 (exact r.score) (dval (env.widen r.score)) ∧
      a ≤ exact r.score ∧ exact r.score ≤ b ∧ ∃ k : Nat, exact r.score = (k : Rat) / q := by
    intro m hm r hrr
    obtain ⟨sec, hs, hrs⟩ := (match_rules wf (hmatch m hm)).2.1 r hrr
    obtain ⟨a1, a2, a3, a4, a5⟩ := hread sec hs r hrs
    rw [(hwiden _ a1).2]
    exact ⟨(hwiden _ a1).1, a2, a3, a4, a5⟩
  have hfin : ∀ m ∈ found, dfin (rowFor env.dops env.widen m.1 m.2).score := by
    intro m hm
    obtain ⟨u0, u1, ha, _, hN', hlo, hhi, _⟩ := hfine
    exact (average_near (sc := fun r : Rule F => env.widen r.score) (ex := fun r : Rule F => exact r.score) R u0 u1 ha N hN' hlo hhi
      m.2.rules (match_rules wf (hmatch m hm)).1 (hN _ _ (hmatch m hm))
      (fun r hr => ⟨(hsc m hm r hr).1, (hsc m hm r hr).2.1, (hsc m hm r hr).2.2.1, (hsc m hm r hr).2.2.2.1⟩)).1
  have hrows : (phrases.zip rss).flatMap (fun x => x.2.map (rowFor env.dops env.widen x.1)) =
      found.map (fun m => rowFor env.dops env.widen m.1 m.2) := by
    show _ = List.map _ (List.flatMap _ _)
    rw [List.map_flatMap]
    congr 1
    funext x
    rw [List.map_map]
    rfl
  rw [hrows] at h2
  obtain ⟨rows, k1, k2, k3, _⟩ := h2 (by
      intro t ht
      obtain ⟨m, hm, rfl⟩ := List.mem_map.1 ht
      exact hnan _ (hfin m hm)) (by rw [List.length_map]; exact hlen)
  have k3' := k3 (by intro e; exact hne (List.map_eq_nil_iff.1 e))
  rw [List.map_map] at k3'
  obtain ⟨ms, p1, p2⟩ := perm_of_map _ k3' found rfl
  refine ⟨ms, p1, by rw [k1, p2]; rfl, ?_⟩
  rw [p2, List.pairwise_map] at k2
  refine k2.imp_of_mem ?_
  intro m m' hm hm' hlt
  rw [← Rat.not_lt]
  intro hex
  have hm := p1.mem_iff.1 hm
  have hm' := p1.mem_iff.1 hm'
  have := averages_ordered (sc := fun r : Rule F => env.widen r.score) (ex := fun r : Rule F => exact r.score) R hfine m.2.rules m'.2.rules
    (match_rules wf (hmatch m hm)).1 (match_rules wf (hmatch m' hm')).1 (hN _ _ (hmatch m hm)) (hN _ _ (hmatch m' hm'))
    (by
      intro r hr
      rcases List.mem_append.1 hr with hr | hr
      · exact hsc m hm r hr
      · exact hsc m' hm' r hr) hex
  have h3 : env.dops.lt (rowFor env.dops env.widen m.1 m.2).score (rowFor env.dops env.widen m'.1 m'.2).score = true :=
    (R.lt _ _ (hfin m hm) (hfin m' hm')).2 this
  have hlt' : env.dops.lt (rowFor env.dops env.widen m.1 m.2).score (rowFor env.dops env.widen m'.1 m'.2).score = false := hlt
  rw [h3] at hlt'
  cases hlt'

/-- The match chosen and that of the first row have the same exact average. -/
theorem C105_first_row (env : Env F D) (hsort : SortContract env.sort) (nan : D → Prop) (laws : NanLaws env.dops nan)
    (flaws : LtLaws env.fo) (hm1 : env.fo.lt (env.fo.ofInt (-1)) env.fo.zero = true)
    (h0 : env.fo.le0 env.fo.zero = true) (halloc : ∀ n, env.alloc n = true) (hneg : ¬ nan (env.dops.ofInt (-1)))
    {fin : F → Prop} {val exact : F → Rat} {dfin : D → Prop} {dval : D → Rat} {u lo hi a b : Rat} {q N : Nat}
    (R : RoundedArith env.fo fin val u lo hi) (R' : RoundedArith env.dops dfin dval u lo hi)
    (hwiden : ∀ x, fin x → dfin (env.widen x) ∧ dval (env.widen x) = val x)
    (hnan : ∀ x, dfin x → ¬ nan x) (hfine : FineEnough u lo hi a b q N)
    (text : Str) (g : Grammar F) (hg : loadGrammar env text = .ok g) (hread : ScoresRead fin val exact u a b q g)
    (l : Lexicon) (locale filter address : Str) (phrases : List (List Token))
    (hp : phrasesOf env l locale filter address = .ok phrases)
    (hN : ∀ phrase p, MatchOf g phrases phrase p → p.rules.length ≤ N)
    (hsmall : ∀ rss : List (List (SearchPath F)), phrases.map (search g c!"ADDRESS") = rss.map .ok → rss.flatten.length < 2 ^ 31)
    (hsome : ∃ phrase p, MatchOf g phrases phrase p) :
    ∃ r phrase p row rows phrase' p', searchAndReclassBestOf g env.fo phrases = .ok r ∧ MatchOf g phrases phrase p ∧
      r.tokens = reclassed phrase p ∧ matchAddr env g l locale filter address = some ⟨some (row :: rows), none⟩ ∧
      MatchOf g phrases phrase' p' ∧ row = reported (rowFor env.dops env.widen phrase' p') ∧
      exactAverage exact p'.rules = exactAverage exact p.rules := by
  have hinit : Grammar.initialize env.u.toCharTables env.fo text = .ok g := by
    unfold loadGrammar at hg
    split at hg
    · next g' e => cases hg; exact e
    · cases hg
  obtain ⟨wf, hb, hr⟩ := C29_constructed_wf _ env.fo h0 text g hinit
  obtain ⟨rss, h1, h2⟩ := C105_rows env hsort nan laws h0 halloc hneg R' hwiden hnan hfine text g hg hread l locale filter address
    phrases hp hN
  have hlen : phrases.length = rss.length := by simpa using congrArg List.length h1
  have mem_iff : ∀ m : List Token × SearchPath F,
      m ∈ (phrases.zip rss).flatMap (fun x => x.2.map (fun p => (x.1, p))) ↔ MatchOf g phrases m.1 m.2 := by
    intro m
    have hget : ∀ i : Nat, phrases[i]?.map (search g c!"ADDRESS") = rss[i]?.map .ok := fun i => by
      have := congrArg (fun z => z[i]?) h1
      simpa only [List.getElem?_map] using this
    constructor
    · intro hm
      obtain ⟨x, hx, hm⟩ := List.mem_flatMap.1 hm
      obtain ⟨p, hpx, rfl⟩ := List.mem_map.1 hm
      obtain ⟨i, hi⟩ := List.getElem?_of_mem hx
      rw [List.getElem?_zip_eq_some] at hi
      have := hget i
      rw [hi.1, hi.2] at this
      exact ⟨List.mem_of_getElem? hi.1, x.2, by simpa using this, hpx⟩
    · rintro ⟨hph, results, hs, hpm⟩
      obtain ⟨i, hi⟩ := List.getElem?_of_mem hph
      have hi' : i < rss.length := by rw [← hlen]; exact (List.getElem?_eq_some_iff.1 hi).1
      have := hget i
      rw [hi, List.getElem?_eq_getElem hi'] at this
      simp only [Option.map_some, hs, Option.some.injEq, Outcome.ok.injEq] at this
      refine List.mem_flatMap.2 ⟨(m.1, rss[i]), ?_, List.mem_map.2 ⟨m.2, by rw [← this]; exact hpm, rfl⟩⟩
      apply List.mem_of_getElem? (i := i)
      rw [List.getElem?_zip_eq_some]
      exact ⟨hi, List.getElem?_eq_getElem hi'⟩
  have hflat : ∀ (as : List (List Token)) (bs : List (List (SearchPath F))), as.length = bs.length →
      ((as.zip bs).flatMap (fun x => x.2.map (fun p => (x.1, p)))).length = bs.flatten.length := by
    intro as
    induction as with
    | nil => intro bs h; cases bs with
      | nil => rfl
      | cons _ _ => cases h
    | cons x as ih =>
      intro bs h
      cases bs with
      | nil => cases h
      | cons y bs =>
        have := ih bs (by simpa using h)
        simp only [List.zip_cons_cons, List.flatMap_cons, List.length_append, List.length_map, List.flatten_cons, this]
  obtain ⟨phrase0, p0, hp0⟩ := hsome
  obtain ⟨ms, p1, p2, p3⟩ := h2 (List.ne_nil_of_mem ((mem_iff (phrase0, p0)).2 hp0)) (by rw [hflat _ _ hlen]; exact hsmall rss h1)
  obtain ⟨r, hok, hc⟩ := C105_best flaws hm1 R hfine wf hb hr hread phrases hN
  rcases hc with ⟨phrase, p, m1, m2, _, _, m5⟩ | ⟨hno, _⟩
  · cases ms with
    | nil => exact absurd (p1.symm.mem_iff.1 ((mem_iff (phrase0, p0)).2 hp0)) (by simp)
    | cons m ms =>
      have hm : MatchOf g phrases m.1 m.2 := (mem_iff m).1 (p1.mem_iff.1 List.mem_cons_self)
      refine ⟨r, phrase, p, _, _, m.1, m.2, hok, m1, m2, p2, hm, rfl, ?_⟩
      have a1 := m5 m.1 m.2 hm
      have a2 : exactAverage exact p.rules ≤ exactAverage exact m.2.rules := by
        have : (phrase, p) ∈ m :: ms := p1.symm.mem_iff.1 ((mem_iff (phrase, p)).2 m1)
        rcases List.mem_cons.1 this with e | e
        · rw [← e]; exact Rat.le_refl
        · exact (List.pairwise_cons.1 p3).1 _ e
      grind
  · exact absurd hp0 (hno _ _)

set_option maxRecDepth 100000 in
theorem samples_inputs : ∀ s ∈ samples, inputsOk s.lines = true := by decide +kernel

theorem nearestTenth_of_near {d : Nat} (hd : 1 ≤ d) (hd' : d ≤ 9) {x : Rat} (h : Near (1 / 2 ^ 24) 1 ((d : Rat) / 10) x) :
    nearestTenth x = (d : Rat) / 10 := by
  have h1 : (1 : Rat) ≤ (d : Rat) := by exact_mod_cast hd
  have h2 : (d : Rat) ≤ 9 := by exact_mod_cast hd'
  unfold Near at h
  rw [show ∀ z : Rat, z ^ 1 = z from fun z => by rw [Rat.pow_succ, Rat.pow_zero, Rat.one_mul],
    show ∀ z : Rat, z ^ 1 = z from fun z => by rw [Rat.pow_succ, Rat.pow_zero, Rat.one_mul]] at h
  have e : (1 : Rat) / 2 ^ 24 = 1 / 16777216 := by decide +kernel
  rw [e] at h
  have hf : (10 * x + 1 / 2).floor = (d : Int) := by
    have a1 : (d : Int) ≤ (10 * x + 1 / 2).floor := by
      rw [Rat.le_floor_iff, Rat.intCast_natCast]
      grind
    have a2 : (10 * x + 1 / 2).floor < (d : Int) + 1 := by
      rw [Rat.floor_lt_iff]
      have : (((d : Int) + 1 : Int) : Rat) = (d : Rat) + 1 := by
        rw [Rat.intCast_add, Rat.intCast_natCast]; rfl
      rw [this]
      grind
    omega
  unfold nearestTenth
  rw [hf, Rat.intCast_natCast]

theorem inputs_longer (rs : List (Rule F)) (h : ∀ r ∈ rs, r.inClass ≠ []) : rs.length ≤ (inputs rs).length := by
  induction rs with
  | nil => exact Nat.zero_le _
  | cons r rs ih =>
    have h1 := ih (fun x hx => h x (List.mem_cons_of_mem _ hx))
    have h2 : 0 < r.inClass.length := List.length_pos_iff.2 (h r List.mem_cons_self)
    simp only [inputs, List.flatMap_cons, List.length_append, List.length_cons] at h1 ⊢
    omega

/-- `0.1` to `0.9` are read up to one rounding to 24 binary digits. -/
def TenthsRead (fo : FloatOps F) (fin : F → Prop) (val : F → Rat) : Prop :=
  ∀ d ∈ c!"123456789", fin (fo.parse ['0', '.', d]) ∧
    Near (1 / 2 ^ 24) 1 (((d.toNat - 48 : Nat) : Rat) / 10) (val (fo.parse ['0', '.', d]))

/-- The scores of a sample grammar are tenths, up to rounding, and its matches have at most as many rules as tokens. -/
theorem sample_read {ct : CharTables} {fo : FloatOps F} (hu : Usual ct fo) {fin : F → Prop} {val : F → Rat}
    (ht : TenthsRead fo fin val) {s : Sample} (hs : s ∈ samples) {g : Grammar F}
    (hg : Grammar.initialize ct fo (unlines s.lines) = .ok g) :
    ScoresRead fin val (fun x => nearestTenth (val x)) (1 / 2 ^ 24) (1 / 10) (9 / 10) 10 g ∧
    ∀ (phrases : List (List Token)) phrase p, MatchOf g phrases phrase p → p.rules.length ≤ phrase.length := by
  obtain ⟨c, hc⟩ := samples_checked s hs
  have hr := sample_rules hc (samples_inputs s hs) hu hg
  have digits : ∀ d ∈ c!"123456789", 1 ≤ d.toNat - 48 ∧ d.toNat - 48 ≤ 9 := by decide
  constructor
  · intro sec hsec r hrr
    obtain ⟨⟨d, hd, e⟩, _⟩ := hr sec hsec r hrr
    obtain ⟨t1, t2⟩ := ht d hd
    obtain ⟨d1, d2⟩ := digits d hd
    have hn := nearestTenth_of_near d1 d2 t2
    rw [e]
    simp only [hn]
    refine ⟨t1, t2, ?_, ?_, _, rfl⟩
    · have : (1 : Rat) ≤ ((d.toNat - 48 : Nat) : Rat) := by exact_mod_cast d1
      grind
    · have : ((d.toNat - 48 : Nat) : Rat) ≤ 9 := by exact_mod_cast d2
      grind
  · intro phrases phrase p hp
    obtain ⟨wf, _, _⟩ := C29_constructed_wf ct fo hu.zero _ g hg
    obtain ⟨_, m2, m3⟩ := match_rules wf hp
    have h1 := inputs_longer p.rules (fun r h => by
      obtain ⟨sec, a1, a2⟩ := m2 r h
      exact (hr sec a1 r a2).2)
    have h2 := picks_length m3
    rw [List.length_map] at h2
    omega

theorem fine_samples {lo hi : Rat} (hlo : lo ≤ 1 / 20) (hhi : 100 ≤ hi) : FineEnough (1 / 2 ^ 24) lo hi (1 / 10) (9 / 10) 10 90 := by
  have h : FineEnough (1 / 2 ^ 24) (1 / 20) 100 (1 / 10) (9 / 10) 10 90 := by unfold FineEnough; decide +kernel
  obtain ⟨h1, h2, h3, h4, h5, h6, h7, h8⟩ := h
  exact ⟨h1, h2, h3, h4, h5, Rat.le_trans hlo h6, Rat.le_trans h7 hhi, h8⟩

/-- With a sample grammar and single precision, for token lists of at most 90 tokens: the chosen match is one with the
greatest average of the scores as they are written, and the score reported is that average up to `1/200000`. -/
theorem C105_samples {ct : CharTables} {fo : FloatOps F} (hu : Usual ct fo) (laws : LtLaws fo)
    (hm1 : fo.lt (fo.ofInt (-1)) fo.zero = true) {fin : F → Prop} {val : F → Rat} {lo hi : Rat}
    (R : RoundedArith fo fin val (1 / 2 ^ 24) lo hi) (hlo : lo ≤ 1 / 20) (hhi : 100 ≤ hi) (ht : TenthsRead fo fin val)
    (s : Sample) (hs : s ∈ samples) :
    ∃ g, Grammar.initialize ct fo (unlines s.lines) = .ok g ∧
      ∀ phrases : List (List Token), (∀ phrase ∈ phrases, phrase.length ≤ 90) →
        ∃ r, searchAndReclassBestOf g fo phrases = .ok r ∧
          ((∃ phrase p, MatchOf g phrases phrase p ∧ r.tokens = reclassed phrase p ∧
              (∀ phrase' p', MatchOf g phrases phrase' p' →
                exactAverage (fun x => nearestTenth (val x)) p'.rules ≤ exactAverage (fun x => nearestTenth (val x)) p.rules) ∧
              exactAverage (fun x => nearestTenth (val x)) p.rules - 1 / 200000 ≤ val r.score ∧
              val r.score ≤ exactAverage (fun x => nearestTenth (val x)) p.rules + 1 / 200000) ∨
           ((∀ phrase p, ¬ MatchOf g phrases phrase p) ∧ r = ⟨[], fo.ofInt (-1), some [], fo.ofInt (-1)⟩)) := by
  obtain ⟨g, hg, _⟩ := C81_accepted hu s hs
  obtain ⟨wf, hb, hroot⟩ := C29_constructed_wf ct fo hu.zero _ g hg
  obtain ⟨hread, hlen⟩ := sample_read hu ht hs hg
  refine ⟨g, hg, fun phrases hph => ?_⟩
  have hfine := fine_samples hlo hhi
  have hN : ∀ phrase p, MatchOf g phrases phrase p → p.rules.length ≤ 90 := fun phrase p hp =>
    Nat.le_trans (hlen phrases phrase p hp) (hph phrase hp.1)
  obtain ⟨r, hok, hc⟩ := C105_best laws hm1 R hfine wf hb hroot hread phrases hN
  refine ⟨r, hok, ?_⟩
  rcases hc with ⟨phrase, p, m1, m2, m3, _, m5⟩ | h
  · refine Or.inl ⟨phrase, p, m1, m2, m5, ?_⟩
    obtain ⟨_, n⟩ := C105_average R hfine wf hread phrases phrase p m1 (hN _ _ m1)
    have hpos : 0 < p.rules.length := List.length_pos_iff.2 (match_rules wf m1).1
    have hp : (0 : Rat) < (p.rules.length : Rat) := by exact_mod_cast hpos
    have hrange := total_range (fun r : Rule F => nearestTenth (val r.score)) (1 / 10) (9 / 10) p.rules (by
      intro r hr
      obtain ⟨sec, a1, a2⟩ := (match_rules wf m1).2.1 r hr
      exact ⟨(hread sec a1 r a2).2.2.1, (hread sec a1 r a2).2.2.2.1⟩)
    have hA : 0 ≤ exactAverage (fun x => nearestTenth (val x)) p.rules ∧
        exactAverage (fun x => nearestTenth (val x)) p.rules ≤ 9 / 10 := by
      unfold exactAverage
      constructor
      · rw [← Rat.not_lt, Rat.div_lt_iff hp, Rat.not_lt, Rat.zero_mul]
        have := hrange.1
        grind
      · rw [← Rat.not_lt, Rat.lt_div_iff hp, Rat.not_lt, Rat.mul_comm]
        exact hrange.2
    rw [m3]
    have n' := n.mono (by decide +kernel) (by decide +kernel) hA.1 (n := 92) (by have := hN _ _ m1; omega)
    unfold Near at n'
    generalize exactAverage (fun x => nearestTenth (val x)) p.rules = A at *
    generalize val (average fo p.rules) = y at *
    have c1 : (1 : Rat) - 1 / 200000 * (10 / 9) ≤ (1 - 1 / 2 ^ 24) ^ 92 := by decide +kernel
    have c2 : ((1 : Rat) + 1 / 2 ^ 24) ^ 92 ≤ 1 + 1 / 200000 * (10 / 9) := by decide +kernel
    have d1 := Rat.mul_le_mul_of_nonneg_right c1 hA.1
    have d2 := Rat.mul_le_mul_of_nonneg_right c2 hA.1
    generalize ((1 : Rat) - 1 / 2 ^ 24) ^ 92 = P at *
    generalize ((1 : Rat) + 1 / 2 ^ 24) ^ 92 = M at *
    grind
  · exact Or.inr h

/-- With a sample grammar, for token lists of at most 90 tokens: the rows of `match` come by descending average of the scores
as they are written. -/
theorem C105_sample_rows (env : Env F D) (hu : Usual env.u.toCharTables env.fo) (hsort : SortContract env.sort) (nan : D → Prop)
    (laws : NanLaws env.dops nan) (halloc : ∀ n, env.alloc n = true) (hneg : ¬ nan (env.dops.ofInt (-1)))
    {fin : F → Prop} {val : F → Rat} {dfin : D → Prop} {dval : D → Rat} {lo hi : Rat}
    (R : RoundedArith env.dops dfin dval (1 / 2 ^ 24) lo hi) (hlo : lo ≤ 1 / 20) (hhi : 100 ≤ hi)
    (hwiden : ∀ x, fin x → dfin (env.widen x) ∧ dval (env.widen x) = val x) (hnan : ∀ x, dfin x → ¬ nan x)
    (ht : TenthsRead env.fo fin val) (s : Sample) (hs : s ∈ samples) :
    ∃ g, loadGrammar env (unlines s.lines) = .ok g ∧
      ∀ (l : Lexicon) (locale filter address : Str) (phrases : List (List Token)),
        phrasesOf env l locale filter address = .ok phrases → (∀ phrase ∈ phrases, phrase.length ≤ 90) →
        ∃ rss : List (List (SearchPath F)), phrases.map (search g c!"ADDRESS") = rss.map .ok ∧
          let found := (phrases.zip rss).flatMap (fun x => x.2.map (fun p => (x.1, p)))
          (found ≠ [] → found.length < 2 ^ 31 → ∃ ms : List (List Token × SearchPath F), ms.Perm found ∧
            matchAddr env g l locale filter address =
              some ⟨some (ms.map (fun m => reported (rowFor env.dops env.widen m.1 m.2))), none⟩ ∧
            ms.Pairwise (fun m m' => exactAverage (fun x => nearestTenth (val x)) m'.2.rules ≤
              exactAverage (fun x => nearestTenth (val x)) m.2.rules)) := by
  obtain ⟨g, hg, _⟩ := C81_accepted hu s hs
  have hl : loadGrammar env (unlines s.lines) = .ok g := by unfold loadGrammar; rw [hg]
  obtain ⟨hread, hlen⟩ := sample_read hu ht hs hg
  refine ⟨g, hl, fun l locale filter address phrases hp hph => ?_⟩
  exact C105_rows env hsort nan laws hu.zero halloc hneg R hwiden hnan (fine_samples hlo hhi) _ g hl hread l locale filter address
    phrases hp (fun phrase p hm => Nat.le_trans (hlen phrases phrase p hm) (hph phrase hm.1))

/-- The sections `A`, with one rule of score 0.7, and `B` and `C`, with one rule each, of scores 0.6 and 0.8. -/
def tieText : Str := unlines [c!"[ADDRESS]", c!"@A", c!"@B @C", c!"[A]", c!"WORD WORD -> STREET STREET -> 0.7",
  c!"[B]", c!"WORD -> HOUSE -> 0.6", c!"[C]", c!"WORD -> CITY -> 0.8"]

/-- The text with its scores 0.5 and 0.50000001. -/
def closeText : Str := unlines [c!"[ADDRESS]", c!"@A", c!"[A]", c!"WORD WORD -> STREET STREET -> 0.5",
  c!"WORD WORD -> CITY CITY -> 0.50000001"]

def twoWords : List Token := [{ text := c!"A", inclass := [.WORD] }, { text := c!"B", inclass := [.WORD] }]

/-- The text is read, and what is chosen for two words satisfies the condition. -/
def chosenIs (fo : FloatOps Rat) (text : Str) (P : Grammar Rat → BestResult Rat → Bool) : Bool :=
  match Grammar.initialize asciiTables fo text with
  | .ok g => outcomeIs (searchAndReclassBestOf g fo [twoWords]) (P g)
  | .error _ => false

theorem of_chosenIs {fo : FloatOps Rat} {text : Str} {P : Grammar Rat → BestResult Rat → Bool} (h : chosenIs fo text P = true) :
    ∃ g, Grammar.initialize asciiTables fo text = .ok g ∧ ∃ r, searchAndReclassBestOf g fo [twoWords] = .ok r ∧ P g r = true := by
  unfold chosenIs at h
  split at h
  · next g e => exact ⟨g, e, of_outcomeIs h⟩
  · cases h

/-- Of matches with the same exact average it need not be the first that is chosen: of one rule with score 0.7 and two with
scores 0.6 and 0.8, exact arithmetic takes the first, single precision the second. -/
theorem C105_tie :
    (∃ g, Grammar.initialize asciiTables ratOps tieText = .ok g ∧ ∃ r, searchAndReclassBestOf g ratOps [twoWords] = .ok r ∧
      r.matched = some c!"WORD WORD -> STREET STREET" ∧ r.score = 7 / 10) ∧
    (∃ g, Grammar.initialize asciiTables single tieText = .ok g ∧ ∃ r, searchAndReclassBestOf g single [twoWords] = .ok r ∧
      r.matched = some c!"WORD WORD -> HOUSE CITY" ∧ r.score = 2936013 / 4194304 ∧
      ∃ results, search g c!"ADDRESS" twoWords = .ok results ∧
        results.map (fun p => exactAverage nearestTenth p.rules) = [7 / 10, 7 / 10]) := by
  constructor
  · obtain ⟨g, hg, r, hr, hP⟩ := of_chosenIs (fo := ratOps) (text := tieText)
      (P := fun _ r => decide (r.matched = some c!"WORD WORD -> STREET STREET" ∧ r.score = 7 / 10)) (by decide +kernel)
    exact ⟨g, hg, r, hr, by simpa using hP⟩
  · obtain ⟨g, hg, r, hr, hP⟩ := of_chosenIs (fo := single) (text := tieText)
      (P := fun g r => decide (r.matched = some c!"WORD WORD -> HOUSE CITY" ∧ r.score = 2936013 / 4194304) &&
        outcomeIs (search g c!"ADDRESS" twoWords) (fun results =>
          decide (results.map (fun p => exactAverage nearestTenth p.rules) = [7 / 10, 7 / 10]))) (by decide +kernel)
    rw [Bool.and_eq_true, decide_eq_true_eq] at hP
    obtain ⟨results, h1, h2⟩ := of_outcomeIs hP.2
    exact ⟨g, hg, r, hr, hP.1.1, hP.1.2, results, h1, of_decide_eq_true h2⟩

/-- Scores that differ by less than the precision do not count: a rule with score 0.5 is chosen before one with score
0.50000001. -/
theorem C105_too_close :
    (∃ g, Grammar.initialize asciiTables ratOps closeText = .ok g ∧ ∃ r, searchAndReclassBestOf g ratOps [twoWords] = .ok r ∧
      r.matched = some c!"WORD WORD -> CITY CITY") ∧
    (∃ g, Grammar.initialize asciiTables single closeText = .ok g ∧ ∃ r, searchAndReclassBestOf g single [twoWords] = .ok r ∧
      r.matched = some c!"WORD WORD -> STREET STREET") := by
  constructor
  · obtain ⟨g, hg, r, hr, hP⟩ := of_chosenIs (fo := ratOps) (text := closeText)
      (P := fun _ r => decide (r.matched = some c!"WORD WORD -> CITY CITY")) (by decide +kernel)
    exact ⟨g, hg, r, hr, by simpa using hP⟩
  · obtain ⟨g, hg, r, hr, hP⟩ := of_chosenIs (fo := single) (text := closeText)
      (P := fun _ r => decide (r.matched = some c!"WORD WORD -> STREET STREET")) (by decide +kernel)
    exact ⟨g, hg, r, hr, by simpa using hP⟩

/-- Single precision is as asked for. -/
theorem single_example : RoundedArith single (fun _ => True) id (1 / 2 ^ 24) 0 100 ∧ TenthsRead single (fun _ => True) id ∧
    LtLaws single ∧ single.lt (single.ofInt (-1)) single.zero = true ∧ Usual asciiTables single ∧
    RoundedArith double (fun _ => True) id (1 / 2 ^ 24) 0 100 := by
  have hR := binary_rounds (p := 24) (Or.inr rfl) 100
  rw [show (1 : Rat) / (2 ^ 24 : Nat) = 1 / 2 ^ 24 by decide +kernel] at hR
  refine ⟨hR, ?_, ⟨?_, ?_⟩, by decide +kernel, ⟨fun c _ _ => ⟨rfl, rfl⟩, by decide +kernel, by decide +kernel⟩,
    (binary_rounds (p := 53) (Or.inl (by omega)) 100).weaken Rat.le_refl (by decide +kernel)⟩
  · intro d hd
    exact ⟨trivial, (by unfold Near; decide +kernel : ∀ d ∈ c!"123456789",
      Near (1 / 2 ^ 24) 1 (((d.toNat - 48 : Nat) : Rat) / 10) (single.parse ['0', '.', d])) d hd⟩
  · intro a; exact ratOps_laws.irrefl a
  · intro a b c; exact ratOps_laws.trans a b c

/-- The environment of the examples with single and double precision. -/
def binaryEnv : Env Rat Rat := { exEnv with fo := single, dops := double, widen := id }

set_option maxRecDepth 100000 in
/-- An address with the grammar of Ireland. -/
example : SortContract binaryEnv.sort ∧ NanLaws binaryEnv.dops (fun _ => False) ∧ Usual binaryEnv.u.toCharTables binaryEnv.fo ∧
    (∀ n, binaryEnv.alloc n = true) ∧ binaryEnv.fo.le0 binaryEnv.fo.zero = true ∧
    FineEnough (1 / 2 ^ 24) 0 100 (1 / 10) (9 / 10) 10 90 ∧
    ∃ g, loadGrammar binaryEnv (unlines Sample.Ireland.sample.lines) = .ok g ∧ WfGrammar g ∧ Balanced g ∧ HasRoot g ∧
      ScoresRead (fun _ => True) id (fun x => nearestTenth (id x)) (1 / 2 ^ 24) (1 / 10) (9 / 10) 10 g ∧
      ∃ phrases, phrasesOf binaryEnv townLexicon c!"en" c!"SPACE" c!"12 abc new york" = .ok phrases ∧
        (∀ phrase p, MatchOf g phrases phrase p → p.rules.length ≤ 90) ∧ (∃ phrase p, MatchOf g phrases phrase p) ∧
        (∃ rows, matchAddr binaryEnv g townLexicon c!"en" c!"SPACE" c!"12 abc new york" = some ⟨some rows, none⟩ ∧
          2 ≤ rows.length) := by
  obtain ⟨hR, hT, hL, hm, hU, hD⟩ := single_example
  have hU' : Usual binaryEnv.u.toCharTables binaryEnv.fo := ⟨usual_example.ascii, hU.zero, hU.scores⟩
  refine ⟨insertionSort_contract, { ratOps_laws with
      total := by
        intro a b c _ h
        simp only [binaryEnv, double, binary, decide_eq_true_eq] at *
        grind
      left := fun _ _ h => h.elim
      right := fun _ _ h => h.elim }, hU', fun _ => rfl, hU.zero, fine_samples (by decide +kernel) (by decide +kernel), ?_⟩
  obtain ⟨g, hg, hc⟩ := of_outcomeIs (o := loadGrammar binaryEnv (unlines Sample.Ireland.sample.lines))
    (p := fun g => outcomeIs (phrasesOf binaryEnv townLexicon c!"en" c!"SPACE" c!"12 abc new york") (fun phrases =>
      phrases.all (fun phrase => decide (phrase.length ≤ 90)) &&
      phrases.any (fun phrase => outcomeIs (search g c!"ADDRESS" phrase) (fun rs => decide (rs ≠ [])))) &&
      match matchAddr binaryEnv g townLexicon c!"en" c!"SPACE" c!"12 abc new york" with
      | some ⟨some rows, none⟩ => decide (2 ≤ rows.length)
      | _ => false) (by decide +kernel)
  have hinit : Grammar.initialize binaryEnv.u.toCharTables binaryEnv.fo (unlines Sample.Ireland.sample.lines) = .ok g := by
    unfold loadGrammar at hg
    split at hg
    · next g' e => cases hg; exact e
    · cases hg
  rw [Bool.and_eq_true] at hc
  obtain ⟨phrases, hp, hq⟩ := of_outcomeIs hc.1
  rw [Bool.and_eq_true, List.all_eq_true, List.any_eq_true] at hq
  obtain ⟨wf, hb, hr⟩ := C29_constructed_wf _ binaryEnv.fo hU.zero _ g hinit
  obtain ⟨hread, hlen⟩ := sample_read hU' hT (s := Sample.Ireland.sample) (by simp [samples]) hinit
  refine ⟨g, hg, wf, hb, hr, hread, phrases, hp, ?_, ?_, ?_⟩
  · intro phrase p hm
    exact Nat.le_trans (hlen phrases phrase p hm) (of_decide_eq_true (hq.1 phrase hm.1))
  · obtain ⟨phrase, hph, hs⟩ := hq.2
    obtain ⟨rs, h1, h2⟩ := of_outcomeIs hs
    obtain ⟨p, hpm⟩ := List.exists_mem_of_ne_nil _ (of_decide_eq_true h2)
    exact ⟨phrase, p, hph, rs, h1, hpm⟩
  · have := hc.2
    split at this
    · next rows e => exact ⟨rows, e, of_decide_eq_true this⟩
    · cases this

/-- What the theorems on sample grammars ask of the numbers is met, and a sample has rules. -/
example : Usual asciiTables single ∧ LtLaws single ∧ TenthsRead single (fun _ => True) id ∧ Sample.Ireland.sample ∈ samples ∧
    chosenIs single tieText (fun g _ => decide (∃ sec ∈ g.rules, sec.rules ≠ [])) = true :=
  ⟨single_example.2.2.2.2.1, single_example.2.2.1, single_example.2.1, by simp [samples], by decide +kernel⟩

end AS.Props
