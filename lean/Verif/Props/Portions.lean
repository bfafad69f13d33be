import Verif.Spec.Portions
import Verif.Lemmas.Inline
import Verif.Props.Whole
import Verif.Props.Rounding
import Verif.Props.Further
/-
Property C114: the parts of the match that is chosen.
-/
namespace AS.Props
open AS Wrapper
variable {F D : Type}

/-! ### Parts of derivations -/

theorem inside_fill {G : Grammar F} {s : Str} {ss : List Str} {pre post : List (Rule F)} {k : Nat} (h : Inside G s ss pre post k)
    {mid : List (Rule F)} {m : Nat} (hm : Derives G [s] mid m) : Derives G ss (pre ++ mid ++ post) (k + m) := by
  induction h with
  | here hd =>
    have := derives_append hm hd
    rw [Nat.add_comm] at this
    exact this
  | rule h1 h2 h3 _ ih => exact .rule h1 h2 h3 ih
  | expand h1 h2 h3 _ ih =>
    rw [Nat.add_right_comm]
    exact .expand h1 h2 h3 ih

theorem inside_rule {G : Grammar F} {ss : List Str} {rs : List (Rule F)} {m : Nat} (h : Derives G ss rs m) :
    ∀ pre r post, rs = pre ++ r :: post → ∃ sec ∈ G.rules, r ∈ sec.rules ∧ Inside G sec.name ss pre post m := by
  induction h with
  | done => intro pre r post e; simp at e
  | @rule s ss sec r0 rs m h1 h2 h3 hd ih =>
    intro pre r post e
    cases pre with
    | nil =>
      simp only [List.nil_append, List.cons.injEq] at e
      obtain ⟨rfl, rfl⟩ := e
      subst h2
      exact ⟨sec, h1, h3, .here hd⟩
    | cons x pre =>
      simp only [List.cons_append, List.cons.injEq] at e
      obtain ⟨rfl, e⟩ := e
      obtain ⟨sec', k1, k2, k3⟩ := ih pre r post e
      exact ⟨sec', k1, k2, .rule h1 h2 h3 k3⟩
  | expand h1 h2 h3 _ ih =>
    intro pre r post e
    obtain ⟨sec', k1, k2, k3⟩ := ih pre r post e
    exact ⟨sec', k1, k2, .expand h1 h2 h3 k3⟩

theorem total_append {ι : Type} (ex : ι → Rat) : ∀ as bs : List ι, total ex (as ++ bs) = total ex as + total ex bs
  | [], bs => by rw [List.nil_append, total, Rat.zero_add]
  | a :: as, bs => by rw [List.cons_append, total, total, total_append ex as bs, Rat.add_assoc]

theorem inputs_append (as bs : List (Rule F)) : inputs (as ++ bs) = inputs as ++ inputs bs := by
  unfold inputs
  rw [List.flatMap_append]

theorem picks_front {ys zs : List InType} {C : List (List InType)} (h : Picks (ys ++ zs) C) : ∀ {ys' : List InType},
    Picks ys' (C.take ys.length) → Picks (ys' ++ zs) C := by
  induction ys generalizing C with
  | nil =>
    intro ys' h'
    rw [List.length_nil, List.take_zero] at h'
    cases h'
    exact h
  | cons y ys ih =>
    intro ys' h'
    cases h with
    | cons a b =>
      rw [List.length_cons, List.take_succ_cons] at h'
      cases h' with
      | cons c d => exact .cons c (ih b d)

theorem picks_splice {xs ys zs : List InType} {C : List (List InType)} (h : Picks (xs ++ ys ++ zs) C) {ys' : List InType}
    (h' : Picks ys' ((C.drop xs.length).take ys.length)) : Picks (xs ++ ys' ++ zs) C := by
  induction xs generalizing C with
  | nil => exact picks_front h h'
  | cons x xs ih =>
    cases h with
    | cons a b => exact .cons a (ih b h')

/-! ## C114 -/

/-- No part of a derivation with the greatest average can be exchanged for rules that lie further above that average, together. -/
theorem C114_part {exact : F → Rat} {G : Grammar F} (wf : WfGrammar G) {phrases : List (List Token)} {phrase : List Token}
    {rs : List (Rule F)} (h : Greatest exact G phrases phrase rs) (s : Str) (pre mid post : List (Rule F)) (k : Nat)
    (hrs : rs = pre ++ mid ++ post) (hin : Inside G s [c!"ADDRESS"] pre post k) (mid' : List (Rule F)) (m' : Nat)
    (hd : Derives G [s] mid' m') (hk : k + m' ≤ phrase.length + 2) (hp : Picks (inputs mid') (readBy (phrase.map (·.inclass)) pre mid)) :
    surplus exact (exactAverage exact rs) mid' ≤ surplus exact (exactAverage exact rs) mid := by
  have hd' := inside_fill hin hd
  have hpk := h.picks
  rw [hrs, inputs_append, inputs_append] at hpk
  have hpk' := picks_splice hpk hp
  rw [← inputs_append, ← inputs_append] at hpk'
  have hle := h.greatest phrase h.listed _ _ hd' hk hpk'
  obtain ⟨m, hdm, _⟩ := h.derived
  have n1 : 0 < rs.length := List.length_pos_iff.2 (derives_nonempty wf hdm (by simp))
  have n2 : 0 < (pre ++ mid' ++ post).length := List.length_pos_iff.2 (derives_nonempty wf hd' (by simp))
  have e1 : total (fun r => exact r.score) rs = exactAverage exact rs * rs.length := by
    unfold exactAverage
    rw [Rat.div_mul_cancel]
    intro hz
    have : rs.length = 0 := by exact_mod_cast hz
    omega
  have e2 : total (fun r => exact r.score) (pre ++ mid' ++ post) ≤ exactAverage exact rs * (pre ++ mid' ++ post).length := by
    have hp2 : (0 : Rat) < ((pre ++ mid' ++ post).length : Rat) := by exact_mod_cast n2
    rw [← Rat.not_lt, ← Rat.lt_div_iff hp2, Rat.not_lt]
    exact hle
  have l1 : (rs.length : Rat) = (pre.length : Rat) + mid.length + post.length := by
    rw [hrs]; simp only [List.length_append, Rat.natCast_add]
  have l2 : ((pre ++ mid' ++ post).length : Rat) = (pre.length : Rat) + mid'.length + post.length := by
    simp only [List.length_append, Rat.natCast_add]
  have t1 : total (fun r => exact r.score) rs = total (fun r => exact r.score) pre + total (fun r => exact r.score) mid +
      total (fun r => exact r.score) post := by
    rw [hrs, total_append, total_append]
  rw [total_append, total_append, l2] at e2
  rw [t1, l1] at e1
  unfold surplus
  generalize exactAverage exact rs = A at *
  grind

/-- In particular there is none of as many rules with a greater average. -/
theorem C114_equal {exact : F → Rat} {G : Grammar F} (wf : WfGrammar G) {phrases : List (List Token)} {phrase : List Token}
    {rs : List (Rule F)} (h : Greatest exact G phrases phrase rs) (s : Str) (pre mid post : List (Rule F)) (k : Nat)
    (hrs : rs = pre ++ mid ++ post) (hin : Inside G s [c!"ADDRESS"] pre post k) (mid' : List (Rule F)) (m' : Nat)
    (hd : Derives G [s] mid' m') (hk : k + m' ≤ phrase.length + 2) (hp : Picks (inputs mid') (readBy (phrase.map (·.inclass)) pre mid))
    (hlen : mid'.length = mid.length) : exactAverage exact mid' ≤ exactAverage exact mid := by
  have hpart := C114_part wf h s pre mid post k hrs hin mid' m' hd hk hp
  have n : 0 < mid.length := by rw [← hlen]; exact List.length_pos_iff.2 (derives_nonempty wf hd (by simp))
  have hn : (0 : Rat) < (mid.length : Rat) := by exact_mod_cast n
  unfold surplus at hpart
  unfold exactAverage
  rw [hlen] at hpart ⊢
  rw [← Rat.not_lt, Rat.div_lt_iff hn, Rat.div_mul_cancel (Rat.ne_of_gt hn), Rat.not_lt]
  grind

/-- Every rule of it has the greatest score of the rules of its section that could read the same tokens. -/
theorem C114_rule {exact : F → Rat} {G : Grammar F} (wf : WfGrammar G) {phrases : List (List Token)} {phrase : List Token}
    {rs : List (Rule F)} (h : Greatest exact G phrases phrase rs) (pre : List (Rule F)) (r : Rule F) (post : List (Rule F))
    (hrs : rs = pre ++ r :: post) : ∃ sec ∈ G.rules, r ∈ sec.rules ∧
      ∀ r' ∈ sec.rules, Picks r'.inClass (readBy (phrase.map (·.inclass)) pre [r]) → exact r'.score ≤ exact r.score := by
  obtain ⟨m, hd, hm⟩ := h.derived
  obtain ⟨sec, h1, h2, h3⟩ := inside_rule hd pre r post hrs
  refine ⟨sec, h1, h2, fun r' hr' hp => ?_⟩
  have hpart := C114_part wf h sec.name pre [r] post m (by rw [hrs]; simp) h3 [r'] 0 (.rule h1 rfl hr' .done) (by omega)
    (by simpa [inputs] using hp)
  simp only [surplus, total, List.length_cons, List.length_nil] at hpart
  grind

/-- Where the rounding is fine enough for the scores of the grammar, an address that is returned is the reading by such a
derivation. -/
theorem C114_returned (env : Env F D) (laws : LtLaws env.fo) (signs : SignLaws env.fo)
    (htot : ∀ a b c, env.fo.lt env.fo.zero b = true → env.fo.lt a c = true → env.fo.lt a b = true ∨ env.fo.lt b c = true)
    (h0 : env.fo.le0 env.fo.zero = true) {fin : F → Prop} {val exact : F → Rat} {u lo hi a b : Rat} {q N : Nat}
    (R : RoundedArith env.fo fin val u lo hi) (hfine : FineEnough u lo hi a b q N) (address grammar lexicon locale filter : Str)
    (g : Grammar F) (hg : loadGrammar env grammar = .ok g) (hread : ScoresRead fin val exact u a b q g)
    (l : Lexicon) (hl : loadLexicon env lexicon = .ok l) (phrases : List (List Token))
    (hp : phrasesOf env l locale filter address = .ok phrases) (hsize : ∀ p ∈ phrases, sizeProd (p.map (·.inclass)) < 2 ^ 32)
    (hN : ∀ phrase p, MatchOf g phrases phrase p → p.rules.length ≤ N) (x : StdAddr) (err : Option Str)
    (h : stdStandardize env address grammar lexicon locale filter = some ⟨some x, err⟩) :
    ∃ (phrase : List Token) (rs : List (Rule F)) (std : List Token), Greatest exact g phrases phrase rs ∧
      (retag phrase (inputs rs) (outputs rs)).map l.standardize = std.map some ∧ std.map (·.outclass) = outputs rs ∧
      (∀ f, x.get f = if wordsFor f std = [] then none else some (upToNul (joinWith c!" " (wordsFor f std)))) ∧
      x.pattern = some (patternText (retag phrase (inputs rs) (outputs rs))) := by
  have hinit : Grammar.initialize env.u.toCharTables env.fo grammar = .ok g := by
    unfold loadGrammar at hg
    split at hg
    · next g' e => cases hg; exact e
    · cases hg
  obtain ⟨wf, hb, hroot⟩ := C29_constructed_wf _ env.fo h0 grammar g hinit
  obtain ⟨g', l', phrases', phrase, rs, m, std, k1, k2, k3, k4, k5, k6, k7, _, k8, k9, k10, k11, k12⟩ :=
    C65_within env laws signs htot h0 address grammar lexicon locale filter x err h
  rw [hg] at k1; cases k1
  rw [hl] at k2; cases k2
  rw [hp] at k3; cases k3
  have matched : ∀ phrase' ∈ phrases, ∀ rs' m', Derives g [c!"ADDRESS"] rs' m' → m' ≤ phrase'.length + 2 →
      Picks (inputs rs') (phrase'.map (·.inclass)) → MatchOf g phrases phrase' ⟨rs', [], []⟩ := by
    intro phrase' hm rs' m' hd hl hpk
    obtain ⟨results, hs⟩ := search_root wf hroot phrase'
    exact ⟨hm, results, hs, (C37_search_exact wf _ phrase' (hsize _ hm) results hs rs').2 ⟨m', hd, hl, hpk⟩⟩
  have hmatch := matched phrase k4 rs m k5 k6 k7
  refine ⟨phrase, rs, std, ⟨k4, ⟨m, k5, k6⟩, k7, ?_⟩, k9, k10, k11, k12⟩
  intro phrase' hm rs' m' hd hl hpk
  have hmatch' := matched phrase' hm rs' m' hd hl hpk
  rw [← Rat.not_lt]
  intro hlt
  have hord := C105_ordered R hfine wf hread phrases hN phrase phrase' _ _ hmatch hmatch' hlt
  have hpos : env.fo.lt env.fo.zero (average env.fo rs') = true := by
    obtain ⟨f, n⟩ := C105_average R hfine wf hread phrases phrase' _ hmatch' (hN _ _ hmatch')
    rw [R.lt _ _ R.zero.1 f, R.zero.2]
    obtain ⟨h0, h1, ha, _⟩ := hfine
    have hlen : 0 < rs'.length := List.length_pos_iff.2 (match_rules wf hmatch').1
    have hA : a ≤ exactAverage exact rs' := by
      unfold exactAverage
      rw [← Rat.not_lt, Rat.div_lt_iff (by exact_mod_cast hlen), Rat.not_lt, Rat.mul_comm]
      refine (total_range _ a b rs' ?_).1
      intro r hr
      obtain ⟨sec, hs, hrs⟩ := (match_rules wf hmatch').2.1 r hr
      exact ⟨(hread sec hs r hrs).2.2.1, (hread sec hs r hrs).2.2.2.1⟩
    have := Rat.mul_pos (pow_pos' (x := 1 - u) (by grind) (rs'.length + 2)) (show 0 < exactAverage exact rs' by grind)
    have := n.1
    grind
  have := k8 phrase' hm (hsize _ hm) rs' m' hd hl hpk hpos
  simp only at hord
  rw [this] at hord
  cases hord

/-- So with the sample grammars and single precision, for addresses of at most 90 tokens. -/
theorem C114_samples (env : Env F D) (laws : LtLaws env.fo) (signs : SignLaws env.fo)
    (htot : ∀ a b c, env.fo.lt env.fo.zero b = true → env.fo.lt a c = true → env.fo.lt a b = true ∨ env.fo.lt b c = true)
    (hu : Usual env.u.toCharTables env.fo) {fin : F → Prop} {val : F → Rat} {lo hi : Rat}
    (R : RoundedArith env.fo fin val (1 / 2 ^ 24) lo hi) (hlo : lo ≤ 1 / 20) (hhi : 100 ≤ hi) (ht : TenthsRead env.fo fin val)
    (s : Sample) (hs : s ∈ samples) (address lexicon locale filter : Str) (l : Lexicon) (hl : loadLexicon env lexicon = .ok l)
    (phrases : List (List Token)) (hp : phrasesOf env l locale filter address = .ok phrases)
    (hsize : ∀ p ∈ phrases, p.length ≤ 90 ∧ sizeProd (p.map (·.inclass)) < 2 ^ 32) (x : StdAddr) (err : Option Str)
    (h : stdStandardize env address (unlines s.lines) lexicon locale filter = some ⟨some x, err⟩) :
    ∃ (g : Grammar F) (phrase : List Token) (rs : List (Rule F)), loadGrammar env (unlines s.lines) = .ok g ∧ WfGrammar g ∧
      Greatest (fun x => nearestTenth (val x)) g phrases phrase rs ∧
      x.pattern = some (patternText (retag phrase (inputs rs) (outputs rs))) := by
  obtain ⟨g, hg, _⟩ := C81_accepted hu s hs
  obtain ⟨wf, _, _⟩ := C29_constructed_wf _ env.fo hu.zero _ g hg
  obtain ⟨hread, hlen⟩ := sample_read hu ht hs hg
  have lg : loadGrammar env (unlines s.lines) = .ok g := by unfold loadGrammar; rw [hg]
  obtain ⟨phrase, rs, _, k1, _, _, _, k2⟩ := C114_returned env laws signs htot hu.zero R (fine_samples hlo hhi) address _ lexicon locale
    filter g lg hread l hl phrases hp (fun p hm => (hsize p hm).2)
    (fun phrase p hm => Nat.le_trans (hlen phrases phrase p hm) (hsize phrase hm.1).1) x err h
  exact ⟨g, phrase, rs, lg, wf, k1, k2⟩

/-! ### Examples -/

theorem greatest_of_search {exact : F → Rat} {g : Grammar F} (wf : WfGrammar g) {phrase : List Token}
    (hsize : sizeProd (phrase.map (·.inclass)) < 2 ^ 32) {results : List (SearchPath F)} (hs : search g c!"ADDRESS" phrase = .ok results)
    {rs : List (Rule F)} (hm : ⟨rs, [], []⟩ ∈ results) (h : ∀ p ∈ results, exactAverage exact p.rules ≤ exactAverage exact rs) :
    Greatest exact g [phrase] phrase rs := by
  obtain ⟨m, h1, h2, h3⟩ := (C37_search_exact wf _ phrase hsize results hs rs).1 hm
  refine ⟨List.mem_singleton.2 rfl, ⟨m, h1, h2⟩, h3, ?_⟩
  intro phrase' hp rs' m' hd hl hpk
  rw [List.mem_singleton] at hp
  subst hp
  exact h _ ((C37_search_exact wf _ phrase' hsize results hs rs').2 ⟨m', hd, hl, hpk⟩)

theorem Derives.byRule {G : Grammar F} {s : Str} {rules : List (Rule F)} {r : Rule F} {ss : List Str} {rs : List (Rule F)} {m : Nat}
    (h : (s, rules) ∈ G.ruleSections) (hr : r ∈ rules) (hd : Derives G ss rs m) : Derives G (s :: ss) (r :: rs) m := by
  obtain ⟨sec, h1, e⟩ := List.mem_map.1 h
  simp only [Prod.mk.injEq] at e
  obtain ⟨e1, rfl⟩ := e
  exact .rule h1 e1 hr hd

def partText : Str := unlines [c!"[ADDRESS]", c!"@PART @LAST", c!"[PART]", c!"@ONE", c!"@TWO @TWO", c!"[ONE]",
  c!"WORD WORD -> STREET STREET -> 0.6", c!"[TWO]", c!"WORD -> BLDNG -> 0.5", c!"WORD -> CITY -> 0.3", c!"[LAST]", c!"NUMBER -> HOUSE -> 0.1"]
def ruleOne : Rule Rat := ⟨[.WORD, .WORD], [.STREET, .STREET], 3 / 5⟩
def ruleTwo : Rule Rat := ⟨[.WORD], [.BLDNG], 1 / 2⟩
def ruleLow : Rule Rat := ⟨[.WORD], [.CITY], 3 / 10⟩
def ruleLast : Rule Rat := ⟨[.NUMBER], [.HOUSE], 1 / 10⟩

theorem part_facts : ∃ g l phrase, loadGrammar exEnv partText = .ok g ∧ loadLexicon exEnv provText = .ok l ∧
    phrasesOf exEnv l c!"en" c!"SPACE" c!"abc def 12" = .ok [phrase] ∧ phrase.map (·.inclass) = [[.WORD], [.WORD], [.NUMBER]] ∧
    g.metaNames = [(c!"ADDRESS", [[c!"PART", c!"LAST"]]), (c!"PART", [[c!"ONE"], [c!"TWO", c!"TWO"]])] ∧
    g.ruleSections = [(c!"ONE", [ruleOne]), (c!"TWO", [ruleTwo, ruleLow]), (c!"LAST", [ruleLast])] ∧
    ∃ results, search g c!"ADDRESS" phrase = .ok results ∧ ⟨[ruleTwo, ruleTwo, ruleLast], [], []⟩ ∈ results ∧
      ∀ p ∈ results, exactAverage id p.rules ≤ exactAverage id [ruleTwo, ruleTwo, ruleLast] := by
  have key : outcomeIs (loadGrammar exEnv partText) (fun g => outcomeIs (loadLexicon exEnv provText) (fun l =>
      outcomeIs (phrasesOf exEnv l c!"en" c!"SPACE" c!"abc def 12") (fun phrases => match phrases with
        | [phrase] => decide (phrase.map (·.inclass) = [[.WORD], [.WORD], [.NUMBER]] ∧
            g.metaNames = [(c!"ADDRESS", [[c!"PART", c!"LAST"]]), (c!"PART", [[c!"ONE"], [c!"TWO", c!"TWO"]])] ∧
            g.ruleSections = [(c!"ONE", [ruleOne]), (c!"TWO", [ruleTwo, ruleLow]), (c!"LAST", [ruleLast])]) &&
          outcomeIs (search g c!"ADDRESS" phrase) (fun results => decide (⟨[ruleTwo, ruleTwo, ruleLast], [], []⟩ ∈ results ∧
            ∀ p ∈ results, exactAverage id p.rules ≤ exactAverage id [ruleTwo, ruleTwo, ruleLast]))
        | _ => false))) = true := by decide +kernel
  obtain ⟨g, h1, h2⟩ := of_outcomeIs key
  obtain ⟨l, h3, h4⟩ := of_outcomeIs h2
  obtain ⟨phrases, h5, h6⟩ := of_outcomeIs h4
  split at h6
  · next phrase =>
    rw [Bool.and_eq_true] at h6
    obtain ⟨results, h7, h8⟩ := of_outcomeIs h6.2
    obtain ⟨a, b, c⟩ := of_decide_eq_true h6.1
    exact ⟨g, l, phrase, h1, h3, h5, a, b, c, results, h7, of_decide_eq_true h8⟩
  · cases h6

theorem part_wf {g : Grammar Rat} (h1 : loadGrammar exEnv partText = .ok g) : WfGrammar g := by
  have hinit : Grammar.initialize exEnv.u.toCharTables exEnv.fo partText = .ok g := by
    unfold loadGrammar at h1
    split at h1
    · next g' e => cases h1; exact e
    · cases h1
  exact (C29_constructed_wf _ exEnv.fo (by decide) _ g hinit).1

theorem part_inside {g : Grammar Rat}
    (h5 : g.metaNames = [(c!"ADDRESS", [[c!"PART", c!"LAST"]]), (c!"PART", [[c!"ONE"], [c!"TWO", c!"TWO"]])])
    (h6 : g.ruleSections = [(c!"ONE", [ruleOne]), (c!"TWO", [ruleTwo, ruleLow]), (c!"LAST", [ruleLast])]) :
    Inside g c!"PART" [c!"ADDRESS"] [] [ruleLast] 1 := by
  have hm : (c!"ADDRESS", [[c!"PART", c!"LAST"]]) ∈ g.metaNames := by rw [h5]; simp
  obtain ⟨sec, k1, k2⟩ := List.mem_map.1 hm
  simp only [Prod.mk.injEq] at k2
  obtain ⟨refs, k3, k4⟩ : ∃ refs ∈ sec.rules, refs.map (·.name) = [c!"PART", c!"LAST"] := by
    have : [c!"PART", c!"LAST"] ∈ sec.rules.map (·.map (·.name)) := by rw [k2.2]; simp
    exact List.mem_map.1 this
  refine .expand k1 k2.1 k3 ?_
  rw [k4]
  exact .here (Derives.byRule (rules := [ruleLast]) (by rw [h6]; simp) (by simp) .done)

/-- With other numbers of rules the averages of the parts do not decide: two words are read by two rules of score 0.5, although there
is one of score 0.6 that reads both, because the third rule has a low score that counts for less among three rules than among two. -/
theorem C114_number : ∃ (g : Grammar Rat) (l : Lexicon) (phrase : List Token) (one two last : Rule Rat),
    loadGrammar exEnv partText = .ok g ∧ loadLexicon exEnv provText = .ok l ∧
    phrasesOf exEnv l c!"en" c!"SPACE" c!"abc def 12" = .ok [phrase] ∧ Greatest id g [phrase] phrase [two, two, last] ∧
    Inside g c!"PART" [c!"ADDRESS"] [] [last] 1 ∧ Derives g [c!"PART"] [two, two] 1 ∧ Derives g [c!"PART"] [one] 1 ∧
    Picks (inputs [one]) (readBy (phrase.map (·.inclass)) [] [two, two]) ∧ exactAverage id [two, two] < exactAverage id [one] ∧
    stdStandardize exEnv c!"abc def 12" partText provText c!"en" c!"SPACE" = some ⟨some
      { building := some c!"ABC DEF", house_num := some c!"12", pattern := some c!"WORD WORD NUMBER -> BLDNG BLDNG HOUSE" }, none⟩ := by
  obtain ⟨g, l, phrase, h1, h2, h3, h4, h5, h6, results, h7, h8, h9⟩ := part_facts
  have wf := part_wf h1
  refine ⟨g, l, phrase, ruleOne, ruleTwo, ruleLast, h1, h2, h3, greatest_of_search wf (by rw [h4]; decide) h7 h8 h9, part_inside h5 h6, ?_, ?_, ?_,
    by decide +kernel, by decide +kernel⟩
  · refine Derives.line (rules := [[c!"ONE"], [c!"TWO", c!"TWO"]]) (refs := [c!"TWO", c!"TWO"]) (by rw [h5]; simp) (by simp) ?_
    exact Derives.byRule (rules := [ruleTwo, ruleLow]) (by rw [h6]; simp) (by simp)
      (Derives.byRule (rules := [ruleTwo, ruleLow]) (by rw [h6]; simp) (by simp) .done)
  · refine Derives.line (rules := [[c!"ONE"], [c!"TWO", c!"TWO"]]) (refs := [c!"ONE"]) (by rw [h5]; simp) (by simp) ?_
    exact Derives.byRule (rules := [ruleOne]) (by rw [h6]; simp) (by simp) .done
  · rw [h4]
    exact .cons (by simp) (.cons (by simp) .nil)

/-- A grammar and an address with a greatest derivation; a part of it could be read by other rules of its section, and a rule of it by
another rule of the same section. -/
example : ∃ (g : Grammar Rat) (phrase : List Token) (two low last : Rule Rat), WfGrammar g ∧
    Greatest id g [phrase] phrase [two, two, last] ∧ low ≠ two ∧ Inside g c!"PART" [c!"ADDRESS"] [] [last] 1 ∧
    Derives g [c!"PART"] [low, two] 1 ∧ 1 + 1 ≤ phrase.length + 2 ∧
    Picks (inputs [low, two]) (readBy (phrase.map (·.inclass)) [] [two, two]) ∧
    (∃ sec ∈ g.rules, two ∈ sec.rules ∧ low ∈ sec.rules) ∧ Picks low.inClass (readBy (phrase.map (·.inclass)) [two] [two]) := by
  obtain ⟨g, l, phrase, h1, h2, h3, h4, h5, h6, results, h7, h8, h9⟩ := part_facts
  have wf := part_wf h1
  refine ⟨g, phrase, ruleTwo, ruleLow, ruleLast, wf, greatest_of_search wf (by rw [h4]; decide) h7 h8 h9, by decide +kernel,
    part_inside h5 h6, ?_, by omega, ?_, ?_, ?_⟩
  · refine Derives.line (rules := [[c!"ONE"], [c!"TWO", c!"TWO"]]) (refs := [c!"TWO", c!"TWO"]) (by rw [h5]; simp) (by simp) ?_
    exact Derives.byRule (rules := [ruleTwo, ruleLow]) (by rw [h6]; simp) (by simp)
      (Derives.byRule (rules := [ruleTwo, ruleLow]) (by rw [h6]; simp) (by simp) .done)
  · rw [h4]
    exact .cons (by simp) (.cons (by simp) .nil)
  · have hm : (c!"TWO", [ruleTwo, ruleLow]) ∈ g.ruleSections := by rw [h6]; simp
    obtain ⟨sec, k1, k2⟩ := List.mem_map.1 hm
    simp only [Prod.mk.injEq] at k2
    exact ⟨sec, k1, by rw [k2.2]; simp, by rw [k2.2]; simp⟩
  · rw [h4]
    exact .cons (by simp) .nil

theorem binary_signs : SignLaws binaryEnv.fo where
  zero_ge := by decide +kernel
  pos_ge := ratOps_signs.pos_ge
  neg_ge := by decide +kernel
  neg_lt := by decide +kernel

set_option maxRecDepth 100000 in
/-- An address with the grammar of Ireland and single precision. -/
example : LtLaws binaryEnv.fo ∧ SignLaws binaryEnv.fo ∧
    (∀ a b c, binaryEnv.fo.lt binaryEnv.fo.zero b = true → binaryEnv.fo.lt a c = true →
      binaryEnv.fo.lt a b = true ∨ binaryEnv.fo.lt b c = true) ∧ Usual binaryEnv.u.toCharTables binaryEnv.fo ∧
    RoundedArith binaryEnv.fo (fun _ => True) id (1 / 2 ^ 24) 0 100 ∧ TenthsRead binaryEnv.fo (fun _ => True) id ∧
    FineEnough (1 / 2 ^ 24) 0 100 (1 / 10) (9 / 10) 10 90 ∧
    ∃ g l phrases, loadGrammar binaryEnv (unlines Sample.Ireland.sample.lines) = .ok g ∧
      ScoresRead (fun _ => True) id (fun x => nearestTenth (id x)) (1 / 2 ^ 24) (1 / 10) (9 / 10) 10 g ∧
      loadLexicon binaryEnv provText = .ok l ∧ phrasesOf binaryEnv l c!"en" c!"SPACE" c!"12 abc str new york" = .ok phrases ∧
      (∀ p ∈ phrases, p.length ≤ 90 ∧ sizeProd (p.map (·.inclass)) < 2 ^ 32) ∧
      (∀ phrase p, MatchOf g phrases phrase p → p.rules.length ≤ 90) ∧
      ∃ x, stdStandardize binaryEnv c!"12 abc str new york" (unlines Sample.Ireland.sample.lines) provText c!"en" c!"SPACE" =
        some ⟨some x, none⟩ ∧ x.pattern = some c!"NUMBER WORD TYPE CITY -> HOUSE STREET SUFTYP CITY" := by
  obtain ⟨hR, hT, hL, hm, hU, hD⟩ := single_example
  have hU' : Usual binaryEnv.u.toCharTables binaryEnv.fo := ⟨usual_example.ascii, hU.zero, hU.scores⟩
  refine ⟨hL, binary_signs, ?_, hU', hR, hT, fine_samples (by decide +kernel) (by decide +kernel), ?_⟩
  · intro a b c _ h
    simp only [binaryEnv, single, binary, decide_eq_true_eq] at *
    grind
  obtain ⟨g, hg, hc⟩ := of_outcomeIs (o := loadGrammar binaryEnv (unlines Sample.Ireland.sample.lines)) (p := fun _ =>
    outcomeIs (loadLexicon binaryEnv provText) (fun l =>
      outcomeIs (phrasesOf binaryEnv l c!"en" c!"SPACE" c!"12 abc str new york") (fun phrases =>
        decide (∀ p ∈ phrases, p.length ≤ 90 ∧ sizeProd (p.map (·.inclass)) < 2 ^ 32)))) (by decide +kernel)
  obtain ⟨l, hl, hc⟩ := of_outcomeIs hc
  obtain ⟨phrases, hp, hc⟩ := of_outcomeIs hc
  have hsize := of_decide_eq_true hc
  have hinit : Grammar.initialize binaryEnv.u.toCharTables binaryEnv.fo (unlines Sample.Ireland.sample.lines) = .ok g := by
    unfold loadGrammar at hg
    split at hg
    · next g' e => cases hg; exact e
    · cases hg
  obtain ⟨hread, hlen⟩ := sample_read hU' hT (s := Sample.Ireland.sample) (by simp [samples]) hinit
  refine ⟨g, l, phrases, hg, hread, hl, hp, hsize, fun phrase p hm => Nat.le_trans (hlen phrases phrase p hm) (hsize phrase hm.1).1, ?_⟩
  have key : (match stdStandardize binaryEnv c!"12 abc str new york" (unlines Sample.Ireland.sample.lines) provText c!"en" c!"SPACE" with
    | some ⟨some x, none⟩ => decide (x.pattern = some c!"NUMBER WORD TYPE CITY -> HOUSE STREET SUFTYP CITY")
    | _ => false) = true := by decide +kernel
  split at key
  · next x e => exact ⟨x, e, of_decide_eq_true key⟩
  · cases key

end AS.Props
