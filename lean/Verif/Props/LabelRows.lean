import Verif.Props.Labels
import Verif.Props.Tally
import Verif.Props.Together
/-
Property C113: the listing of all matches.
-/
namespace AS.Props
open AS AS.Wrapper AS.Tokenizer
variable {F D : Type} {σ : InType → InType}

/-! ### Counting -/

theorem linesNamed_sections (g : Grammar F) (s : Str) :
    linesNamed g s = (g.ruleSections.filter (fun x => decide (x.1 = s))).flatMap (·.2) := by
  unfold linesNamed Grammar.ruleSections
  rw [List.filter_map, List.flatMap_map]
  rfl

theorem refsNamed_sections (g : Grammar F) (s : Str) :
    refsNamed g s = (g.metaNames.filter (fun x => decide (x.1 = s))).flatMap (·.2) := by
  unfold refsNamed Grammar.metaNames
  rw [List.filter_map, List.flatMap_map]
  rfl

theorem linesNamed_relabel {g g' : Grammar F} (h : RelabelledGrammar σ g g') (s : Str) :
    linesNamed g' s = (linesNamed g s).map (Rule.relabel σ) := by
  rw [linesNamed_sections, linesNamed_sections, h.rules, List.filter_map, List.flatMap_map, List.map_flatMap]
  rfl

theorem refsNamed_relabel {g g' : Grammar F} (h : RelabelledGrammar σ g g') (s : Str) : refsNamed g' s = refsNamed g s := by
  rw [refsNamed_sections, refsNamed_sections, h.metas]

theorem count_inj {α β : Type} [BEq α] [LawfulBEq α] [BEq β] [LawfulBEq β] {f : α → β} (hf : ∀ x y, f x = f y → x = y) (a : α) :
    ∀ l : List α, (l.map f).count (f a) = l.count a
  | [] => rfl
  | x :: l => by
    rw [List.map_cons, List.count_cons, List.count_cons, count_inj hf a l]
    by_cases h : x = a
    · subst h; simp
    · have h' : ¬ f x = f a := fun e => h (hf _ _ e)
      simp [h, h']

theorem isPrefixOf_map (hσ : Relabels σ) : ∀ xs ys : List InType, (xs.map σ).isPrefixOf (ys.map σ) = xs.isPrefixOf ys
  | [], ys => by simp
  | x :: xs, [] => by simp
  | x :: xs, y :: ys => by
    rw [List.map_cons, List.map_cons, List.isPrefixOf, List.isPrefixOf, isPrefixOf_map hσ xs ys]
    congr 1
    by_cases h : x = y
    · subst h; rw [beq_self_eq_true, beq_self_eq_true]
    · have h' : ¬ σ x = σ y := fun e => h (hσ.inj _ _ e)
      rw [beq_eq_false_iff_ne.2 h, beq_eq_false_iff_ne.2 h']

theorem fitting_relabel (hσ : Relabels σ) (rules : List (Rule F)) (pat : List InType) :
    fitting (rules.map (Rule.relabel σ)) (pat.map σ) = fitting rules pat := by
  unfold fitting
  rw [List.filter_map, List.length_map]
  congr 2
  funext r
  exact isPrefixOf_map hσ r.inClass pat

theorem tallyStep_relabel [DecidableEq F] (hσ : Relabels σ) {g g' : Grammar F} (h : RelabelledGrammar σ g g') {w : Weight F}
    (hw : ∀ rules ss pat, w (rules.map (Rule.relabel σ)) ss (pat.map σ) = w rules ss pat)
    {e e' : List Str → List InType → List (Rule F) → Nat}
    (he : ∀ ss pat rs, e' ss (pat.map σ) (rs.map (Rule.relabel σ)) = e ss pat rs) : ∀ ss pat rs,
    tallyStep g' w e' ss (pat.map σ) (rs.map (Rule.relabel σ)) = tallyStep g w e ss pat rs
  | [], pat, [] => rfl
  | [], pat, r :: rs => rfl
  | s :: ss, pat, [] => by
    rw [List.map_nil, tallyStep, tallyStep, refsNamed_relabel h]
    congr 2
    funext refs
    exact he _ _ []
  | s :: ss, pat, r :: rs => by
    rw [List.map_cons, tallyStep, tallyStep, refsNamed_relabel h, linesNamed_relabel h, count_inj (fun _ _ => relabel_inj hσ), hw]
    have e1 : (pat.map σ).drop (r.relabel σ).inClass.length = (pat.drop r.inClass.length).map σ := by
      unfold Rule.relabel
      rw [List.map_drop, List.length_map]
    rw [e1, tallyStep_relabel hσ h hw he ss _ rs]
    congr 3
    funext refs
    exact he _ _ (r :: rs)

theorem tally_relabel [DecidableEq F] (hσ : Relabels σ) {g g' : Grammar F} (h : RelabelledGrammar σ g g') {w : Weight F}
    (hw : ∀ rules ss pat, w (rules.map (Rule.relabel σ)) ss (pat.map σ) = w rules ss pat) : ∀ m ss pat rs,
    tally g' w m ss (pat.map σ) (rs.map (Rule.relabel σ)) = tally g w m ss pat rs
  | 0 => tallyStep_relabel hσ h hw fun _ _ _ => rfl
  | m + 1 => tallyStep_relabel hσ h hw (tally_relabel hσ h hw m)

theorem times_relabel [DecidableEq F] (hσ : Relabels σ) {g g' : Grammar F} (h : RelabelledGrammar σ g g') (m : Nat) (ss : List Str)
    (rs : List (Rule F)) : times g' m ss (rs.map (Rule.relabel σ)) = times g m ss rs := by
  unfold times
  rw [inputs_relabel]
  refine tally_relabel hσ h ?_ m ss _ rs
  intro rules ss pat
  show (if ss = [] then 1 else fitting _ _) = if ss = [] then 1 else fitting _ _
  split
  · rfl
  · exact fitting_relabel hσ rules pat

/-! ### What the search lists -/

theorem count_rules [DecidableEq F] {results : List (SearchPath F)} (h : ∀ p ∈ results, p.next = [] ∧ p.remaining = [])
    (rs : List (Rule F)) : (results.map (·.rules)).count rs = results.count ⟨rs, [], []⟩ := by
  induction results with
  | nil => rfl
  | cons p ps ih =>
    obtain ⟨h1, h2⟩ := h p List.mem_cons_self
    rw [List.map_cons, List.count_cons, List.count_cons, ih fun q hq => h q (List.mem_cons_of_mem _ hq)]
    obtain ⟨a, b, c⟩ := p
    simp only at h1 h2
    subst h1 h2
    simp

/-- The search lists the same derivations, with the exchanged classes, each as often. -/
theorem C113_listed (hσ : Relabels σ) {g g' : Grammar F} (wf : WfGrammar g) (wf' : WfGrammar g') (h : RelabelledGrammar σ g g')
    {phrase phrase' : List Token} (ha : Along (RelabelledToken σ) phrase phrase')
    (hsize : sizeProd (phrase.map (·.inclass)) < 2 ^ 32) (node : Str) (results results' : List (SearchPath F))
    (hr : search g node phrase = .ok results) (hr' : search g' node phrase' = .ok results') :
    (results'.map (·.rules)).Perm (results.map (fun p => p.rules.map (Rule.relabel σ))) := by
  letI : DecidableEq F := Classical.typeDecidableEq F
  have hsize' : sizeProd (phrase'.map (·.inclass)) < 2 ^ 32 := by rw [sizeProd_labels ha]; exact hsize
  have f1 : ∀ p ∈ results, p.next = [] ∧ p.remaining = [] := fun p hp => (C36_search_sound wf node phrase results hr p hp).2.2
  have f2 : ∀ p ∈ results', p.next = [] ∧ p.remaining = [] := fun p hp => (C36_search_sound wf' node phrase' results' hr' p hp).2.2
  have s1 : ∀ t ∈ phrase, IsSet InType.code t.inclass := fun t ht => by
    obtain ⟨_, _, k⟩ := along_left ha t ht; exact k.sets.1
  have s2 : ∀ t ∈ phrase', IsSet InType.code t.inclass := fun t ht => by
    obtain ⟨_, _, k⟩ := along_right ha t ht; exact k.sets.2
  have hmap : results.map (fun p => p.rules.map (Rule.relabel σ)) = (results.map (·.rules)).map (List.map (Rule.relabel σ)) := by
    rw [List.map_map]; rfl
  rw [hmap, List.perm_iff_count]
  intro rs'
  by_cases he : ∃ rs : List (Rule F), rs' = rs.map (Rule.relabel σ)
  · obtain ⟨rs, rfl⟩ := he
    rw [count_inj (f := List.map (Rule.relabel σ)) (fun _ _ => map_relabel_inj hσ), count_rules f1, count_rules f2]
    have k1 := C99_listed wf node phrase hsize s1 results hr rs
    have k2 := C99_listed wf' node phrase' hsize' s2 results' hr' (rs.map (Rule.relabel σ))
    rw [inputs_relabel, picks_labels hσ ha, times_relabel hσ h, ← ha.length] at k2
    by_cases hp : Picks (inputs rs) (phrase.map (·.inclass))
    · rw [k1.1 hp, k2.1 hp]
    · rw [k1.2 hp, k2.2 hp]
  · rw [List.count_eq_zero.2, List.count_eq_zero.2]
    · intro hm
      obtain ⟨rs, _, e⟩ := List.mem_map.1 hm
      exact he ⟨rs, e.symm⟩
    · intro hm
      obtain ⟨p, hp, rfl⟩ := List.mem_map.1 hm
      obtain ⟨⟨m, hd⟩, _⟩ := C36_search_sound wf' node phrase' results' hr' p hp
      obtain ⟨rs, e, _⟩ := derives_relabelled h hd
      exact he ⟨rs, e⟩

/-! ### The rows -/

theorem retag_pattern : ∀ (ts : List Token) (is : List InType) (os : List OutType), is.length = ts.length → os.length = ts.length →
    (retag ts is os).map (fun t => InType.setAsString t.inclass) = is.map (fun c => InType.setAsString [c]) ∧
    (retag ts is os).map (fun t => t.outclass.asString) = os.map (·.asString)
  | [], [], [], _, _ => ⟨rfl, rfl⟩
  | t :: ts, i :: is, o :: os, h1, h2 => by
    simp only [List.length_cons, Nat.add_right_cancel_iff] at h1 h2
    obtain ⟨k1, k2⟩ := retag_pattern ts is os h1 h2
    simp only [retag, List.map_cons, k1, k2, and_self]

/-- The match a sequence of rules is listed as. -/
def listedAs (dops : FloatOps D) (widen : F → D) (rs : List (Rule F)) : ListedMatch D where
  reads := inputs rs
  gives := outputs rs
  score := dops.divNat ((rs.map (fun r => widen r.score)).foldl dops.add dops.zero) rs.length
  rules := dops.ofInt rs.length

/-- The row for a match. -/
def rowOfMatch (m : ListedMatch D) : MatchRow D := ⟨classPattern m.reads m.gives, m.score, m.rules⟩

theorem row_listed (dops : FloatOps D) (widen : F → D) {G : Grammar F} (wf : WfGrammar G) (hb : Balanced G) (node : Str)
    (phrase : List Token) (results : List (SearchPath F)) (h : search G node phrase = .ok results) :
    (results.map (rowFor dops widen phrase)).map reported = (results.map (·.rules)).map (fun rs => rowOfMatch (listedAs dops widen rs)) := by
  rw [List.map_map, List.map_map]
  refine List.map_congr_left fun p hp => ?_
  obtain ⟨h1, h2, _⟩ := search_balanced wf hb node phrase results h p hp
  have l1 : (inputs p.rules).length = phrase.length := by simpa using AS.picks_length h2
  have l2 : (outputs p.rules).length = (inputs p.rules).length := by
    revert h1
    generalize p.rules = rs
    intro h1
    induction rs with
    | nil => rfl
    | cons r rs ih =>
      unfold outputs inputs at ih ⊢
      rw [List.flatMap_cons, List.flatMap_cons, List.length_append, List.length_append,
        ih fun x hx => h1 x (List.mem_cons_of_mem _ hx), h1 r List.mem_cons_self]
  have hno : '\x00' ∉ patternText (reclassed phrase p) := patternText_noNul _ _ _
  obtain ⟨k1, k2⟩ := retag_pattern phrase (inputs p.rules) (outputs p.rules) l1 (by omega)
  simp only [Function.comp, reported, rowFor, rowOfMatch, listedAs]
  rw [← cstr_upToNul, Archive.cstr_free hno]
  unfold patternText reclassed classPattern
  rw [k1, k2]

theorem rows_relabelled (dops : FloatOps D) (widen : F → D) (hσ : Relabels σ) {g g' : Grammar F} (wf : WfGrammar g) (wf' : WfGrammar g')
    (hb : Balanced g) (hb' : Balanced g') (h : RelabelledGrammar σ g g') {phrases phrases' : List (List Token)}
    (ha : Along (Along (RelabelledToken σ)) phrases phrases') : (∀ p ∈ phrases, sizeProd (p.map (·.inclass)) < 2 ^ 32) →
    ∀ xs xs' : List (List (SearchPath F)), phrases.map (search g c!"ADDRESS") = xs.map .ok →
    phrases'.map (search g' c!"ADDRESS") = xs'.map .ok → ∃ ms : List (ListedMatch D),
      ((phrases.zip xs).flatMap (fun q => q.2.map (rowFor dops widen q.1))).map reported = ms.map rowOfMatch ∧
      (((phrases'.zip xs').flatMap (fun q => q.2.map (rowFor dops widen q.1))).map reported).Perm
        (ms.map (fun m => rowOfMatch { m with reads := m.reads.map σ })) := by
  induction ha with
  | nil => intro _ xs xs' _ _; exact ⟨[], by simp, by simp⟩
  | @cons p p' ps ps' r _ ih =>
    intro hsize xs xs' hx hx'
    cases xs with
    | nil => simp at hx
    | cons x xs =>
    cases xs' with
    | nil => simp at hx'
    | cons x' xs' =>
      simp only [List.map_cons, List.cons.injEq] at hx hx'
      obtain ⟨ms, k1, k2⟩ := ih (fun q hq => hsize q (List.mem_cons_of_mem _ hq)) xs xs' hx.2 hx'.2
      refine ⟨(x.map (·.rules)).map (listedAs dops widen) ++ ms, ?_, ?_⟩
      · rw [List.zip_cons_cons, List.flatMap_cons, List.map_append, List.map_append, k1, row_listed dops widen wf hb _ _ _ hx.1]
        simp only [List.map_map]
        rfl
      · rw [List.zip_cons_cons, List.flatMap_cons, List.map_append, List.map_append, row_listed dops widen wf' hb' _ _ _ hx'.1]
        refine List.Perm.append ?_ k2
        have hl := C113_listed hσ wf wf' h r (hsize p List.mem_cons_self) _ x x' hx.1 hx'.1
        refine (hl.map _).trans (List.Perm.of_eq ?_)
        simp only [List.map_map]
        refine List.map_congr_left fun q _ => ?_
        simp only [Function.comp, listedAs, inputs_relabel, outputs_relabel, List.length_map, List.map_map]
        rfl

/-- All matches listed with the exchanged classes: the same rows as often, with the exchanged classes in front of the arrow. -/
theorem C113_rows (env : Env F D) (hsort : SortContract env.sort) (h0 : env.fo.le0 env.fo.zero = true) (hk : IcuKeeps env.icu '\t')
    (ls ls' : List Str) (text text' filter filter' : Str) (h : RelabelledTexts env σ ls ls' text text' filter filter')
    (locale address : Str) (hn : '\t' ∉ address)
    (hsize : ∀ l phrases, loadLexicon env text = .ok l → phrasesOf env l locale filter address = .ok phrases →
      ∀ p ∈ phrases, sizeProd (p.map (·.inclass)) < 2 ^ 32)
    (rows rows' : List (MatchRow D)) (err err' : Option Str)
    (hr : stdMatchAddress env address (unlines ls) text locale filter = some ⟨some rows, err⟩)
    (hr' : stdMatchAddress env address (unlines ls') text' locale filter' = some ⟨some rows', err'⟩) :
    ∃ ms : List (ListedMatch D),
      rows.Perm (orFailed env.dops (ms.map (fun m => ⟨classPattern m.reads m.gives, m.score, m.rules⟩))) ∧
      rows'.Perm (orFailed env.dops (ms.map (fun m => ⟨classPattern (m.reads.map σ) m.gives, m.score, m.rules⟩))) := by
  obtain ⟨g, hg⟩ := h.accepted
  obtain ⟨g', hg', hR⟩ := C113_text _ env.fo h0 h.lines h.single.1 h.single.2 h.bom.1 h.bom.2 g hg
  obtain ⟨wf, hb, hroot⟩ := C29_constructed_wf _ env.fo h0 _ g hg
  obtain ⟨wf', hb', hroot'⟩ := C29_constructed_wf _ env.fo h0 _ g' hg'
  have lg : loadGrammar env (unlines ls) = .ok g := by unfold loadGrammar; rw [hg]
  have lg' : loadGrammar env (unlines ls') = .ok g' := by unfold loadGrammar; rw [hg']
  obtain ⟨l, l', hl, hl', hp⟩ := C113_tokens env hk ls ls' text text' filter filter' h locale address hn
  unfold stdMatchAddress at hr hr'
  rw [lg] at hr
  rw [lg'] at hr'
  simp only [hl, hl'] at hr hr'
  rcases hp with ⟨h1, _⟩ | ⟨ps, ps', h1, h2, h3⟩
  · simp [matchAddr, matchAddrWith, h1] at hr
  · obtain ⟨xs, x1, x2⟩ := rows_found env hsort wf hb hroot l locale filter address ps h1 hr
    obtain ⟨ys, y1, y2⟩ := rows_found env hsort wf' hb' hroot' l' locale filter' address ps' h2 hr'
    obtain ⟨ms, k1, k2⟩ := rows_relabelled env.dops env.widen h.classes wf wf' hb hb' hR h3 (hsize l ps hl h1) xs ys x1 y1
    refine ⟨ms, ?_, y2.trans ?_⟩
    · rw [k1] at x2
      exact x2
    · unfold orFailed
      rw [k2.isEmpty_eq]
      by_cases he : ms = []
      · subst he; exact .refl _
      · rw [if_neg (by simpa using he), if_neg (by simpa using he)]
        exact k2

/-- Both matches of `12 new york`, with CITY and PROV exchanged. -/
example : SortContract exEnv.sort ∧ exEnv.fo.le0 exEnv.fo.zero = true ∧ IcuKeeps exEnv.icu '\t' ∧
    RelabelledTexts exEnv swapCity (swapLines c!"0.8") (swapLines' c!"0.8") provText cityText c!"SPACE" c!"SPACE" ∧
    '\t' ∉ c!"12 new york" ∧
    (∀ l phrases, loadLexicon exEnv provText = .ok l → phrasesOf exEnv l c!"en" c!"SPACE" c!"12 new york" = .ok phrases →
      ∀ p ∈ phrases, sizeProd (p.map (·.inclass)) < 2 ^ 32) ∧
    stdMatchAddress exEnv c!"12 new york" (unlines (swapLines c!"0.8")) provText c!"en" c!"SPACE" =
      some ⟨some [⟨c!"NUMBER PROV -> HOUSE PROV", 4 / 5, 1⟩, ⟨c!"NUMBER CITY -> HOUSE CITY", 1 / 2, 1⟩], none⟩ ∧
    stdMatchAddress exEnv c!"12 new york" (unlines (swapLines' c!"0.8")) cityText c!"en" c!"SPACE" =
      some ⟨some [⟨c!"NUMBER CITY -> HOUSE PROV", 4 / 5, 1⟩, ⟨c!"NUMBER PROV -> HOUSE CITY", 1 / 2, 1⟩], none⟩ :=
  ⟨insertionSort_contract, by decide, asciiIcu_keeps _ (toUpper_low _ (by decide)), swap_lines c!"0.8" (Or.inl rfl), by decide,
    prov_sizes _ (by decide +kernel), by decide +kernel, by decide +kernel⟩

/-- Tokens that meet the hypothesis of `C113_listed`. -/
example : Along (RelabelledToken swapCity) [{ text := c!"NEW YORK", inclass := InType.asType c!"CITY,TYPE" }]
    [{ text := c!"NEW YORK", inclass := InType.asType c!"PROV,TYPE" }] :=
  .cons ⟨by decide +kernel, by decide +kernel, asType_isSet c!"CITY,TYPE", asType_isSet c!"PROV,TYPE"⟩ .nil

end AS.Props
