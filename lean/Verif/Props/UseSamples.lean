import Verif.Props.Use
import Verif.Props.ElisionSamples
/-
Property C88 for the sample lexicons.
-/
namespace AS.Props
open AS AS.Wrapper AS.Tokenizer
variable {F D : Type}

theorem SameUse.refl (es : List LexEntry) : SameUse es es :=
  ⟨fun _ => Iff.rfl, fun _ _ => rfl, fun _ => Iff.rfl, fun _ => Iff.rfl⟩

theorem SameUse.trans {a b c : List LexEntry} (h : SameUse a b) (h' : SameUse b c) : SameUse a c :=
  ⟨fun w => (h.listed w).trans (h'.listed w), fun w k => (h.standard w k).trans (h'.standard w k),
    fun w => (h.front w).trans (h'.front w), fun w => (h.behind w).trans (h'.behind w)⟩

/-- The fields of a line after the first. -/
def lineFields (line : Str) : Str × List InType × Option (List Attach) :=
  match splitOn '\t' line with
  | _ :: w :: _ :: _ :: a :: _ => (squeeze w, lineTypes line, if isPlain a && decide (squeeze a = a) then some (Attach.asAttach a) else none)
  | _ => ([], [], none)

/-- The second line is for the same word as the first, with no other class and no other attachment that counts. -/
def shadows (a b : Str) : Bool :=
  match lineFields a, lineFields b with
  | (w, ty, some at_), (w', ty', some at') => decide (w = w') && !ty.isEmpty && !ty'.isEmpty && ty'.all (fun c => ty.contains c) &&
      at'.all (fun x => !countsAs x || at_.contains x)
  | _, _ => false

/-- Lines `p.1` and `p.2` for each of the pairs, one after the other, where line `p.2` is taken out. -/
def checkShadows : List (Nat × Nat) → List Str → Bool
  | [], _ => true
  | p :: ps, ls => decide (p.1 < p.2 ∧ p.2 < ls.length) && shadows (ls.getD p.1 []) (ls.getD p.2 []) && checkShadows ps (ls.eraseIdx p.2)

/-- The lines without those at the given places, the last place first. -/
def without (js : List Nat) (ls : List Str) : List Str := js.foldl (fun ls j => ls.eraseIdx j) ls

theorem fields_of {icu : Icu} (hk : IcuKeeps icu '\t') (loc : Str) {line : Str} (hp : c!"LEXENTRY:\t" <+: line)
    {at_ : List Attach} (ha : (lineFields line).2.2 = some at_) (hne : (lineFields line).2.1 ≠ []) :
    (∀ line', c!"LEXENTRY:\t" <+: line' → (lineFields line').2.2.isSome → (lineFields line').1 = (lineFields line).1 →
      (entryOf (canonLine icu loc line')).word = (entryOf (canonLine icu loc line)).word) ∧
    (entryOf (canonLine icu loc line)).type = (lineFields line).2.1 ∧ (entryOf (canonLine icu loc line)).attached = at_ := by
  have split : ∀ line, c!"LEXENTRY:\t" <+: line → (lineFields line).2.2.isSome → ∃ w s t a more,
      splitOn '\t' line = c!"LEXENTRY:" :: w :: s :: t :: a :: more ∧
      lineFields line = (squeeze w, lineTypes line, if isPlain a && decide (squeeze a = a) then some (Attach.asAttach a) else none) ∧
      (entryOf (canonLine icu loc line)).word = canonLine icu loc w ∧
      (entryOf (canonLine icu loc line)).attached = Attach.asAttach (canonLine icu loc a) := by
    rintro line ⟨rest, rfl⟩ h
    have hs : splitOn '\t' (c!"LEXENTRY:\t" ++ rest) = c!"LEXENTRY:" :: splitOn '\t' rest := by
      have : c!"LEXENTRY:\t" ++ rest = c!"LEXENTRY:" ++ '\t' :: rest := by simp
      rw [this, splitOn_append _ _ _ (by decide)]
    have hf := canonLine_fields hk loc (c!"LEXENTRY:\t" ++ rest)
    rw [hs, List.map_cons, canonLine_tag] at hf
    unfold lineFields at h ⊢
    rw [hs] at h ⊢
    split at h
    · next _ w s t a more e =>
      rw [List.cons.injEq] at e
      refine ⟨w, s, t, a, more, by rw [e.2], rfl, ?_, ?_⟩
      · unfold entryOf entryFields; rw [hf, e.2]; simp
      · unfold entryOf entryFields; rw [hf, e.2]; simp
    · cases h
  obtain ⟨w, s, t, a, more, h1, h2, h3, h4⟩ := split line hp (by rw [ha]; rfl)
  refine ⟨?_, ?_, ?_⟩
  · intro line' hp' ha' hw
    obtain ⟨w', s', t', a', more', h1', h2', h3', h4'⟩ := split line' hp' ha'
    rw [h3, h3']
    rw [h2, h2'] at hw
    simp only at hw
    unfold canonLine
    rw [hw]
  · have : (lineFields line).2.1 = lineTypes line := by rw [h2]
    rw [this] at hne ⊢
    exact entry_types hk loc hp hne
  · rw [h4]
    rw [h2] at ha
    simp only at ha
    split at ha
    · next hpl =>
      rw [Bool.and_eq_true, decide_eq_true_eq] at hpl
      injection ha with ha
      rw [canonLine_plain (by rw [hpl.2]; exact hpl.1), hpl.2, ha]
    · cases ha

theorem shadows_use {icu : Icu} (hk : IcuKeeps icu '\t') (loc : Str) {line line' : Str} (hp : c!"LEXENTRY:\t" <+: line)
    (hp' : c!"LEXENTRY:\t" <+: line') (h : shadows line line' = true) :
    let e := entryOf (canonLine icu loc line); let e' := entryOf (canonLine icu loc line')
    e.word = e'.word ∧ (∀ c ∈ e'.type, c ∈ e.type) ∧ ∀ x ∈ e'.attached, countsAs x = true → x ∈ e.attached := by
  unfold shadows at h
  split at h
  · next w ty at_ w' ty' at' h1 h2 =>
    simp only [Bool.and_eq_true, decide_eq_true_eq, Bool.not_eq_true', List.isEmpty_eq_false_iff, List.all_eq_true,
      List.contains_eq_mem, Bool.or_eq_true] at h
    obtain ⟨⟨⟨⟨rfl, h3⟩, h4⟩, h5⟩, h6⟩ := h
    obtain ⟨a1, a2, a3⟩ := fields_of hk loc hp (at_ := at_) (by rw [h1]) (by rw [h1]; exact h3)
    obtain ⟨b1, b2, b3⟩ := fields_of hk loc hp' (at_ := at') (by rw [h2]) (by rw [h2]; exact h4)
    refine ⟨b1 line hp (by rw [h1]; rfl) (by rw [h1, h2]), ?_, ?_⟩
    · rw [a2, b2, h1, h2]; exact h5
    · rw [a3, b3]
      intro x hx hc
      rcases h6 x hx with h | h
      · rw [hc] at h; cases h
      · exact h
  · cases h

theorem sameUse_erase {es : List LexEntry} {i j : Nat} (hij : i < j) (hj : j < es.length) {e e' : LexEntry} (hi : es[i]? = some e)
    (hj' : es[j]? = some e') (hw : e.word = e'.word) (hc : ∀ c ∈ e'.type, c ∈ e.type)
    (ha : ∀ x ∈ e'.attached, countsAs x = true → x ∈ e.attached) : SameUse es (es.eraseIdx j) := by
  have e1 : es = es.take j ++ e' :: es.drop (j + 1) := by
    have : es[j] = e' := by rw [List.getElem?_eq_getElem hj] at hj'; exact Option.some.inj hj'
    rw [← this, List.getElem_cons_drop, List.take_append_drop]
  have e2 : es.eraseIdx j = es.take j ++ es.drop (j + 1) := List.eraseIdx_eq_take_drop_succ ..
  have hm : e ∈ es.take j := by
    refine List.mem_of_getElem? (i := i) ?_
    rw [List.getElem?_take_of_lt hij]; exact hi
  have := sameUse_shadowed (es.take j) (es.drop (j + 1)) e' ⟨e, hm, hw⟩ (fun c h => ⟨e, hm, hw, hc c h⟩)
    (fun h => ⟨e, List.mem_append_left _ hm, hw, ha _ h rfl⟩) (fun h => ⟨e, List.mem_append_left _ hm, hw, ha _ h rfl⟩)
  rw [← e1, ← e2] at this
  exact this

theorem without_use {icu : Icu} (hk : IcuKeeps icu '\t') (loc : Str) : ∀ (ps : List (Nat × Nat)) (ls : List Str),
    (∀ l ∈ ls, c!"LEXENTRY:\t" <+: l) → checkShadows ps ls = true →
    SameUse (ls.map (fun l => entryOf (canonLine icu loc l))) ((without (ps.map (·.2)) ls).map (fun l => entryOf (canonLine icu loc l))) ∧
    ∀ l ∈ without (ps.map (·.2)) ls, l ∈ ls
  | [], ls, _, _ => ⟨SameUse.refl _, fun _ h => h⟩
  | p :: ps, ls, hp, h => by
    rw [checkShadows, Bool.and_eq_true, Bool.and_eq_true, decide_eq_true_eq] at h
    obtain ⟨⟨⟨h1, h2⟩, h3⟩, h4⟩ := h
    have sub : ∀ l ∈ ls.eraseIdx p.2, l ∈ ls := fun l hl => List.mem_of_mem_eraseIdx hl
    obtain ⟨i1, i2⟩ := without_use hk loc ps (ls.eraseIdx p.2) (fun l hl => hp l (sub l hl)) h4
    refine ⟨SameUse.trans ?_ i1, fun l hl => sub l (i2 l hl)⟩
    have h1' : p.1 < ls.length := by omega
    rw [List.getD_eq_getElem?_getD, List.getD_eq_getElem?_getD, List.getElem?_eq_getElem h1', List.getElem?_eq_getElem h2] at h3
    simp only [Option.getD_some] at h3
    have := shadows_use hk loc (hp _ (List.getElem_mem h1')) (hp _ (List.getElem_mem h2)) h3
    have e : (ls.eraseIdx p.2).map (fun l => entryOf (canonLine icu loc l)) = (ls.map (fun l => entryOf (canonLine icu loc l))).eraseIdx p.2 := by
      rw [List.eraseIdx_eq_take_drop_succ, List.eraseIdx_eq_take_drop_succ, List.map_append, List.map_take, List.map_drop]
    rw [e]
    exact sameUse_erase h1 (by simpa using h2) (by simp [h1']) (by simp [h2]) this.1 this.2.1 this.2.2

/-- The places, counted from 0 after the header, of lines of the sample lexicons (in the order of `pairs`) that come to nothing,
each with that of the line before it that does; the last first. -/
def shadowed : List (List (Nat × Nat)) :=
  [[], [(239, 240)], [], [], [(1436, 1437), (1279, 1280), (1277, 1278), (1199, 1201), (1199, 1200), (1159, 1160), (977, 978),
  (975, 976), (922, 923), (901, 902), (842, 843)], [], [], [(642, 644), (642, 643), (574, 601), (420, 421), (226, 227), (187,
  188)], [(438, 439), (397, 399), (397, 398), (240, 241), (200, 201), (160, 162), (70, 80), (53, 73), (31, 39), (1, 4), (1, 3),
  (1, 2)], [(525, 526), (196, 197)], [(302, 303)], [(85, 86)], [], [], [(610, 612), (610, 611), (389, 390), (222, 223), (183,
  184)], [(214, 215)], [], [(99, 100), (5, 6)], [], [], [(261, 262)], [], [(368, 369)], [(1630, 1631)], []]

set_option maxRecDepth 1000000 in
theorem shadowed_checked : (pairs.zip shadowed).all (fun x => checkShadows x.2 x.1.lexicon.body) = true := by decide +kernel

/-- Every sample lexicon gives the same without these lines, for every address. -/
theorem C88_samples (env : Env F D) (hk : IcuKeeps env.icu '\t') (p : Pair) (js : List (Nat × Nat)) (hx : (p, js) ∈ pairs.zip shadowed)
    (ha : env.archive p.lexicon.text = .notArchive)
    (ha' : env.archive (unlines (p.lexicon.header :: without (js.map (·.2)) p.lexicon.body)) = .notArchive)
    (address grammar locale filter : Str) :
    stdStandardize env address grammar p.lexicon.text locale filter =
      stdStandardize env address grammar (unlines (p.lexicon.header :: without (js.map (·.2)) p.lexicon.body)) locale filter ∧
    stdParseAddress env address p.lexicon.text locale filter =
      stdParseAddress env address (unlines (p.lexicon.header :: without (js.map (·.2)) p.lexicon.body)) locale filter ∧
    stdMatchAddress env address grammar p.lexicon.text locale filter =
      stdMatchAddress env address grammar (unlines (p.lexicon.header :: without (js.map (·.2)) p.lexicon.body)) locale filter := by
  obtain ⟨_, w, hw⟩ := pairs_checked p (List.of_mem_zip hx).1
  have hc : checkShadows js p.lexicon.body = true := List.all_eq_true.1 shadowed_checked _ hx
  have hp : ∀ l ∈ p.lexicon.body, c!"LEXENTRY:\t" <+: l := by
    intro l hl
    unfold checkLex at hw
    simp only [Bool.and_eq_true, List.all_eq_true] at hw
    have := hw.2 l hl
    unfold lineOk at this
    simp only [Bool.and_eq_true, List.isPrefixOf_iff_prefix] at this
    exact this.1.1
  obtain ⟨h1, h2⟩ := without_use hk p.lexicon.locale js p.lexicon.body hp hc
  obtain ⟨t1, _, _⟩ := lexText_of_check hw hk p.lexicon.body (fun _ h => h)
  obtain ⟨t2, _, _⟩ := lexText_of_check hw hk (without (js.map (·.2)) p.lexicon.body) h2
  exact C88_use env _ _ _ _ _ _ ha ha' t1 t2 rfl h1 address grammar locale filter

/-- The standard word a line gives. -/
def lineStandard (line : Str) : Str := (splitOn '\t' line).getD 2 []

set_option maxRecDepth 1000000 in
/-- There are 45 such lines in 13 of the 25 samples, 40 of them with another standard word, which is never the result. -/
theorem C88_counts : (shadowed.map List.length).sum = 45 ∧ (shadowed.filter (fun js => js ≠ [])).length = 13 ∧
    ((pairs.zip shadowed).map (fun x => (x.2.filter (fun p =>
      lineStandard (x.1.lexicon.body.getD p.1 []) ≠ lineStandard (x.1.lexicon.body.getD p.2 []))).length)).sum = 40 ∧
    (pairs.zip shadowed).all (fun x => (without (x.2.map (·.2)) x.1.lexicon.body).length + x.2.length = x.1.lexicon.body.length) := by
  decide +kernel

/-- The hypotheses of `C88_samples` hold for data/sample/switzerland.lex without its line `PL` `PLATZ`. -/
example : IcuKeeps exEnv.icu '\t' ∧ (Sample.Switzerland.pair, [(368, 369)]) ∈ pairs.zip shadowed ∧
    exEnv.archive Sample.Switzerland.pair.lexicon.text = .notArchive ∧
    Sample.Switzerland.pair.lexicon.body[369]? = some c!"LEXENTRY:\tPL\tPLATZ\tTYPE\tDET_SUF" :=
  ⟨asciiIcu_keeps _ (toUpper_low _ (by decide)), List.mem_of_getElem? (i := 22) rfl, rfl, by decide +kernel⟩

end AS.Props
