import Verif.Lemmas.Pagc
import Verif.Lemmas.SampleCheck
/-
The text made of a PAGC file, as a grammar text.
-/
namespace AS
namespace Pagc
variable {F : Type}

/-! ### Names and numbers in the text -/

/-- A character of a printed rule. -/
def Plain (c : Char) : Prop := c ≠ '@' ∧ c ≠ '#' ∧ c ≠ '[' ∧ c ≠ '\n' ∧ c.toNat < 128

instance (c : Char) : Decidable (Plain c) := inferInstanceAs (Decidable (_ ∧ _))

theorem item_nat (a : List Str) (n : Nat) : item a (n : Int) = (a[n]?).getD [] := by
  unfold item
  rw [if_neg (by omega)]
  rfl

theorem getD_mem {a : List Str} {n : Nat} : (a[n]?).getD [] = [] ∨ (a[n]?).getD [] ∈ a := by
  cases h : a[n]? with
  | none => exact Or.inl rfl
  | some w => exact Or.inr (List.mem_of_getElem? h)

theorem intypes_ok : ∀ w ∈ intypes, w ≠ [] ∧ w ≠ c!"->" ∧ ∀ c ∈ w, isCSpace c = false ∧ Plain c := by decide +kernel

theorem outtypes_ok : ∀ w ∈ outtypes, w ≠ [] ∧ w ≠ c!"->" ∧ ∀ c ∈ w, isCSpace c = false ∧ Plain c := by decide +kernel

theorem intypes_named : ∀ n < 34, Props.inNamed (item intypes (n : Nat)) = inNumbered n := by
  have : ∀ n ∈ List.range 34, Props.inNamed (item intypes (n : Nat)) = inNumbered n := by decide +kernel
  exact fun n hn => this n (List.mem_range.2 hn)

theorem outtypes_named : ∀ n < 18, Props.outNamed (item outtypes (n : Nat)) = outNumbered n := by
  have : ∀ n ∈ List.range 18, Props.outNamed (item outtypes (n : Nat)) = outNumbered n := by decide +kernel
  exact fun n hn => this n (List.mem_range.2 hn)

theorem names_filter (a : List Str) (ha : ∀ w ∈ a, w ≠ []) (ns : List Nat) :
    (ns.map (fun n => item a (n : Nat))).filter (fun w => !w.isEmpty) = (ns.filter (· < a.length)).map (fun n => item a (n : Nat)) := by
  rw [List.filter_map]
  congr 1
  apply List.filter_congr
  intro n _
  simp only [Function.comp_apply, item_nat]
  by_cases h : n < a.length
  · have hm := ha _ (List.getElem_mem h)
    cases hw : a[n] with
    | nil => exact absurd hw hm
    | cons c w => simp [h, hw]
  · simp [h]

theorem kept_ins (r : PagcRule) : (kept r).ins.filter (fun w => !w.isEmpty) = r.knownIns.map (fun n => item intypes (n : Nat)) :=
  names_filter intypes (fun w hw => (intypes_ok w hw).1) r.ins

theorem kept_outs (r : PagcRule) : (kept r).outs.filter (fun w => !w.isEmpty) = r.knownOuts.map (fun n => item outtypes (n : Nat)) :=
  names_filter outtypes (fun w hw => (outtypes_ok w hw).1) r.outs

theorem twentieth_chars (n : Nat) : ∀ c ∈ twentieth n, c.isDigit = true ∨ c = '.' := by
  intro c hc
  unfold twentieth at hc
  have hd : ∀ m, c ∈ Nat.toDigits 10 m → c.isDigit = true := fun m h => Nat.isDigit_of_mem_toDigits (by decide) (by decide) h
  rcases List.mem_append.1 hc with h | h
  · exact Or.inl (hd _ h)
  · split at h
    · cases h
    split at h
    · rcases List.mem_cons.1 h with h | h
      · exact Or.inr h
      · exact Or.inl (hd _ h)
    split at h
    · simp only [List.mem_cons, List.not_mem_nil, or_false] at h
      rcases h with rfl | rfl | rfl
      · exact Or.inr rfl
      · exact Or.inl (by decide)
      · exact Or.inl (by decide)
    · rcases List.mem_cons.1 h with h | h
      · exact Or.inr h
      · exact Or.inl (hd _ h)

theorem twentieth_ne (n : Nat) : twentieth n ≠ [] := by
  unfold twentieth
  intro h
  exact Nat.toDigits_ne_nil (List.append_eq_nil_iff.1 h).1

theorem digit_plain {c : Char} (h : c.isDigit = true ∨ c = '.') : isCSpace c = false ∧ Plain c := by
  rcases h with h | rfl
  · refine ⟨digit_not_space h, ?_, ?_, ?_, ?_, ?_⟩
    · rintro rfl; exact absurd h (by decide)
    · rintro rfl; exact absurd h (by decide)
    · rintro rfl; exact absurd h (by decide)
    · rintro rfl; exact absurd h (by decide)
    · simp only [Char.isDigit, Bool.and_eq_true, decide_eq_true_eq] at h
      have h2 : c.toNat ≤ '9'.toNat := h.2
      have : '9'.toNat = 57 := rfl
      omega
  · decide

theorem joined_chars {P : Char → Prop} (hs : P ' ') : ∀ {ws : List Str}, (∀ w ∈ ws, ∀ c ∈ w, P c) → ∀ c ∈ joined ws, P c
  | [], _ => by intro c hc; cases hc
  | [w], h => by intro c hc; exact h w List.mem_cons_self c hc
  | w :: v :: ws, h => by
    intro c hc
    rw [joined] at hc
    · rcases List.mem_append.1 hc with hc | hc
      · exact h w List.mem_cons_self c hc
      · rcases List.mem_cons.1 hc with rfl | hc
        · exact hs
        · exact joined_chars hs (fun w hw => h w (List.mem_cons_of_mem _ hw)) c hc
    · intro h; cases h

theorem kept_chars (r : PagcRule) : (∀ w ∈ (kept r).ins, ∀ c ∈ w, isCSpace c = false ∧ Plain c) ∧
    (∀ w ∈ (kept r).outs, ∀ c ∈ w, isCSpace c = false ∧ Plain c) := by
  constructor
  · intro w hw
    obtain ⟨n, _, rfl⟩ := List.mem_map.1 hw
    rw [item_nat]
    rcases getD_mem (a := intypes) (n := n) with h | h
    · rw [h]; intro c hc; cases hc
    · exact (intypes_ok _ h).2.2
  · intro w hw
    obtain ⟨n, _, rfl⟩ := List.mem_map.1 hw
    rw [item_nat]
    rcases getD_mem (a := outtypes) (n := n) with h | h
    · rw [h]; intro c hc; cases hc
    · exact (outtypes_ok _ h).2.2

theorem ruleLine_plain (r : PagcRule) : ∀ c ∈ ruleLine (kept r), Plain c := by
  intro c hc
  have arrow : ∀ c ∈ c!" -> ", Plain c := by decide
  obtain ⟨k1, k2⟩ := kept_chars r
  unfold ruleLine at hc
  rcases List.mem_append.1 hc with hc | hc
  · rcases List.mem_append.1 hc with hc | hc
    · rcases List.mem_append.1 hc with hc | hc
      · rcases List.mem_append.1 hc with hc | hc
        · exact joined_chars (P := Plain) (by decide) (fun w hw c hc => (k1 w hw c hc).2) c hc
        · exact arrow c hc
      · exact joined_chars (P := Plain) (by decide) (fun w hw c hc => (k2 w hw c hc).2) c hc
    · exact arrow c hc
  · exact (digit_plain (twentieth_chars _ c hc)).2

theorem words_joined : ∀ (ws : List Str) (r : Str), (∀ w ∈ ws, ∀ c ∈ w, isCSpace c = false) →
    words (joined ws ++ ' ' :: r) = ws.filter (fun w => !w.isEmpty) ++ words r
  | [], r, _ => words_space (by decide)
  | [w], r, h => by
    cases w with
    | nil => exact words_space (by decide)
    | cons c w =>
      have := Rule.words_name (c :: w) r (by simp) (h _ List.mem_cons_self)
      rw [List.append_assoc] at this
      exact this
  | w :: v :: ws, r, h => by
    have ih := words_joined (v :: ws) r (fun w hw => h w (List.mem_cons_of_mem _ hw))
    rw [joined]
    · cases w with
      | nil =>
        rw [List.nil_append, List.cons_append, words_space (by decide), ih]
        simp
      | cons c w =>
        have := Rule.words_name (c :: w) (joined (v :: ws) ++ ' ' :: r) (by simp) (h _ List.mem_cons_self)
        rw [List.append_assoc] at this
        rw [List.append_assoc, List.cons_append]
        refine this.trans ?_
        rw [ih]
        simp
    · intro h; cases h

theorem words_ruleLine (r : PagcRule) : words (ruleLine (kept r)) =
    r.knownIns.map (fun n => item intypes (n : Nat)) ++ c!"->" ::
      (r.knownOuts.map (fun n => item outtypes (n : Nat)) ++ [c!"->", twentieth r.score]) := by
  obtain ⟨k1, k2⟩ := kept_chars r
  have harrow : ∀ s : Str, words (c!"-> " ++ s) = c!"->" :: words s := fun s => Rule.words_name c!"->" s (by simp) (by decide)
  have e : ruleLine (kept r) = joined (kept r).ins ++ ' ' :: (c!"-> " ++ (joined (kept r).outs ++ ' ' :: (c!"-> " ++ twentieth r.score))) := by
    simp [ruleLine, kept]
  rw [e, words_joined _ _ (fun w hw c hc => (k1 w hw c hc).1), harrow, words_joined _ _ (fun w hw c hc => (k2 w hw c hc).1), harrow,
    kept_ins, kept_outs]
  have := words_run (twentieth r.score) [] (twentieth_ne _) (fun c hc => (digit_plain (twentieth_chars _ c hc)).1)
    (by intro c cs h; cases h)
  rw [List.append_nil] at this
  rw [this]
  rfl

theorem named_ne {a : List Str} {ns : List Nat} (ha : ∀ w ∈ a, w ≠ [] ∧ w ≠ c!"->" ∧ ∀ c ∈ w, isCSpace c = false ∧ Plain c) :
    ∀ w ∈ ns.map (fun n => item a (n : Nat)), w ≠ c!"->" := by
  intro w hw
  obtain ⟨n, _, rfl⟩ := List.mem_map.1 hw
  rw [item_nat]
  rcases getD_mem (a := a) (n := n) with h | h
  · rw [h]; simp
  · exact (ha _ h).2.1

/-- What the line made of a rule means to the loader. -/
theorem ruleLine_means (fo : FloatOps F) (r : PagcRule) (r' : Rule F) : RuleMeans fo (ruleLine (kept r)) r' ↔
    r.knownIns.length = r.knownOuts.length ∧ fo.le0 (fo.parse (twentieth r.score)) = false ∧ r' = r.converted fo := by
  have hsc : twentieth r.score ≠ c!"->" := by
    intro h
    have := twentieth_chars r.score '-' (by rw [h]; exact List.mem_cons_self)
    exact absurd this (by decide)
  have e : splitArrow (words (ruleLine (kept r))) = [r.knownIns.map (fun n => item intypes (n : Nat)),
      r.knownOuts.map (fun n => item outtypes (n : Nat)), [twentieth r.score]] := by
    rw [words_ruleLine, Rule.splitArrow_append_arrow _ _ (named_ne intypes_ok), Rule.splitArrow_append_arrow _ _ (named_ne outtypes_ok)]
    simp [splitArrow, hsc]
  have n1 : (r.knownIns.map (fun n => item intypes (n : Nat))).map Props.inNamed = r.knownIns.map inNumbered := by
    rw [List.map_map]
    apply List.map_congr_left
    intro n hn
    exact intypes_named n (by simpa using (List.mem_filter.1 hn).2)
  have n2 : (r.knownOuts.map (fun n => item outtypes (n : Nat))).map Props.outNamed = r.knownOuts.map outNumbered := by
    rw [List.map_map]
    apply List.map_congr_left
    intro n hn
    exact outtypes_named n (by simpa using (List.mem_filter.1 hn).2)
  unfold RuleMeans
  rw [e]
  constructor
  · rintro ⟨ins, outs, before, score, rest, h1, h2, h3, rfl⟩
    simp only [List.cons.injEq] at h1
    obtain ⟨rfl, rfl, h4, h5⟩ := h1
    cases before with
    | cons _ before => simp at h4
    | nil =>
      simp only [List.nil_append, List.cons.injEq, and_true] at h4
      subst h4
      refine ⟨by simpa using h2, h3, ?_⟩
      rw [n1, n2]
      rfl
  · rintro ⟨h1, h2, rfl⟩
    refine ⟨_, _, [], _, [], rfl, by simpa using h1, h2, ?_⟩
    rw [n1, n2]
    rfl

theorem ruleLine_data (ct : CharTables) (hd : ct.isSpace '-' = false) (r : PagcRule) :
    ¬ IsComment ct (ruleLine (kept r)) ∧ (∀ n, ¬ IsHeader ct (ruleLine (kept r)) n) ∧ '@' ∉ ruleLine (kept r) := by
  have pl := ruleLine_plain r
  refine ⟨?_, ?_, fun hm => (pl _ hm).1 rfl⟩
  · rintro (hb | ⟨a, b, e, _⟩)
    · have : '-' ∈ ruleLine (kept r) := by simp [ruleLine]
      rw [hb _ this] at hd; cases hd
    · exact (pl '#' (by rw [e]; exact List.mem_append_right _ List.mem_cons_self)).2.1 rfl
  · rintro n ⟨_, a, b, e, _⟩
    refine (pl '[' ?_).2.2.1 rfl
    rw [e]; simp

/-! ### The whole text -/

/-- The lines of the text. -/
def textLines (rs : List PagcRule) : List Str :=
  metaBlock (c!"ADDRESS", (addressRefs.map (·.2)).flatten) ++
    [0, 1, 2, 3, 4].flatMap (fun i : Nat => headerLine (item sect i) :: (((ordered rs i).map (fun r => ruleLine (kept r))) ++ [[]]))

/-- The groups of the text. -/
def textGroups (rs : List PagcRule) : List (Str × List Str) :=
  (c!"ADDRESS", (addressRefs.map (·.2)).flatten.map refsLine) ::
    [0, 1, 2, 3, 4].map (fun i : Nat => (item sect i, (ordered rs i).map (fun r => ruleLine (kept r))))

theorem address_lines : metaBlock (c!"ADDRESS", (addressRefs.map (·.2)).flatten) = addressLines := by decide +kernel

theorem convert_eq {nu : Numbers} (hnu : Exact nu) {ls : List Str} {rs : List PagcRule} (h : HasRules ls rs) :
    convert nu ls = unlines (textLines rs) := by
  have hs := reads_sound h
  unfold convert textLines unlines
  rw [address_lines, reads_kept hnu h]
  simp only [List.flatMap_cons, List.flatMap_nil, sectionLines]
  have e : ∀ i : Nat, i < 5 → (section_ (rs.map (fun r => ((r.type : Int), kept r))) i).map ruleLine =
      (ordered rs i).map (fun r => ruleLine (kept r)) := by
    intro i hi
    rw [section_eq (fun r hr => (hs r hr).1) hi, List.map_map]
    rfl
  rw [e 0 (by omega), e 1 (by omega), e 2 (by omega), e 3 (by omega), e 4 (by omega)]
  rfl

theorem textLines_chars (rs : List PagcRule) : ∀ l ∈ textLines rs, ∀ c ∈ l, c ≠ '\n' ∧ c.toNat < 128 := by
  have h1 : ∀ l ∈ addressLines, ∀ c ∈ l, c ≠ '\n' ∧ c.toNat < 128 := by decide +kernel
  have h2 : ∀ i ∈ [0, 1, 2, 3, 4], ∀ c ∈ headerLine (item sect (i : Nat)), c ≠ '\n' ∧ c.toNat < 128 := by decide +kernel
  intro l hl
  unfold textLines at hl
  rw [address_lines] at hl
  rcases List.mem_append.1 hl with hl | hl
  · exact h1 l hl
  · obtain ⟨i, hi, hl⟩ := List.mem_flatMap.1 hl
    rcases List.mem_cons.1 hl with rfl | hl
    · exact h2 i hi
    · rcases List.mem_append.1 hl with hl | hl
      · obtain ⟨r, _, rfl⟩ := List.mem_map.1 hl
        exact fun c hc => ⟨(ruleLine_plain r c hc).2.2.2.1, (ruleLine_plain r c hc).2.2.2.2⟩
      · rw [List.mem_singleton.1 hl]; intro c hc; cases hc

theorem text_groups (ct : CharTables) (hd : ct.isSpace '-' = false) (rs : List PagcRule) :
    Groups ct (textLines rs) [] (textGroups rs) := by
  have hg : ∀ is : List Nat, (∀ i ∈ is, i < 5) → Groups ct
      (is.flatMap (fun i : Nat => headerLine (item sect i) :: (((ordered rs i).map (fun r => ruleLine (kept r))) ++ [[]]))) []
      (is.map (fun i : Nat => (item sect i, (ordered rs i).map (fun r => ruleLine (kept r))))) := by
    intro is his
    induction is with
    | nil => exact .nil
    | cons i is ih =>
      rw [List.flatMap_cons, List.map_cons]
      have hne : item sect (i : Nat) ≠ [] := by
        have : ∀ i ∈ List.range 5, item sect (i : Nat) ≠ [] := by decide +kernel
        exact this i (List.mem_range.2 (his i List.mem_cons_self))
      refine groups_block ct (headerLine_not_comment ct _) (headerLine_header ct hne) ?_ (ih (fun i hi => his i (List.mem_cons_of_mem _ hi)))
      intro l hl
      obtain ⟨r, _, rfl⟩ := List.mem_map.1 hl
      exact ⟨(ruleLine_data ct hd r).1, (ruleLine_data ct hd r).2.1⟩
  refine groups_block ct (headerLine_not_comment ct _) (headerLine_header ct (by simp)) ?_ (hg _ (by decide))
  intro l hl
  obtain ⟨ns, hns, rfl⟩ := List.mem_map.1 hl
  have hne : ns ≠ [] := by
    have : ∀ ns ∈ (addressRefs.map (·.2)).flatten, ns ≠ [] := by decide
    exact this ns hns
  exact ⟨(refsLine_data ct hne).1, (refsLine_data ct hne).2.1⟩

theorem groups_unique (ct : CharTables) {ls : List Str} {gs gs' : List (Str × List Str)} (h : Groups ct ls [] gs)
    (h' : Groups ct ls [] gs') : gs = gs' := by
  rw [groups_iff] at h h'
  rw [h] at h'
  exact (Prod.mk.inj h').2

theorem text_noRepeat (rs : List PagcRule) : NoRepeat (textGroups rs) := by
  have h : (textGroups rs).Pairwise (fun a b => a.1 ≠ b.1) := by
    rw [← List.pairwise_map (f := Prod.fst) (R := (· ≠ ·))]
    have : (textGroups rs).map Prod.fst = c!"ADDRESS" :: sect := by
      unfold textGroups
      rw [List.map_cons, List.map_map]
      have : (Prod.fst ∘ fun i : Nat => (item sect i, (ordered rs i).map (fun r => ruleLine (kept r)))) = fun i : Nat => item sect i := rfl
      rw [this]
      decide +kernel
    rw [this]
    decide
  refine List.Pairwise.imp ?_ h
  intro a b h _
  exact fun e => h e.symm

theorem ordered_mem {rs : List PagcRule} {i : Nat} {r : PagcRule} : r ∈ ordered rs i ↔ r ∈ rs ∧ r.type = i := by
  unfold ordered
  rw [List.mem_mergeSort, List.mem_filter]
  simp

theorem address_refs (ct : CharTables) (ha : ∀ c ∈ c!"MICROABUILDNGHSE", ct.isWord c = true) :
    MetasMean ct ((addressRefs.map (·.2)).flatten.map refsLine) (addressRefs.map (·.2)).flatten := by
  have hb : ∀ refs ∈ (addressRefs.map (·.2)).flatten, refs ≠ [] ∧ ∀ n ∈ refs, n ≠ [] ∧ ∀ c ∈ n, c ∈ c!"MICROABUILDNGHSE" := by
    decide +kernel
  have : ∀ rr : List (List Str), (∀ refs ∈ rr, refs ≠ [] ∧ ∀ n ∈ refs, n ≠ [] ∧ ∀ c ∈ n, c ∈ c!"MICROABUILDNGHSE") →
      MetasMean ct (rr.map refsLine) rr := by
    intro rr hh
    induction rr with
    | nil => exact .nil
    | cons x rr ih =>
      have hx := hh x List.mem_cons_self
      refine .cons (refsLine_refs ct hx.1 (fun n hn => ⟨(hx.2 n hn).1, fun c hc => ?_⟩)) (ih (fun x hx => hh x (List.mem_cons_of_mem _ hx)))
      simp [isRefChar, ha c ((hx.2 n hn).2 c hc)]
  exact this _ hb

theorem rulesMean_lines (fo : FloatOps F) : ∀ rs : List PagcRule,
    ((∃ rr, RulesMean fo (rs.map (fun r => ruleLine (kept r))) rr) ↔
      ∀ r ∈ rs, r.knownIns.length = r.knownOuts.length ∧ fo.le0 (fo.parse (twentieth r.score)) = false) ∧
    ∀ rr, RulesMean fo (rs.map (fun r => ruleLine (kept r))) rr → rr = rs.map (fun r => r.converted fo)
  | [] => by
    refine ⟨⟨fun _ r hr => (by cases hr), fun _ => ⟨[], .nil⟩⟩, ?_⟩
    intro rr h; cases h; rfl
  | r :: rs => by
    obtain ⟨ih1, ih2⟩ := rulesMean_lines fo rs
    refine ⟨⟨?_, ?_⟩, ?_⟩
    · rintro ⟨rr, h⟩
      cases h with
      | cons h1 h2 =>
        obtain ⟨a, b, _⟩ := (ruleLine_means fo r _).1 h1
        intro x hx
        rcases List.mem_cons.1 hx with rfl | hx
        · exact ⟨a, b⟩
        · exact ih1.1 ⟨_, h2⟩ x hx
    · intro h
      obtain ⟨rr, hr⟩ := ih1.2 (fun x hx => h x (List.mem_cons_of_mem _ hx))
      have := h r List.mem_cons_self
      exact ⟨r.converted fo :: rr, .cons ((ruleLine_means fo r _).2 ⟨this.1, this.2, rfl⟩) hr⟩
    · intro rr h
      cases h with
      | cons h1 h2 =>
        rw [List.map_cons, ih2 _ h2, ((ruleLine_means fo r _).1 h1).2.2]

/-- The sections rule groups define. -/
theorem sections_lines (ct : CharTables) (fo : FloatOps F) (hd : ct.isSpace '-' = false) (rs : List PagcRule) : ∀ (is : List Nat)
    {ms : List (Str × List (List Str))} {ss : List (Str × List (Rule F))},
    Sections ct fo (is.map (fun i : Nat => (item sect i, (ordered rs i).map (fun r => ruleLine (kept r))))) ms ss ↔
      ms = [] ∧ (∀ i ∈ is, ∀ r ∈ ordered rs i, r.knownIns.length = r.knownOuts.length ∧ fo.le0 (fo.parse (twentieth r.score)) = false) ∧
      ss = (is.filter (fun i => !(ordered rs i).isEmpty)).map (fun i : Nat => (item sect i, (ordered rs i).map (fun r => r.converted fo)))
  | [], ms, ss => by
    constructor
    · intro h; cases h; exact ⟨rfl, (fun i hi => (by cases hi)), rfl⟩
    · rintro ⟨rfl, _, rfl⟩; exact .nil
  | i :: is, ms, ss => by
    have ih := @sections_lines ct fo hd rs is
    obtain ⟨m1, m2⟩ := rulesMean_lines fo (ordered rs i)
    rw [List.map_cons]
    cases hol : ordered rs i with
    | nil =>
      have e : (i :: is).filter (fun i => !(ordered rs i).isEmpty) = is.filter (fun i => !(ordered rs i).isEmpty) := by
        rw [List.filter_cons, if_neg (by simp [hol])]
      rw [e]
      constructor
      · intro h
        cases h with
        | empty h =>
          obtain ⟨a, b, c⟩ := ih.1 h
          refine ⟨a, ?_, c⟩
          intro j hj
          rcases List.mem_cons.1 hj with rfl | hj
          · rw [hol]; intro r hr; cases hr
          · exact b j hj
        | metas h _ _ _ => exact absurd rfl h
        | rules h _ _ _ => exact absurd rfl h
      · rintro ⟨a, b, c⟩
        exact .empty (ih.2 ⟨a, fun j hj => b j (List.mem_cons_of_mem _ hj), c⟩)
    | cons r0 os =>
      rw [← hol]
      have e : (i :: is).filter (fun i => !(ordered rs i).isEmpty) = i :: is.filter (fun i => !(ordered rs i).isEmpty) := by
        rw [List.filter_cons, if_pos (by simp [hol])]
      rw [e]
      have hne : (ordered rs i).map (fun r => ruleLine (kept r)) ≠ [] := by simp [hol]
      have hat : ∀ l ∈ (ordered rs i).map (fun r => ruleLine (kept r)), '@' ∉ l := by
        intro l hl
        obtain ⟨r, _, rfl⟩ := List.mem_map.1 hl
        exact (ruleLine_data ct hd r).2.2
      generalize hL : (ordered rs i).map (fun r => ruleLine (kept r)) = L at *
      constructor
      · intro h
        cases h with
        | empty h => exact absurd rfl hne
        | metas h1 h2 _ _ =>
          cases L with
          | nil => exact absurd rfl h1
          | cons l L => exact absurd (h2 l List.mem_cons_self) (hat l List.mem_cons_self)
        | rules h1 h2 h3 h4 =>
          obtain ⟨a, b, c⟩ := ih.1 h4
          refine ⟨a, ?_, ?_⟩
          · intro j hj
            rcases List.mem_cons.1 hj with rfl | hj
            · exact m1.1 ⟨_, h3⟩
            · exact b j hj
          · rw [List.map_cons, ← c, m2 _ h3]
      · rintro ⟨a, b, rfl⟩
        obtain ⟨rr, hrr⟩ := m1.2 (b i List.mem_cons_self)
        rw [List.map_cons]
        rw [m2 _ hrr] at hrr
        exact .rules hne hat hrr (ih.2 ⟨a, fun j hj => b j (List.mem_cons_of_mem _ hj), rfl⟩)

/-- What the text means. -/
theorem text_means (ct : CharTables) (fo : FloatOps F) (hd : ct.isSpace '-' = false)
    (ha : ∀ c ∈ c!"MICROABUILDNGHSE", ct.isWord c = true) (rs : List PagcRule) (ms : List (Str × List (List Str)))
    (ss : List (Str × List (Rule F))) : GrammarMeans ct fo (textLines rs) ms ss ↔
      ms = addressRefs ∧ (∀ i ∈ [0, 1, 2, 3, 4], ∀ r ∈ ordered rs i, r.knownIns.length = r.knownOuts.length ∧
        fo.le0 (fo.parse (twentieth r.score)) = false) ∧
      ss = ([0, 1, 2, 3, 4].filter (fun i => !(ordered rs i).isEmpty)).map (fun i : Nat => (item sect i, (ordered rs i).map (fun r => r.converted fo))) := by
  have hrefs := address_refs ct ha
  constructor
  · rintro ⟨gs, h1, h2, h3⟩
    rw [groups_unique ct h1 (text_groups ct hd rs)] at h3
    unfold textGroups at h3
    have hat : ∀ l ∈ (addressRefs.map (·.2)).flatten.map refsLine, '@' ∈ l := by decide +kernel
    have hu : ∀ mm, MetasMean ct ((addressRefs.map (·.2)).flatten.map refsLine) mm → mm = (addressRefs.map (·.2)).flatten := by
      intro mm hmm
      rw [metasMean_iff] at hmm hrefs
      rw [hmm, ← hrefs]
    generalize hL : (addressRefs.map (·.2)).flatten.map refsLine = L at *
    have hLne : L ≠ [] := by rw [← hL]; decide
    cases h3 with
    | empty _ => exact absurd rfl hLne
    | metas k1 k2 k3 k4 =>
      obtain ⟨a, b, c⟩ := (sections_lines ct fo hd rs _).1 k4
      subst a
      rw [hu _ k3]
      exact ⟨rfl, b, c⟩
    | rules k1 k2 k3 k4 =>
      cases L with
      | nil => exact absurd rfl k1
      | cons l L => exact absurd (hat l List.mem_cons_self) (k2 l List.mem_cons_self)
  · rintro ⟨rfl, h1, rfl⟩
    refine ⟨_, text_groups ct hd rs, text_noRepeat rs, ?_⟩
    refine Sections.metas (by decide) (by decide +kernel) hrefs ?_
    exact (sections_lines ct fo hd rs _).2 ⟨rfl, h1, rfl⟩

end Pagc
end AS
