import Verif.Lemmas.PagcText
/-
Properties of tools/convert-pagc-rules.
-/
namespace AS.Props
open AS.Pagc
variable {F : Type}

theorem pagc_text {ct : CharTables} {fo : FloatOps F} (h0 : fo.le0 fo.zero = true) (hd : ct.isSpace '-' = false)
    (ha : ∀ c ∈ c!"MICROABUILDNGHSE", ct.isWord c = true) {nu : Numbers} (hnu : Exact nu) {ls : List Str} {rs : List PagcRule}
    (hr : HasRules ls rs) (ms : List (Str × List (List Str))) (ss : List (Str × List (Rule F))) :
    (∃ g, Grammar.initialize ct fo (convert nu ls) = .ok g ∧ g.metaNames = ms ∧ g.ruleSections = ss) ↔
      (ms = addressRefs ∧ (∀ i ∈ [0, 1, 2, 3, 4], ∀ r ∈ ordered rs i, r.knownIns.length = r.knownOuts.length ∧
        fo.le0 (fo.parse (twentieth r.score)) = false) ∧
      ss = ([0, 1, 2, 3, 4].filter (fun i => !(ordered rs i).isEmpty)).map (fun i : Nat => (item sect i, (ordered rs i).map (fun r => r.converted fo)))) ∧
      ¬ Dangling ms ss ∧ Rooted ms ss := by
  have hc := textLines_chars rs
  rw [convert_eq hnu hr, ← text_means ct fo hd ha]
  exact C32_text_meaning ct fo h0 _ (fun l hl hm => (hc l hl _ hm).1 rfl) (unlines_noBom (fun l hl c hm => (hc l hl c hm).2)) ms ss

theorem pagc_dangling (rs : List PagcRule) (fo : FloatOps F) :
    Dangling addressRefs (([0, 1, 2, 3, 4].filter (fun i => !(ordered rs i).isEmpty)).map
      (fun i : Nat => (item sect i, (ordered rs i).map (fun r => r.converted fo)))) ↔ ∃ t < 5, ∀ r ∈ rs, r.type ≠ t := by
  have hn : (([0, 1, 2, 3, 4].filter (fun i => !(ordered rs i).isEmpty)).map
      (fun i : Nat => (item sect i, (ordered rs i).map (fun r => r.converted fo)))).map (·.1) =
      ([0, 1, 2, 3, 4].filter (fun i => !(ordered rs i).isEmpty)).map (fun i : Nat => item sect i) := by
    rw [List.map_map]; rfl
  have he : ∀ i, (ordered rs i).isEmpty = true ↔ ∀ r ∈ rs, r.type ≠ i := by
    intro i
    rw [List.isEmpty_iff, List.eq_nil_iff_forall_not_mem]
    constructor
    · intro h r hr e; exact h r (ordered_mem.2 ⟨hr, e⟩)
    · intro h r hr; exact h r (ordered_mem.1 hr).1 (ordered_mem.1 hr).2
  unfold Dangling
  rw [hn]
  constructor
  · rintro ⟨m, hm, refs, hrefs, n, hnr, _, h2⟩
    have hall : ∀ m ∈ addressRefs, ∀ refs ∈ m.2, ∀ n ∈ refs, ∃ i ∈ List.range 5, n = item sect (i : Nat) := by decide +kernel
    obtain ⟨i, hi, rfl⟩ := hall m hm refs hrefs n hnr
    refine ⟨i, List.mem_range.1 hi, (he i).1 ?_⟩
    cases hh : (ordered rs i).isEmpty with
    | true => rfl
    | false =>
      refine absurd (List.mem_map.2 ⟨i, List.mem_filter.2 ⟨?_, by simp [hh]⟩, rfl⟩) h2
      exact hi
  · rintro ⟨t, ht, h⟩
    have hall : ∀ i ∈ List.range 5, ∃ m ∈ addressRefs, ∃ refs ∈ m.2, item sect (i : Nat) ∈ refs ∧
        item sect (i : Nat) ∉ addressRefs.map (·.1) := by decide +kernel
    obtain ⟨m, hm, refs, hrefs, h1, h2⟩ := hall t (List.mem_range.2 ht)
    refine ⟨m, hm, refs, hrefs, _, h1, h2, ?_⟩
    intro hm
    obtain ⟨i, hi, e⟩ := List.mem_map.1 hm
    obtain ⟨hi, hne⟩ := List.mem_filter.1 hi
    have hi5 : i < 5 := List.mem_range.1 hi
    rw [sect_item_inj i hi5 t ht e, (he t).2 h] at hne
    cases hne

/-- The text made of a PAGC file is a grammar just if the file has rules of all five types, no score is 0, and in each rule
as many input classes as output classes have numbers of PAGC. -/
theorem C102_loads {ct : CharTables} {fo : FloatOps F} (hfo : SignOk fo) (hd : ct.isSpace '-' = false)
    (ha : ∀ c ∈ c!"MICROABUILDNGHSE", ct.isWord c = true) {nu : Numbers} (hnu : Exact nu) {ls : List Str} {rs : List PagcRule}
    (hr : HasRules ls rs) :
    (∃ g, Grammar.initialize ct fo (convert nu ls) = .ok g) ↔
      (∀ t < 5, ∃ r ∈ rs, r.type = t) ∧ ∀ r ∈ rs, 0 < r.score ∧ r.knownIns.length = r.knownOuts.length := by
  have hs := reads_sound hr
  have key := fun ms ss => pagc_text (ct := ct) (fo := fo) hfo.1 hd ha hnu hr ms ss
  have hdg := pagc_dangling rs fo
  constructor
  · rintro ⟨g, hg⟩
    obtain ⟨⟨e1, h1, e2⟩, h2, _⟩ := (key g.metaNames g.ruleSections).1 ⟨g, hg, rfl, rfl⟩
    rw [e1, e2, hdg] at h2
    constructor
    · intro t ht
      by_cases hx : ∃ r ∈ rs, r.type = t
      · exact hx
      · exact absurd ⟨t, ht, fun r hr e => hx ⟨r, hr, e⟩⟩ h2
    · intro r hrr
      have h5 := (hs r hrr).1
      obtain ⟨a, b⟩ := h1 r.type (List.mem_range (n := 5).2 h5) r (ordered_mem.2 ⟨hrr, rfl⟩)
      refine ⟨?_, a⟩
      rcases Nat.eq_zero_or_pos r.score with h | h
      · rw [(hfo.2 r.score (hs r hrr).2).2 h] at b; cases b
      · exact h
  · rintro ⟨h1, h2⟩
    have k1 : ∀ i ∈ [0, 1, 2, 3, 4], ∀ r ∈ ordered rs i, r.knownIns.length = r.knownOuts.length ∧
        fo.le0 (fo.parse (twentieth r.score)) = false := by
      intro i _ r hrr
      have hm := (ordered_mem.1 hrr).1
      obtain ⟨a, b⟩ := h2 r hm
      refine ⟨b, ?_⟩
      cases hh : fo.le0 (fo.parse (twentieth r.score)) with
      | false => rfl
      | true => have := (hfo.2 r.score (hs r hm).2).1 hh; omega
    have k2 : ¬ ∃ t < 5, ∀ r ∈ rs, r.type ≠ t := by
      rintro ⟨t, ht, h⟩
      obtain ⟨r, hrr, e⟩ := h1 t ht
      exact h r hrr e
    obtain ⟨g, hg, _⟩ := (key addressRefs _).2 ⟨⟨rfl, k1, rfl⟩, fun h => k2 (hdg.1 h), Or.inl (by decide)⟩
    exact ⟨g, hg⟩

/-- And if it is, it is the grammar meant: the addresses are made of the parts, and the rules of each type are those of the
file, those with more input classes first and otherwise in the order of the file. -/
theorem C102_grammar {ct : CharTables} {fo : FloatOps F} (hfo : SignOk fo) (hd : ct.isSpace '-' = false)
    (ha : ∀ c ∈ c!"MICROABUILDNGHSE", ct.isWord c = true) {nu : Numbers} (hnu : Exact nu) {ls : List Str} {rs : List PagcRule}
    (hr : HasRules ls rs) {g : Grammar F} (hg : Grammar.initialize ct fo (convert nu ls) = .ok g) :
    g.metaNames = addressRefs ∧ ∃ macros micros arcs houses buildings,
      InOrder rs 0 macros ∧ InOrder rs 1 micros ∧ InOrder rs 2 arcs ∧ InOrder rs 3 houses ∧ InOrder rs 4 buildings ∧
      g.ruleSections = [(c!"MACRO", macros.map (·.converted fo)), (c!"MICRO", micros.map (·.converted fo)),
        (c!"ARC", arcs.map (·.converted fo)), (c!"HOUSE", houses.map (·.converted fo)),
        (c!"BUILDING", buildings.map (·.converted fo))] := by
  obtain ⟨h1, _⟩ := (C102_loads hfo hd ha hnu hr).1 ⟨g, hg⟩
  obtain ⟨⟨e1, _, e2⟩, _⟩ := (pagc_text (ct := ct) (fo := fo) hfo.1 hd ha hnu hr g.metaNames g.ruleSections).1 ⟨g, hg, rfl, rfl⟩
  refine ⟨e1, ordered rs 0, ordered rs 1, ordered rs 2, ordered rs 3, ordered rs 4, ordered_inOrder rs 0, ordered_inOrder rs 1,
    ordered_inOrder rs 2, ordered_inOrder rs 3, ordered_inOrder rs 4, ?_⟩
  have he : ∀ i, i < 5 → (!(ordered rs i).isEmpty) = true := by
    intro i hi
    obtain ⟨r, hrr, e⟩ := h1 i hi
    cases hh : ordered rs i with
    | nil =>
      have := ordered_mem.2 ⟨hrr, e⟩
      rw [hh] at this
      cases this
    | cons _ _ => rfl
  rw [e2]
  have : [0, 1, 2, 3, 4].filter (fun i => !(ordered rs i).isEmpty) = [0, 1, 2, 3, 4] :=
    List.filter_eq_self.2 (fun i hi => he i (List.mem_range (n := 5).1 hi))
  rw [this]
  rfl

/-! ### Scores -/

theorem digitsVal_append (n : Nat) (t : Str) (ht : ∀ c, t.head? = some c → c.isDigit = false) :
    digitsVal (Nat.toDigits 10 n ++ t) = n ∧ (Nat.toDigits 10 n ++ t).dropWhile Char.isDigit = t := by
  have hd : ∀ c ∈ Nat.toDigits 10 n, c.isDigit = true := fun c h => Nat.isDigit_of_mem_toDigits (by decide) (by decide) h
  refine ⟨?_, dropWhile_all_append _ _ hd ht⟩
  have e : (Nat.toDigits 10 n ++ t).takeWhile Char.isDigit = Nat.toDigits 10 n := by
    rw [List.takeWhile_append_of_pos hd]
    cases t with
    | nil => simp
    | cons c t => rw [List.takeWhile_cons, if_neg (by simp [ht c rfl])]; simp
  unfold digitsVal
  rw [e]
  have := Nat.ofDigitChars_toDigits (b := 10) (n := n) (by decide) (by decide)
  rw [Nat.ofDigitChars_eq_foldl] at this
  exact this

/-- The decimals of the twentieth part. -/
def decimals (m : Nat) : Str :=
  if m = 0 then [] else if m % 2 = 0 then '.' :: Nat.toDigits 10 (m / 2)
  else if m = 1 then c!".05" else '.' :: Nat.toDigits 10 (m * 5)

theorem twentieth_eq (n : Nat) : twentieth n = Nat.toDigits 10 (n / 20) ++ decimals (n % 20) := by
  unfold twentieth decimals
  have : n % 20 % 2 = n % 2 := by omega
  rw [this]

/-- The score of a rule in the grammar is the twentieth part of the score it had. -/
theorem C102_score (n : Nat) : ratOps.parse (twentieth n) = (n : Rat) / 20 := by
  have h1 : ∀ m ∈ List.range 20, (∀ c ∈ (decimals m).head?, c.isDigit = false) ∧
      (match decimals m with
        | '.' :: fs => (digitsVal fs : Rat) / (10 ^ (fs.takeWhile Char.isDigit).length : Nat)
        | _ => 0) = (m : Rat) / 20 := by decide +kernel
  obtain ⟨a, b⟩ := h1 (n % 20) (List.mem_range.2 (Nat.mod_lt _ (by decide)))
  obtain ⟨e1, e2⟩ := digitsVal_append (n / 20) (decimals (n % 20)) (fun c hc => a c hc)
  have hn : (n : Rat) = 20 * ((n / 20 : Nat) : Rat) + ((n % 20 : Nat) : Rat) := by
    have := congrArg (fun k : Nat => (k : Rat)) (Nat.div_add_mod n 20)
    simp only [Rat.natCast_add, Rat.natCast_mul] at this
    exact this.symm
  rw [twentieth_eq]
  show (match (Nat.toDigits 10 (n / 20) ++ decimals (n % 20)).dropWhile Char.isDigit with
    | '.' :: fs => (digitsVal (Nat.toDigits 10 (n / 20) ++ decimals (n % 20)) : Rat) + (digitsVal fs : Rat) / (10 ^ (fs.takeWhile Char.isDigit).length : Nat)
    | _ => (digitsVal (Nat.toDigits 10 (n / 20) ++ decimals (n % 20)) : Rat)) = _
  rw [e1, e2]
  split at b
  · rename_i fs hfs
    rw [hfs]
    show ((n / 20 : Nat) : Rat) + _ = _
    rw [b, hn]
    grind
  · rename_i hfs
    have hz : ((n % 20 : Nat) : Rat) = 0 := by grind
    split
    · rename_i fs hfs'; exact absurd hfs' (hfs fs)
    · rw [hn, hz]; grind

/-- Exact numbers tell the sign of the twentieth part. -/
theorem signOk_ratOps : SignOk ratOps := by
  refine ⟨by decide, fun n _ => ?_⟩
  rw [C102_score]
  show decide ((n : Rat) / 20 ≤ 0) = true ↔ n = 0
  rw [decide_eq_true_eq]
  constructor
  · intro h
    rcases Nat.eq_zero_or_pos n with h0 | h0
    · exact h0
    · have : (0 : Rat) < (n : Rat) := by exact_mod_cast h0
      grind
  · rintro rfl; decide +kernel

/-! ### Examples -/

/-- Numbers as they should be. -/
def plainNumbers : Numbers := ⟨fun w => decimal w, fun w => twentieth (decimal w)⟩

theorem plainNumbers_exact : Exact plainNumbers := fun _ _ => ⟨rfl, rfl⟩

instance (w : Str) : Decidable (Number w) := inferInstanceAs (Decidable (_ ∧ _))

/-- A file with a rule of each type and two of type 2, a comment, two rules that are passed over, and the line at the end. -/
def pagcLines : List Str := [c!"# rules", c!"10 11 28 -1 10 11 13 -1 0 16", c!"16 0 -1 16 17 -1 1 8", c!"1 -1 5 -1 2 5",
  c!"18 5\t-1 5 6  -1 2 7 ", c!"1 2 -1 5 -1 2 7", c!"1 -1 5 -1 5 7", c!"0 -1 1 -1 3 20", c!"19 0 -1 0 0 -1 4 1", c!"-1"]

def pagcRules : List PagcRule := [⟨[10, 11, 28], [10, 11, 13], 0, 16⟩, ⟨[16, 0], [16, 17], 1, 8⟩, ⟨[1], [5], 2, 5⟩,
  ⟨[18, 5], [5, 6], 2, 7⟩, ⟨[0], [1], 3, 20⟩, ⟨[19, 0], [0, 0], 4, 1⟩]

theorem pagcLines_rules : HasRules pagcLines pagcRules := by
  refine .other (by decide) ?_
  refine .rule ⟨[c!"10", c!"11", c!"28"], [c!"10", c!"11", c!"13"], c!"0", c!"16", by decide, by decide, by decide, by decide +kernel,
    ⟨'1', by decide⟩, by decide⟩ ⟨rfl, by decide⟩ ?_
  refine .rule ⟨[c!"16", c!"0"], [c!"16", c!"17"], c!"1", c!"8", by decide, by decide, by decide, by decide +kernel,
    ⟨'1', by decide⟩, by decide⟩ ⟨rfl, by decide⟩ ?_
  refine .rule ⟨[c!"1"], [c!"5"], c!"2", c!"5", by decide, by decide, by decide, by decide +kernel,
    ⟨'1', by decide⟩, by decide⟩ ⟨rfl, by decide⟩ ?_
  refine .rule ⟨[c!"18", c!"5"], [c!"5", c!"6"], c!"2", c!"7", by decide, by decide, by decide, by decide +kernel,
    ⟨'1', by decide⟩, by decide⟩ ⟨rfl, by decide⟩ ?_
  refine .unsound (r := ⟨[1, 2], [5], 2, 7⟩) ⟨[c!"1", c!"2"], [c!"5"], c!"2", c!"7", by decide, by decide, by decide, by decide +kernel,
    ⟨'1', by decide⟩, by decide⟩ (by unfold PagcRule.Sound; decide) ?_
  refine .unsound (r := ⟨[1], [5], 5, 7⟩) ⟨[c!"1"], [c!"5"], c!"5", c!"7", by decide, by decide, by decide, by decide +kernel,
    ⟨'1', by decide⟩, by decide⟩ (by unfold PagcRule.Sound; decide) ?_
  refine .rule ⟨[c!"0"], [c!"1"], c!"3", c!"20", by decide, by decide, by decide, by decide +kernel,
    ⟨'0', by decide⟩, by decide⟩ ⟨rfl, by decide⟩ ?_
  refine .rule ⟨[c!"19", c!"0"], [c!"0", c!"0"], c!"4", c!"1", by decide, by decide, by decide, by decide +kernel,
    ⟨'1', by decide⟩, by decide⟩ ⟨rfl, by decide⟩ ?_
  exact .other (by decide) .nil

/-- The file becomes a grammar. -/
example : ∃ g, Grammar.initialize asciiTables ratOps (convert plainNumbers pagcLines) = .ok g :=
  (C102_loads signOk_ratOps (by decide) (by decide) plainNumbers_exact pagcLines_rules).2 (by decide)

/-- In it the two rules of type 2 have changed places. -/
example : InOrder pagcRules 2 [⟨[18, 5], [5, 6], 2, 7⟩, ⟨[1], [5], 2, 5⟩] ∧
    PagcRule.converted ratOps ⟨[18, 5], [5, 6], 2, 7⟩ = ⟨[.SINGLE, .TYPE], [.STREET, .SUFTYP], 7 / 20⟩ := by
  refine ⟨⟨by decide, ?_⟩, by decide +kernel⟩
  intro k
  rcases k with _ | _ | _ | _ | k
  · decide
  · decide
  · decide
  · decide
  · simp [pagcRules]

/-- Without the rule of type 4 it does not. -/
example : ¬ ∃ g, Grammar.initialize asciiTables ratOps (convert plainNumbers [c!"1 -1 5 -1 2 5"]) = .ok g := by
  have h : HasRules [c!"1 -1 5 -1 2 5"] [⟨[1], [5], 2, 5⟩] := .rule ⟨[c!"1"], [c!"5"], c!"2", c!"5", by decide, by decide, by decide,
    by decide +kernel, ⟨'1', by decide⟩, by decide⟩ ⟨rfl, by decide⟩ .nil
  rw [C102_loads signOk_ratOps (by decide) (by decide) plainNumbers_exact h]
  intro hh
  exact absurd (hh.1 4 (by decide)) (by decide)

end AS.Props
