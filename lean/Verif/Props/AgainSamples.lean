import Verif.Props.Again
/-
C111: the standard words of the sample lexicons.
-/
namespace AS.Props
open AS AS.Tokenizer AS.Wrapper

/-- The lines of a lexicon mean what they mean in capitals. -/
def Capitals (icu : Icu) (p : Pair) : Prop := ∀ line ∈ p.lexicon.body, canonLine icu p.lexicon.locale line = squeeze (upLine line)

/-- The entries of a lexicon in capitals. -/
def upEntries (p : Pair) : List LexEntry := p.lexicon.body.map (fun l => entryOf (squeeze (upLine l)))

theorem entries_up {icu : Icu} {p : Pair} (h : Capitals icu p) : entriesOf icu p = upEntries p :=
  List.map_congr_left fun l hl => by rw [h l hl]

/-! ### Texts as numbers -/

/-- A text as a number. -/
def textCode : Str → Nat
  | [] => 0
  | c :: s => c.toNat + 1 + 2097152 * textCode s

theorem textCode_inj : ∀ {s t : Str}, textCode s = textCode t → s = t
  | [], [], _ => rfl
  | [], c :: t, h => by simp only [textCode] at h; omega
  | c :: s, [], h => by simp only [textCode] at h; omega
  | c :: s, d :: t, h => by
    simp only [textCode] at h
    have h1 : c.toNat < 1114112 := by
      rcases c.valid with k | k
      · exact Nat.lt_trans k (by decide)
      · exact k.2
    have h2 : d.toNat < 1114112 := by
      rcases d.valid with k | k
      · exact Nat.lt_trans k (by decide)
      · exact k.2
    have e : textCode s = textCode t := by omega
    have e' : c.toNat = d.toNat := by omega
    rw [textCode_inj e, Char.toNat_inj.1 e']

/-- An entry with its texts as numbers. -/
def rowOf (e : LexEntry) : Nat × Nat × List InType := (textCode e.word, textCode e.stdword, e.type)

/-- The standard word, looked up in such rows. -/
noncomputable def rowStd (rows : List (Nat × Nat × List InType)) (w : Nat) (c : InType) : Option Nat :=
  List.rec none (fun r _ ih => Bool.rec ih (Bool.rec ih (some r.2.1) (r.2.2.contains c)) (Nat.beq r.1 w)) rows

noncomputable def rowsAll (rows : List (Nat × Nat × List InType)) (P : Nat × Nat × List InType → Bool) : Bool :=
  List.rec true (fun r _ ih => Bool.rec false ih (P r)) rows

/-- Whether all standard words are settled. -/
noncomputable def rowsCheck (rows : List (Nat × Nat × List InType)) : Bool :=
  rowsAll rows fun r => r.2.2.all fun c =>
    match rowStd rows r.1 c with
    | none => true
    | some s => Nat.beq s 0 || Nat.beq s r.1 || (match rowStd rows s c with
      | none => false
      | some t => (Nat.beq t s || Nat.beq t 0) &&
        rowsAll rows fun r' => Bool.rec true (r'.2.2.all fun d => (rowStd rows r.1 d).isSome) (Nat.beq r'.1 s))

theorem rowsAll_true {P : Nat × Nat × List InType → Bool} : ∀ {rows : List (Nat × Nat × List InType)}, rowsAll rows P = true → ∀ r ∈ rows, P r = true
  | [], _, r, hr => by cases hr
  | x :: rows, h, r, hr => by
    have e : rowsAll (x :: rows) P = Bool.rec false (rowsAll rows P) (P x) := rfl
    rw [e] at h
    cases hx : P x with
    | false => rw [hx] at h; cases h
    | true =>
      rw [hx] at h
      rcases List.mem_cons.1 hr with rfl | hr
      · exact hx
      · exact rowsAll_true h r hr

theorem rowStd_eq (w : Str) (c : InType) : ∀ es : List LexEntry, rowStd (es.map rowOf) (textCode w) c = (standardOf es w c).map textCode
  | [] => rfl
  | e :: es => by
    have ih := rowStd_eq w c es
    have h : rowStd ((e :: es).map rowOf) (textCode w) c = Bool.rec (rowStd (es.map rowOf) (textCode w) c)
      (Bool.rec (rowStd (es.map rowOf) (textCode w) c) (some (textCode e.stdword)) (e.type.contains c)) (Nat.beq (textCode e.word) (textCode w)) := rfl
    rw [h, ih]
    unfold standardOf
    by_cases hw : e.word = w
    · by_cases hc : c ∈ e.type
      · rw [List.find?_cons_of_pos (by simp [hw, hc]), hw, Nat.beq_refl, List.contains_iff_mem.2 hc]
        rfl
      · rw [List.find?_cons_of_neg (by simp [hc]), hw, Nat.beq_refl, Bool.eq_false_iff.2 (fun k => hc (List.contains_iff_mem.1 k))]
    · rw [List.find?_cons_of_neg (by simp [hw])]
      have : Nat.beq (textCode e.word) (textCode w) = false := by
        rw [Bool.eq_false_iff]
        exact fun k => hw (textCode_inj (Nat.eq_of_beq_eq_true k))
      rw [this]

theorem settled_of_rows {es : List LexEntry} (h : rowsCheck (es.map rowOf) = true) : Settled es := by
  intro v c s hs hne
  obtain ⟨e, he, rfl, hc⟩ := standardOf_mem (es := es) (v := v) (c := c) (by rw [hs]; simp)
  have k := List.all_eq_true.1 (rowsAll_true h _ (List.mem_map_of_mem (f := rowOf) he)) c hc
  have e1 : rowStd (es.map rowOf) (rowOf e).1 c = some (textCode s) := by
    have := rowStd_eq e.word c es
    rw [hs] at this
    exact this
  rw [e1] at k
  simp only [Bool.or_eq_true] at k
  have h0 : ¬ textCode s = textCode [] := fun k => hne (textCode_inj k)
  rcases k with (k | k) | k
  · exact absurd (Nat.eq_of_beq_eq_true k) h0
  · have : s = e.word := textCode_inj (Nat.eq_of_beq_eq_true k)
    rw [this] at hs ⊢
    exact ⟨Or.inl hs, fun _ h => h⟩
  · rw [rowStd_eq] at k
    cases ht : standardOf es s c with
    | none => rw [ht] at k; cases k
    | some t =>
      rw [ht] at k
      simp only [Option.map_some, Bool.and_eq_true, Bool.or_eq_true] at k
      obtain ⟨k1, k2⟩ := k
      refine ⟨k1.imp (fun k => by rw [textCode_inj (Nat.eq_of_beq_eq_true k)]) (fun k => by
        rw [textCode_inj (t := []) (Nat.eq_of_beq_eq_true k)]), fun d hd => ?_⟩
      obtain ⟨e', he', hw, hd'⟩ := standardOf_mem hd
      have := rowsAll_true k2 _ (List.mem_map_of_mem (f := rowOf) he')
      have e2 : Nat.beq (rowOf e').1 (textCode s) = true := by rw [← hw]; exact Nat.beq_refl _
      rw [e2] at this
      have := List.all_eq_true.1 this d hd'
      have e3 := rowStd_eq e.word d es
      have e4 : rowStd (es.map rowOf) (rowOf e).1 d = (standardOf es e.word d).map textCode := e3
      rw [e4] at this
      intro hn
      rw [hn] at this
      cases this

theorem unsettled_of {es : List LexEntry} (v : Str) (c : InType) (s : Str) (d : InType)
    (h : rowStd (es.map rowOf) (textCode v) c = some (textCode s) ∧ s ≠ [] ∧ (rowStd (es.map rowOf) (textCode s) c = none ∨
      ((rowStd (es.map rowOf) (textCode s) d).isSome = true ∧ rowStd (es.map rowOf) (textCode v) d = none))) :
    ¬ Settled es := by
  intro hset
  obtain ⟨h1, h2, h3⟩ := h
  rw [rowStd_eq] at h1 h3
  rw [rowStd_eq, rowStd_eq] at h3
  obtain ⟨s', e1, e2⟩ := Option.map_eq_some_iff.1 h1
  cases textCode_inj e2
  obtain ⟨k1, k2⟩ := hset v c s e1 h2
  rcases h3 with h3 | ⟨h3, h4⟩
  · rw [Option.map_eq_none_iff] at h3
    rcases k1 with k | k <;> rw [h3] at k <;> cases k
  · rw [Option.map_eq_none_iff] at h4
    exact k2 d (by intro hn; rw [hn] at h3; cases h3) h4

theorem unsettled_by {es : List LexEntry} (v : Str) (c : InType) (s t : Str)
    (h : rowStd (es.map rowOf) (textCode v) c = some (textCode s) ∧ s ≠ [] ∧ rowStd (es.map rowOf) (textCode s) c = some (textCode t) ∧
      t ≠ s ∧ t ≠ []) : ¬ Settled es := by
  intro hset
  obtain ⟨h1, h2, h3, h4, h5⟩ := h
  rw [rowStd_eq] at h1 h3
  obtain ⟨s', e1, e2⟩ := Option.map_eq_some_iff.1 h1
  cases textCode_inj e2
  obtain ⟨t', e3, e4⟩ := Option.map_eq_some_iff.1 h3
  cases textCode_inj e4
  rcases (hset v c s e1 h2).1 with k | k <;> rw [e3] at k <;> cases k
  · exact h4 rfl
  · exact h5 rfl

/-! ### The samples -/

set_option maxRecDepth 1000000 in
theorem settledAustria : Settled (upEntries Sample.Austria.pair) :=
  settled_of_rows (by decide +kernel)

set_option maxRecDepth 1000000 in
theorem settledFinland : Settled (upEntries Sample.Finland.pair) :=
  settled_of_rows (by decide +kernel)

set_option maxRecDepth 1000000 in
theorem settledLiechtenstein : Settled (upEntries Sample.Liechtenstein.pair) :=
  settled_of_rows (by decide +kernel)

set_option maxRecDepth 1000000 in
theorem settledLuxembourg : Settled (upEntries Sample.Luxembourg.pair) :=
  settled_of_rows (by decide +kernel)

set_option maxRecDepth 1000000 in
theorem settledNetherlands : Settled (upEntries Sample.Netherlands.pair) :=
  settled_of_rows (by decide +kernel)

set_option maxRecDepth 1000000 in
theorem settledNorway : Settled (upEntries Sample.Norway.pair) :=
  settled_of_rows (by decide +kernel)

set_option maxRecDepth 1000000 in
theorem settledSpain : Settled (upEntries Sample.Spain.pair) :=
  settled_of_rows (by decide +kernel)

set_option maxRecDepth 1000000 in
theorem settledSweden : Settled (upEntries Sample.Sweden.pair) :=
  settled_of_rows (by decide +kernel)

set_option maxRecDepth 1000000 in
theorem unsettledAndorra : ¬ Settled (upEntries Sample.Andorra.pair) :=
  unsettled_of c!"ESCALDES ENGODANY" .CITY c!"ESCALDES ENGORDANY" .CITY (by decide +kernel)

set_option maxRecDepth 1000000 in
theorem unsettledAustralia : ¬ Settled (upEntries Sample.Australia.pair) :=
  unsettled_of c!"ACT" .PROV c!"AUSTRALIAN CAPITAL TERRITORY" .PROV (by decide +kernel)

set_option maxRecDepth 1000000 in
theorem unsettledBelgium : ¬ Settled (upEntries Sample.Belgium.pair) :=
  unsettled_of c!"MKT" .TYPE c!"MARKT" .PLACEN (by decide +kernel)

set_option maxRecDepth 1000000 in
theorem unsettledCanada : ¬ Settled (upEntries Sample.Canada.pair) :=
  unsettled_by c!"PAS" .TYPE c!"PASSAGE" c!"PSGE" (by decide +kernel)

set_option maxRecDepth 1000000 in
theorem unsettledDenmark : ¬ Settled (upEntries Sample.Denmark.pair) :=
  unsettled_of c!"C" .WORD c!"C " .WORD (by decide +kernel)

set_option maxRecDepth 1000000 in
theorem unsettledFrance : ¬ Settled (upEntries Sample.France.pair) :=
  unsettled_of c!"FG" .TYPE c!"FAUBOURG" .WORD (by decide +kernel)

set_option maxRecDepth 1000000 in
theorem unsettledGermany : ¬ Settled (upEntries Sample.Germany.pair) :=
  unsettled_of c!"BAVARIA" .PROV c!"BAYERN" .WORD (by decide +kernel)

set_option maxRecDepth 1000000 in
theorem unsettledGreatbritain : ¬ Settled (upEntries Sample.Greatbritain.pair) :=
  unsettled_of c!"N HUMB" .PROV c!"N HUMBERSIDE" .PROV (by decide +kernel)

set_option maxRecDepth 1000000 in
theorem unsettledIreland : ¬ Settled (upEntries Sample.Ireland.pair) :=
  unsettled_of c!"CAVAN" .PROV c!"CO. CAVAN" .PROV (by decide +kernel)

set_option maxRecDepth 1000000 in
theorem unsettledItaly : ¬ Settled (upEntries Sample.Italy.pair) :=
  unsettled_of c!"AGRIGENTO" .WORD c!"AG" .WORD (by decide +kernel)

set_option maxRecDepth 1000000 in
theorem unsettledMonaco : ¬ Settled (upEntries Sample.Monaco.pair) :=
  unsettled_of c!"FG" .TYPE c!"FAUBOURG" .WORD (by decide +kernel)

set_option maxRecDepth 1000000 in
theorem unsettledNewzealand : ¬ Settled (upEntries Sample.Newzealand.pair) :=
  unsettled_of c!"ROAD" .TYPE c!"RD" .BOXH (by decide +kernel)

set_option maxRecDepth 1000000 in
theorem unsettledPortugal : ¬ Settled (upEntries Sample.Portugal.pair) :=
  unsettled_of c!"LISBON" .PROV c!"LISBOA" .PROV (by decide +kernel)

set_option maxRecDepth 1000000 in
theorem unsettledSanMarino : ¬ Settled (upEntries Sample.SanMarino.pair) :=
  unsettled_of c!"AG" .PROV c!"AGRIGENTO" .PROV (by decide +kernel)

set_option maxRecDepth 1000000 in
theorem unsettledSwitzerland : ¬ Settled (upEntries Sample.Switzerland.pair) :=
  unsettled_of c!"AARGAU" .PROV c!"AG" .PLACEN (by decide +kernel)

set_option maxRecDepth 1000000 in
theorem unsettledUsa : ¬ Settled (upEntries Sample.Usa.pair) :=
  unsettled_by c!"CE" .TYPE c!"CENTRE" c!"CENTER" (by decide +kernel)

set_option maxRecDepth 1000000 in
theorem unsettledVatican : ¬ Settled (upEntries Sample.Vatican.pair) :=
  unsettled_of c!"AG" .PROV c!"AGRIGENTO" .PROV (by decide +kernel)

/-- The sample lexicons whose standard words are settled. -/
def settledPairs : List Pair := [Sample.Austria.pair, Sample.Finland.pair, Sample.Liechtenstein.pair, Sample.Luxembourg.pair, Sample.Netherlands.pair, Sample.Norway.pair, Sample.Spain.pair, Sample.Sweden.pair]

/-- The others. -/
def unsettledPairs : List Pair := [Sample.Andorra.pair, Sample.Australia.pair, Sample.Belgium.pair, Sample.Canada.pair, Sample.Denmark.pair, Sample.France.pair, Sample.Germany.pair, Sample.Greatbritain.pair,
  Sample.Ireland.pair, Sample.Italy.pair, Sample.Monaco.pair, Sample.Newzealand.pair, Sample.Portugal.pair, Sample.SanMarino.pair, Sample.Switzerland.pair, Sample.Usa.pair, Sample.Vatican.pair]

/-- Every sample lexicon is one of these or one of those; of these all standard words are settled, of those not. -/
theorem C111_samples (icu : Icu) (p : Pair) (hp : p ∈ pairs) (hicu : Capitals icu p) :
    (p ∈ settledPairs ∧ Settled (entriesOf icu p)) ∨ (p ∈ unsettledPairs ∧ ¬ Settled (entriesOf icu p)) := by
  rw [entries_up hicu]
  have h1 : ∀ p ∈ settledPairs, Settled (upEntries p) := by
    intro p hp
    simp only [settledPairs, List.mem_cons, List.not_mem_nil, or_false] at hp
    rcases hp with rfl | rfl | rfl | rfl | rfl | rfl | rfl | rfl
    · exact settledAustria
    · exact settledFinland
    · exact settledLiechtenstein
    · exact settledLuxembourg
    · exact settledNetherlands
    · exact settledNorway
    · exact settledSpain
    · exact settledSweden
  have h2 : ∀ p ∈ unsettledPairs, ¬ Settled (upEntries p) := by
    intro p hp
    simp only [unsettledPairs, List.mem_cons, List.not_mem_nil, or_false] at hp
    rcases hp with rfl | rfl | rfl | rfl | rfl | rfl | rfl | rfl | rfl | rfl | rfl | rfl | rfl | rfl | rfl | rfl | rfl
    · exact unsettledAndorra
    · exact unsettledAustralia
    · exact unsettledBelgium
    · exact unsettledCanada
    · exact unsettledDenmark
    · exact unsettledFrance
    · exact unsettledGermany
    · exact unsettledGreatbritain
    · exact unsettledIreland
    · exact unsettledItaly
    · exact unsettledMonaco
    · exact unsettledNewzealand
    · exact unsettledPortugal
    · exact unsettledSanMarino
    · exact unsettledSwitzerland
    · exact unsettledUsa
    · exact unsettledVatican
  have h3 : p ∈ settledPairs ∨ p ∈ unsettledPairs := by
    simp only [pairs, settledPairs, unsettledPairs, List.mem_cons, List.not_mem_nil, or_false] at hp ⊢
    rcases hp with hp | hp | hp | hp | hp | hp | hp | hp | hp | hp | hp | hp | hp | hp | hp | hp | hp | hp | hp | hp | hp | hp | hp | hp | hp <;> simp only [hp, true_or, or_true]
  exact h3.imp (fun h => ⟨h, h1 p h⟩) fun h => ⟨h, h2 p h⟩

end AS.Props
