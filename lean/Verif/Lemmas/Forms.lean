import Verif.Spec.Forms
import Verif.Lemmas.PruneCheck
import Verif.Props.Rounding
/-
All readings of a list of words by a sample grammar, with the scores as they are written.
-/
namespace AS
open Wrapper
variable {F : Type}

/-- `0.1` to `0.9`. -/
def isTenth : Str → Bool
  | ['0', '.', d] => c!"123456789".contains d
  | _ => false

/-- With the usual tables and numbers the text gives the same grammar, the scores read. -/
theorem grammar_scored {lines : List Str} (ht : textOk lines = true) {g0 : Grammar Str}
    (hg0 : Grammar.initialize asciiTables textOps (unlines lines) = .ok g0) {ct : CharTables} {fo : FloatOps F} (hu : Usual ct fo)
    {g : Grammar F} (hg : Grammar.initialize ct fo (unlines lines) = .ok g) :
    g.metaNames = g0.metaNames ∧ g.ruleSections = scoredAll fo g0.ruleSections := by
  obtain ⟨g', hg', e⟩ := accepted_scored ht hg0 hu
  rw [hg] at hg'
  cases hg'
  exact e

/-! ### Readings -/

/-- How words are taken and given, the sum of the scores in inTenths, and the number of rules. -/
structure Reading where
  ins : List InType
  outs : List OutType
  sum : Nat
  count : Nat
deriving DecidableEq, Repr

/-- The score in inTenths. -/
def inTenths : Str → Nat
  | [_, _, d] => d.toNat - 48
  | _ => 0

/-- The reading by a sequence of rules. -/
def readingOf (rs : List (Rule Str)) : Reading := ⟨inputs rs, outputs rs, (rs.map fun r => inTenths r.score).sum, rs.length⟩

/-- The reading with another rule before it. -/
def Reading.front (r : Rule Str) (x : Reading) : Reading :=
  ⟨r.inClass ++ x.ins, r.outClass ++ x.outs, inTenths r.score + x.sum, x.count + 1⟩

/-- The first words may be taken in these classes; a word may have all classes but those listed for it. -/
def fits : List InType → List (List InType) → Bool
  | [], _ => true
  | _ :: _, [] => false
  | c :: cs, k :: ks => !k.contains c && fits cs ks

/-- The words may be taken in these classes. -/
abbrev May (is : List InType) (wss : List (List InType)) : Prop := Along (fun c ws => c ∉ ws) is wss

/-- The lists one after the other, if all are given. -/
def gather {α β : Type} (f : α → Option (List β)) : List α → Option (List β)
  | [] => some []
  | a :: as =>
    match f a, gather f as with
    | some x, some y => some (x ++ y)
    | _, _ => none

/-- A grammar with numbers in place of the names: its sections with the names they have, those of meta rules first. -/
structure Coded where
  metas : List (Str × List (List Nat))
  rules : List (Str × List (Rule Str))

namespace Coded

/-- The name of the section with a number. -/
def nm (c : Coded) (i : Nat) : Str := ((c.metas.map (·.1) ++ c.rules.map (·.1))[i]?).getD []

/-- The sections with their names. -/
def metaNames (c : Coded) : List (Str × List (List Str)) := c.metas.map fun x => (x.1, x.2.map (·.map c.nm))

/-- The contents of all sections, by number. -/
def secs (c : Coded) : List (List (List Nat) × List (Rule Str)) :=
  (c.metas.map fun x => (x.2, [])) ++ c.rules.map fun x => ([], x.2)

/-- Each number stands for the sections with its name, with something in each rule. -/
def ok (c : Coded) : Bool :=
  (List.range c.secs.length).all (fun i =>
    match c.secs[i]? with
    | some sec => decide ((c.metaNames.filter (fun x => decide (x.1 = c.nm i))).flatMap (·.2) = sec.1.map (·.map c.nm)) &&
        decide ((c.rules.filter (fun x => decide (x.1 = c.nm i))).flatMap (·.2) = sec.2)
    | none => false) &&
  c.metas.all (fun x => x.2.all fun refs => !refs.isEmpty) &&
  c.rules.all (fun x => x.2.all fun r => !r.inClass.isEmpty)

/-- What the check shows. -/
theorem ok_spec {c : Coded} (h : c.ok = true) :
    (∀ i sec, c.secs[i]? = some sec → (c.metaNames.filter (fun x => decide (x.1 = c.nm i))).flatMap (·.2) = sec.1.map (·.map c.nm) ∧
      (c.rules.filter (fun x => decide (x.1 = c.nm i))).flatMap (·.2) = sec.2) ∧
    (∀ x ∈ c.metaNames, ∀ refs ∈ x.2, refs ≠ []) ∧ (∀ x ∈ c.rules, ∀ r ∈ x.2, r.inClass ≠ []) := by
  simp only [ok, Bool.and_eq_true, List.all_eq_true, List.mem_range, Bool.not_eq_true', List.isEmpty_eq_false_iff] at h
  obtain ⟨⟨h1, h2⟩, h3⟩ := h
  refine ⟨fun i sec e => ?_, ?_, h3⟩
  · have hi : i < c.secs.length := (List.getElem?_eq_some_iff.1 e).1
    have := h1 i hi
    rw [e] at this
    simpa only [Bool.and_eq_true, decide_eq_true_eq] using this
  · intro x hx refs hr
    obtain ⟨y, hy, rfl⟩ := List.mem_map.1 hx
    obtain ⟨q, hq, rfl⟩ := List.mem_map.1 hr
    exact fun e => h2 y hy q hq (List.map_eq_nil_iff.1 e)

end Coded

/-- The first list is not longer. -/
def noLonger {α β : Type} : List α → List β → Bool
  | [], _ => true
  | _ :: _, [] => false
  | _ :: as, _ :: bs => noLonger as bs

/-- All readings of the words, of which it is listed what classes they do not have, by derivations from the sections with the given
contents; none if the first argument is too small or there is no such section. -/
def readings (secs : List (List (List Nat) × List (Rule Str))) : Nat → List Nat → List (List InType) → Option (List Reading)
  | 0, _, _ => none
  | _ + 1, [], css => some (if css.isEmpty then [⟨[], [], 0, 0⟩] else [])
  | n + 1, s :: ss, css =>
    if noLonger (s :: ss) css then
      match secs[s]? with
      | none => none
      | some sec =>
        match gather (fun refs => readings secs n (refs ++ ss) css) sec.1,
          gather (fun r => (readings secs n ss (css.drop r.inClass.length)).map (·.map (Reading.front r)))
            (sec.2.filter (fun r => fits r.inClass css)) with
        | some a, some b => some (a ++ b)
        | _, _ => none
    else some []

theorem mem_gather {α β : Type} {f : α → Option (List β)} : ∀ {as : List α} {l : List β}, gather f as = some l →
    ∀ y, y ∈ l ↔ ∃ a ∈ as, ∃ x, f a = some x ∧ y ∈ x
  | [], l, h, y => by
    cases h
    simp
  | a :: as, l, h, y => by
    rw [gather] at h
    split at h
    · next x z h1 h2 =>
      cases h
      rw [List.mem_append, mem_gather h2]
      simp only [List.mem_cons]
      constructor
      · rintro (hx | ⟨b, hb, w, e, hw⟩)
        · exact ⟨a, Or.inl rfl, x, h1, hx⟩
        · exact ⟨b, Or.inr hb, w, e, hw⟩
      · rintro ⟨b, rfl | hb, w, e, hw⟩
        · rw [h1] at e; cases e; exact Or.inl hw
        · exact Or.inr ⟨b, hb, w, e, hw⟩
    · cases h

theorem gather_some {α β : Type} {f : α → Option (List β)} : ∀ {as : List α} {l : List β}, gather f as = some l →
    ∀ a ∈ as, ∃ x, f a = some x
  | [], _, _, _, ha => by cases ha
  | b :: as, l, h, a, ha => by
    rw [gather] at h
    split at h
    · next x z h1 h2 =>
      rcases List.mem_cons.1 ha with rfl | ha
      · exact ⟨x, h1⟩
      · exact gather_some h2 a ha
    · cases h

theorem may_append {is js : List InType} {css : List (List InType)} :
    May (is ++ js) css ↔ fits is css = true ∧ May js (css.drop is.length) := by
  induction is generalizing css with
  | nil => simp [fits]
  | cons c is ih =>
    cases css with
    | nil =>
      simp only [fits, List.cons_append]
      constructor
      · intro h; cases h
      · intro h; cases h.1
    | cons k ks =>
      simp only [fits, List.cons_append, List.length_cons, List.drop_succ_cons, Bool.and_eq_true, List.contains_eq_mem,
        Bool.not_eq_true', decide_eq_false_iff_not]
      constructor
      · intro h
        cases h with
        | cons h1 h2 => exact ⟨⟨h1, (ih.1 h2).1⟩, (ih.1 h2).2⟩
      · rintro ⟨⟨h1, h2⟩, h3⟩
        exact .cons h1 (ih.2 ⟨h2, h3⟩)

theorem metaNames_mem {G : Grammar F} {s : Str} {refs : List Str} :
    refs ∈ (G.metaNames.filter (fun x => decide (x.1 = s))).flatMap (·.2) ↔
      ∃ sec ∈ G.metas, sec.name = s ∧ ∃ rule ∈ sec.rules, rule.map (·.name) = refs := by
  simp only [List.mem_flatMap, List.mem_filter, decide_eq_true_eq, Grammar.metaNames, List.mem_map]
  constructor
  · rintro ⟨_, ⟨⟨sec, h1, rfl⟩, h2⟩, h3⟩
    simp only [List.mem_map] at h3
    exact ⟨sec, h1, h2, h3⟩
  · rintro ⟨sec, h1, h2, h3⟩
    exact ⟨_, ⟨⟨sec, h1, rfl⟩, h2⟩, by simpa using h3⟩

theorem ruleSections_mem {G : Grammar F} {rs : List (Str × List (Rule Str))} {fo : FloatOps F} (h : G.ruleSections = scoredAll fo rs) {s : Str}
    {r : Rule F} : (∃ sec ∈ G.rules, sec.name = s ∧ r ∈ sec.rules) ↔
      ∃ r0 ∈ (rs.filter (fun x => decide (x.1 = s))).flatMap (·.2), r = scored fo r0 := by
  have h1 : (∃ sec ∈ G.rules, sec.name = s ∧ r ∈ sec.rules) ↔ ∃ x ∈ G.ruleSections, x.1 = s ∧ r ∈ x.2 := by
    unfold Grammar.ruleSections
    constructor
    · rintro ⟨sec, a, b, c⟩
      exact ⟨_, List.mem_map.2 ⟨sec, a, rfl⟩, b, c⟩
    · rintro ⟨_, hx, b, c⟩
      obtain ⟨sec, a, rfl⟩ := List.mem_map.1 hx
      exact ⟨sec, a, b, c⟩
  rw [h1, h]
  unfold scoredAll
  simp only [List.mem_map, List.mem_flatMap, List.mem_filter, decide_eq_true_eq]
  constructor
  · rintro ⟨_, ⟨x, hx, rfl⟩, e, hr⟩
    simp only [List.mem_map] at hr
    obtain ⟨r0, h0, rfl⟩ := hr
    exact ⟨r0, ⟨x, ⟨hx, e⟩, h0⟩, rfl⟩
  · rintro ⟨r0, ⟨x, ⟨hx, e⟩, h0⟩, rfl⟩
    exact ⟨_, ⟨x, hx, rfl⟩, e, List.mem_map.2 ⟨r0, h0, rfl⟩⟩

theorem readingOf_cons (r : Rule Str) (rs : List (Rule Str)) : readingOf (r :: rs) = (readingOf rs).front r := by
  simp [readingOf, Reading.front, inputs, outputs]

theorem inputs_scored {fo : FloatOps F} (rs : List (Rule Str)) : inputs (rs.map (scored fo)) = inputs rs := by
  simp [inputs, List.flatMap_map, scored]

theorem outputs_scored {fo : FloatOps F} (rs : List (Rule Str)) : outputs (rs.map (scored fo)) = outputs rs := by
  simp [outputs, List.flatMap_map, scored]

/-- Each section of a derivation takes a word. -/
theorem derives_longer {G : Grammar F} (h1 : ∀ x ∈ G.metaNames, ∀ refs ∈ x.2, refs ≠ []) (h2 : ∀ x ∈ G.ruleSections, ∀ r ∈ x.2, r.inClass ≠ [])
    {ss : List Str} {rr : List (Rule F)} {m : Nat} (hd : Derives G ss rr m) : ss.length ≤ (inputs rr).length := by
  induction hd with
  | done => simp
  | @rule s ss sec r rr m a1 a2 a3 _ ih =>
    have : 0 < r.inClass.length := List.length_pos_iff.2 (h2 (sec.name, sec.rules) (List.mem_map.2 ⟨sec, a1, rfl⟩) r a3)
    simp only [inputs, List.flatMap_cons, List.length_append, List.length_cons] at ih ⊢
    omega
  | @expand s ss sec refs rr m a1 a2 a3 _ ih =>
    have : 0 < refs.length := by
      have := h1 (sec.name, sec.rules.map (·.map (·.name))) (List.mem_map.2 ⟨sec, a1, rfl⟩) _ (List.mem_map_of_mem a3)
      exact List.length_pos_iff.2 fun e => this (by rw [e]; rfl)
    simp only [List.length_append, List.length_map, List.length_cons] at ih ⊢
    omega

theorem noLonger_of {α β : Type} : ∀ {as : List α} {bs : List β}, as.length ≤ bs.length → noLonger as bs = true
  | [], _, _ => rfl
  | _ :: _, [], h => by simp at h
  | _ :: as, _ :: bs, h => by rw [noLonger]; exact noLonger_of (by simpa using h)

theorem Along.length_eq {α β : Type} {R : α → β → Prop} : ∀ {as : List α} {bs : List β}, Along R as bs → as.length = bs.length
  | _, _, .nil => rfl
  | _, _, .cons _ h => by simp [h.length_eq]

/-- Every derivation that suits the words is among the readings. -/
theorem readings_all {G : Grammar F} {c : Coded} (hok : c.ok = true) {fo : FloatOps F} (hm : G.metaNames = c.metaNames)
    (h : G.ruleSections = scoredAll fo c.rules) {ss : List Str} {rr : List (Rule F)} {m : Nat} (hd : Derives G ss rr m) :
    ∀ {n : Nat} {is : List Nat} {css : List (List InType)} {l : List Reading}, ss = is.map c.nm →
    readings c.secs n is css = some l → May (inputs rr) css →
    ∃ rr0 : List (Rule Str), rr = rr0.map (scored fo) ∧ (∀ r ∈ rr0, ∃ sec ∈ c.rules, r ∈ sec.2) ∧ readingOf rr0 ∈ l := by
  obtain ⟨o1, o2, o3⟩ := Coded.ok_spec hok
  have g1 : ∀ x ∈ G.metaNames, ∀ refs ∈ x.2, refs ≠ [] := by rw [hm]; exact o2
  have g2 : ∀ x ∈ G.ruleSections, ∀ r ∈ x.2, r.inClass ≠ [] := by
    rw [h]
    intro x hx r hr
    obtain ⟨y, hy, rfl⟩ := List.mem_map.1 hx
    obtain ⟨q, hq, rfl⟩ := List.mem_map.1 hr
    exact o3 y hy q hq
  induction hd with
  | done =>
    intro n is css l he hl hp
    cases n with
    | zero => cases hl
    | succ n =>
      cases List.map_eq_nil_iff.1 he.symm
      rw [readings] at hl
      cases hp
      cases hl
      exact ⟨[], rfl, by simp, by simp [readingOf, inputs, outputs]⟩
  | @rule s ss sec r rr m h1 h2 h3 hd ih =>
    intro n is css l he hl hp
    have hlong := derives_longer g1 g2 (.rule h1 h2 h3 hd)
    rw [hp.length_eq] at hlong
    cases n with
    | zero => cases hl
    | succ n =>
      obtain ⟨i, is, rfl, rfl, rfl⟩ := List.map_eq_cons_iff.1 he.symm
      rw [readings, if_pos (noLonger_of (by simpa using hlong))] at hl
      split at hl
      · cases hl
      · next se hse =>
        split at hl
        · next a b ha hb =>
          cases hl
          obtain ⟨r0, hr0, rfl⟩ := (ruleSections_mem h).1 ⟨sec, h1, h2, h3⟩
          have hp' : fits r0.inClass css = true ∧ May (inputs rr) (css.drop r0.inClass.length) := by
            rw [← may_append]
            simpa [inputs, scored] using hp
          have hm' : r0 ∈ se.2.filter (fun r => fits r.inClass css) := by
            rw [← (o1 i se hse).2]
            exact List.mem_filter.2 ⟨hr0, hp'.1⟩
          obtain ⟨x, hx⟩ := gather_some hb r0 hm'
          obtain ⟨l', hl', hx'⟩ := Option.map_eq_some_iff.1 hx
          obtain ⟨rr0, e1, e2, e3⟩ := ih rfl hl' hp'.2
          refine ⟨r0 :: rr0, by rw [e1]; rfl, ?_, ?_⟩
          · intro r hr
            rcases List.mem_cons.1 hr with rfl | hr
            · simp only [List.mem_flatMap, List.mem_filter] at hr0
              obtain ⟨sec, ⟨q1, _⟩, q2⟩ := hr0
              exact ⟨sec, q1, q2⟩
            · exact e2 r hr
          · refine List.mem_append_right _ ((mem_gather hb _).2 ⟨r0, hm', x, hx, ?_⟩)
            rw [← hx', readingOf_cons]
            exact List.mem_map_of_mem e3
        · cases hl
  | @expand s ss sec refs rr m h1 h2 h3 hd ih =>
    intro n is css l he hl hp
    have hlong := derives_longer g1 g2 (.expand h1 h2 h3 hd)
    rw [hp.length_eq] at hlong
    cases n with
    | zero => cases hl
    | succ n =>
      obtain ⟨i, is, rfl, rfl, rfl⟩ := List.map_eq_cons_iff.1 he.symm
      rw [readings, if_pos (noLonger_of (by simpa using hlong))] at hl
      split at hl
      · cases hl
      · next se hse =>
        split at hl
        · next a b ha hb =>
          cases hl
          have hm' := metaNames_mem.2 ⟨sec, h1, h2, refs, h3, rfl⟩
          rw [hm, (o1 i se hse).1] at hm'
          obtain ⟨js, hj, ej⟩ := List.mem_map.1 hm'
          obtain ⟨x, hx⟩ := gather_some ha _ hj
          obtain ⟨rr0, e1, e2, e3⟩ := ih (by rw [← ej, List.map_append]) hx hp
          exact ⟨rr0, e1, e2, List.mem_append_left _ ((mem_gather ha _).2 ⟨_, hj, x, hx, e3⟩)⟩
        · cases hl

/-- Every reading is that of a derivation. -/
theorem readings_only {G : Grammar F} {c : Coded} (hok : c.ok = true) {fo : FloatOps F} (hm : G.metaNames = c.metaNames)
    (h : G.ruleSections = scoredAll fo c.rules) :
    ∀ {n : Nat} {is : List Nat} {css : List (List InType)} {l : List Reading}, readings c.secs n is css = some l →
    ∀ x ∈ l, ∃ rr0 m, readingOf rr0 = x ∧ Derives G (is.map c.nm) (rr0.map (scored fo)) m ∧ May (inputs rr0) css ∧
      ∀ r ∈ rr0, ∃ sec ∈ c.rules, r ∈ sec.2
  | 0, _, _, _, hl, _, _ => by cases hl
  | n + 1, [], css, l, hl, x, hx => by
    rw [readings] at hl
    cases hl
    split at hx
    · next he =>
      cases List.isEmpty_iff.1 he
      cases List.mem_singleton.1 hx
      exact ⟨[], 0, rfl, .done, .nil, by simp⟩
    · cases hx
  | n + 1, i :: is, css, l, hl, x, hx => by
    obtain ⟨o1, _, _⟩ := Coded.ok_spec hok
    rw [readings] at hl
    split at hl
    · split at hl
      · cases hl
      · next se hse =>
        split at hl
        · next a b ha hb =>
          cases hl
          rcases List.mem_append.1 hx with hx | hx
          · obtain ⟨js, hr, y, hy, hxy⟩ := (mem_gather ha _).1 hx
            have hr' : js.map c.nm ∈ (G.metaNames.filter (fun x => decide (x.1 = c.nm i))).flatMap (·.2) := by
              rw [hm, (o1 i se hse).1]
              exact List.mem_map_of_mem hr
            obtain ⟨sec, h1, h2, rule, h3, h4⟩ := metaNames_mem.1 hr'
            obtain ⟨rr0, m, e1, e2, e3, e4⟩ := readings_only hok hm h hy x hxy
            rw [List.map_append, ← h4] at e2
            exact ⟨rr0, m + 1, e1, .expand h1 h2 h3 e2, e3, e4⟩
          · obtain ⟨r0, hr, y, hy, hxy⟩ := (mem_gather hb _).1 hx
            obtain ⟨hr, hf⟩ := List.mem_filter.1 hr
            rw [← (o1 i se hse).2] at hr
            obtain ⟨l', hl', rfl⟩ := Option.map_eq_some_iff.1 hy
            obtain ⟨x', hx', rfl⟩ := List.mem_map.1 hxy
            obtain ⟨rr0, m, e1, e2, e3, e4⟩ := readings_only hok hm h hl' x' hx'
            obtain ⟨sec, h1, h2, h3⟩ := (ruleSections_mem h).2 ⟨r0, hr, rfl⟩
            refine ⟨r0 :: rr0, m, by rw [readingOf_cons, e1], .rule h1 h2 h3 e2, ?_, ?_⟩
            · have := (may_append (is := r0.inClass) (js := inputs rr0) (css := css)).2 ⟨hf, e3⟩
              simpa [inputs] using this
            · intro r hr'
              rcases List.mem_cons.1 hr' with rfl | hr'
              · simp only [List.mem_flatMap, List.mem_filter] at hr
                obtain ⟨sec, ⟨q1, _⟩, q2⟩ := hr
                exact ⟨sec, q1, q2⟩
              · exact e4 r hr'
        · cases hl
    · cases hl
      cases hx

/-! ### The check of a form -/

/-- The form is how the grammar reads its words best: some reading with the classes of the form has an average that no other
reading reaches, unless with the same classes. -/
def bestIs (x : Form) (l : List Reading) : Bool :=
  l.any fun y => decide (y.ins = x.ins) && decide (y.outs = x.outs) && decide (0 < y.count) &&
    l.all fun z => decide (z.sum * y.count < y.sum * z.count) || (decide (z.ins = x.ins) && decide (z.outs = x.outs))

/-- The check that the numbers stand for the sample grammar. -/
def codes (s : Sample) (c : Coded) : Bool :=
  textOk s.lines && c.ok && decide (c.nm 0 = c!"ADDRESS") && c.rules.all (fun sec => sec.2.all (fun r => isTenth r.score)) &&
  match Grammar.initialize asciiTables textOps (unlines s.lines) with
  | .ok g => decide (g.metaNames = c.metaNames) && decide (g.ruleSections = c.rules)
  | .error _ => false

/-- The check of forms. -/
def checkForms (c : Coded) (xs : List Form) : Bool :=
  xs.all (fun x => match readings c.secs 40 [0] (x.map (·.without)) with
    | some l => bestIs x l && decide (x.length ≤ 90)
    | none => false)

/-- The check that words without these classes are read with a worse average than the form. -/
def checkApart (c : Coded) (xs : List Form) (ys : List (Nat × List (List InType))) : Bool :=
  ys.all fun y => match xs[y.1]? with
    | some x => match readings c.secs 40 [0] (x.map (·.without)), readings c.secs 40 [0] y.2 with
      | some l, some k => l.any (fun a => decide (a.ins = x.ins) && k.all (fun b => decide (b.sum * a.count < a.sum * b.count))) &&
          decide (y.2.length ≤ 90)
      | _, _ => false
    | none => false

end AS
