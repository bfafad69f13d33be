import Verif.Lemmas.Transport
import Verif.Props.Slack
/-
Checking the claims about a sample grammar.
-/
namespace AS
open Wrapper
variable {F : Type}

/-- What shows the claims: bounds (-1 for sections not listed), the sections ADDRESS leads to, and for each field
that is always filled the sections that cannot be avoided. -/
structure Cert where
  excess : List (Str × Int)
  reach : List Str
  must : List (List Str)

/-- The bound of a section. -/
def Cert.bound (c : Cert) (s : Str) : Int := (c.excess.lookup s).getD (-1)

/-- Every rule of the meta sections refers to one of the sections. -/
def Unavoidable (ms : List (Str × List (List Str))) (must : List Str) : Prop :=
  c!"ADDRESS" ∈ must ∧ ∀ sec ∈ ms, sec.1 ∈ must → ∀ refs ∈ sec.2, ∃ n ∈ refs, n ∈ must

instance (ms : List (Str × List (List Str))) (must : List Str) : Decidable (Unavoidable ms must) := by
  unfold Unavoidable; infer_instance

/-- The sections include all that they refer to. -/
def Closed (ms : List (Str × List (List Str))) (reach : List Str) : Prop :=
  c!"ADDRESS" ∈ reach ∧ ∀ sec ∈ ms, sec.1 ∈ reach → ∀ refs ∈ sec.2, ∀ n ∈ refs, n ∈ reach

instance (ms : List (Str × List (List Str))) (reach : List Str) : Decidable (Closed ms reach) := by
  unfold Closed; infer_instance

/-- Bounds and sections hold for the meta sections. -/
def MetaChecked (c : Cert) (ms : List (Str × List (List Str))) : Prop :=
  (∀ sec ∈ ms, ∀ refs ∈ sec.2, 1 + (refs.map c.bound).sum ≤ c.bound sec.1) ∧ c.bound c!"ADDRESS" ≤ 2 ∧
  Closed ms c.reach ∧ ∀ must ∈ c.must, Unavoidable ms must

instance (c : Cert) (ms : List (Str × List (List Str))) : Decidable (MetaChecked c ms) := by
  unfold MetaChecked; infer_instance

/-- No rule of the sections that are reached has an output class of the field. -/
def NoneOf (cs : List (Str × List (List InType × List OutType))) (reach : List Str) (f : Field) : Prop :=
  ∀ sec ∈ cs, sec.1 ∈ reach → ∀ r ∈ sec.2, ∀ o ∈ r.2, fieldOf o ≠ some f

instance (cs : List (Str × List (List InType × List OutType))) (reach : List Str) (f : Field) :
    Decidable (NoneOf cs reach f) := by
  unfold NoneOf; infer_instance

/-- Every rule of the sections has an output class of the field. -/
def EachOf (cs : List (Str × List (List InType × List OutType))) (must : List Str) (f : Field) : Prop :=
  ∀ sec ∈ cs, sec.1 ∈ must → ∀ r ∈ sec.2, ∃ o ∈ r.2, fieldOf o = some f

instance (cs : List (Str × List (List InType × List OutType))) (must : List Str) (f : Field) :
    Decidable (EachOf cs must f) := by
  unfold EachOf; infer_instance

/-- In the rules of the sections that are reached, an output class of the field stands opposite one of the classes. -/
def OnlyOf (cs : List (Str × List (List InType × List OutType))) (reach : List Str) (f : Field) (ins : List InType) : Prop :=
  ∀ sec ∈ cs, sec.1 ∈ reach → ∀ r ∈ sec.2, ∀ p ∈ r.1.zip r.2, fieldOf p.2 = some f → p.1 ∈ ins

instance (cs : List (Str × List (List InType × List OutType))) (reach : List Str) (f : Field) (ins : List InType) :
    Decidable (OnlyOf cs reach f ins) := by
  unfold OnlyOf; infer_instance

/-- The claims about the rules, in terms of the sections without scores. -/
def RulesChecked (s : Sample) (c : Cert) (cs : List (Str × List (List InType × List OutType))) : Prop :=
  (∀ sec ∈ cs, ∀ r ∈ sec.2, -(r.1.length : Int) ≤ c.bound sec.1) ∧
  (∀ f ∈ s.never, NoneOf cs c.reach f) ∧
  (∀ f ∈ s.always, ∃ must ∈ c.must, EachOf cs must f) ∧
  oddRules cs = s.odd ∧
  (∀ p ∈ s.origin, OnlyOf cs c.reach p.1 p.2)

instance (s : Sample) (c : Cert) (cs : List (Str × List (List InType × List OutType))) :
    Decidable (RulesChecked s c cs) := by
  unfold RulesChecked; infer_instance

/-- The score text of a line is one of `0.1` to `0.9`. -/
def scoreOk (l : Str) : Bool :=
  match splitArrow (words l) with
  | _ :: _ :: sc :: _ =>
    match sc.getLast? with
    | some ['0', '.', d] => c!"123456789".contains d
    | some _ => false
    | none => true
  | _ => true

/-- The text is printable ASCII, its scores are `0.1` to `0.9`. -/
def textOk (lines : List Str) : Bool :=
  lines.all (fun l => l.all (fun c => decide (32 ≤ c.toNat) && decide (c.toNat < 127)) && scoreOk l)

theorem textOk_positive {ct : CharTables} {fo : FloatOps F} (hu : Usual ct fo) {lines : List Str} (h : textOk lines = true) :
    (∀ l ∈ lines, '\n' ∉ l) ∧ (∀ l ∈ lines, AgreeOn asciiTables ct l) ∧ PositiveScores fo lines ∧
    (∀ l ∈ lines, ∀ c ∈ l, c.toNat < 128) := by
  unfold textOk at h
  rw [List.all_eq_true] at h
  have h1 : ∀ l ∈ lines, (∀ c ∈ l, 32 ≤ c.toNat ∧ c.toNat < 127) ∧ scoreOk l = true := by
    intro l hl
    have := h l hl
    rw [Bool.and_eq_true, List.all_eq_true] at this
    refine ⟨fun c hc => ?_, this.2⟩
    have := this.1 c hc
    simpa using this
  refine ⟨fun l hl hn => absurd ((h1 l hl).1 _ hn).1 (by decide), ?_, ?_,
    fun l hl c hc => Nat.lt_succ_of_lt ((h1 l hl).1 c hc).2⟩
  · intro l hl c hc
    have := hu.ascii c ((h1 l hl).1 c hc).1 ((h1 l hl).1 c hc).2
    exact ⟨this.1.symm, this.2.symm⟩
  · intro l hl ins outs before score rest e
    have := (h1 l hl).2
    unfold scoreOk at this
    rw [e] at this
    simp only [List.getLast?_append, List.getLast?_singleton, Option.some_or] at this
    split at this
    · rename_i d hd
      cases hd
      exact hu.scores d (by simpa using this)
    · cases this
    · rename_i hn; cases hn

theorem unlines_noBom {lines : List Str} (h : ∀ l ∈ lines, ∀ c ∈ l, c.toNat < 128) : Props.NoBom (unlines lines) := by
  intro hh
  have hm := List.mem_of_mem_head? hh
  unfold unlines at hm
  obtain ⟨l, hl, hc⟩ := List.mem_flatMap.1 hm
  rcases List.mem_append.1 hc with hc | hc
  · exact absurd (h l hl _ hc) (by decide)
  · exact absurd (List.mem_singleton.1 hc) (by decide)

/-- The check of a sample: its text is printable ASCII, with exact numbers it is accepted, the status is as claimed, the scores
are from 1/10 to 9/10, and the claims about the sections hold. -/
def checkSample (s : Sample) (c : Cert) : Bool :=
  textOk s.lines &&
  match Grammar.initialize asciiTables ratOps (unlines s.lines) with
  | .ok g => decide (g.status = (if s.warns then .CHECK_WARN else .CHECK_OK)) && decide (MetaChecked c g.metaNames) &&
      decide (RulesChecked s c (classes g.ruleSections)) &&
      g.ruleSections.all (fun sec => sec.2.all (fun r => decide ((1 : Rat) / 10 ≤ r.score) && decide (r.score ≤ 9 / 10)))
  | .error _ => false

theorem checkSample_spec {s : Sample} {c : Cert} (h : checkSample s c = true) :
    textOk s.lines = true ∧ ∃ g, Grammar.initialize asciiTables ratOps (unlines s.lines) = .ok g ∧
      g.status = (if s.warns then .CHECK_WARN else .CHECK_OK) ∧ MetaChecked c g.metaNames ∧
      RulesChecked s c (classes g.ruleSections) ∧
      ∀ sec ∈ g.ruleSections, ∀ r ∈ sec.2, (1 : Rat) / 10 ≤ r.score ∧ r.score ≤ 9 / 10 := by
  unfold checkSample at h
  rw [Bool.and_eq_true] at h
  refine ⟨h.1, ?_⟩
  have h2 := h.2
  split at h2
  · rename_i g hg
    simp only [Bool.and_eq_true, decide_eq_true_eq, List.all_eq_true] at h2
    exact ⟨g, hg, h2.1.1.1, h2.1.1.2, h2.1.2, h2.2⟩
  · cases h2

theorem classes_names {F' : Type} {rs : List (Str × List (Rule F))} {rs' : List (Str × List (Rule F'))}
    (h : classes rs' = classes rs) : rs'.map (·.1) = rs.map (·.1) := by
  have := congrArg (List.map (·.1)) h
  simpa [classes, List.map_map, Function.comp_def] using this

theorem mem_classes_of {rs : List (Str × List (Rule F))} {sec : Str × List (Rule F)} (h : sec ∈ rs) {r : Rule F} (hr : r ∈ sec.2) :
    ∃ s ∈ classes rs, s.1 = sec.1 ∧ (r.inClass, r.outClass) ∈ s.2 :=
  ⟨_, List.mem_map.2 ⟨sec, h, rfl⟩, rfl, List.mem_map.2 ⟨r, hr, rfl⟩⟩

theorem leads_closed {ms : List (Str × List (List Str))} {reach : List Str} (h : Closed ms reach) {a : Str} (hl : Leads ms a) :
    a ∈ reach := by
  induction hl with
  | root => exact h.1
  | step _ h1 h2 h3 ih => exact h.2 _ h1 ih _ h2 _ h3

/-- A sample that passes the check is accepted with the usual tables and numbers, and does what is claimed. -/
theorem meets_of_check {s : Sample} {c : Cert} (h : checkSample s c = true) {ct : CharTables} {fo : FloatOps F}
    (hu : Usual ct fo) : ∃ g, Grammar.initialize ct fo (unlines s.lines) = .ok g ∧ Meets s g := by
  obtain ⟨ht, g0, hg0, hs, hm, hr, _⟩ := checkSample_spec h
  obtain ⟨hn, hag, hp, hasc⟩ := textOk_positive hu ht
  have hb := unlines_noBom hasc
  have h00 : ratOps.le0 ratOps.zero = true := by decide +kernel
  obtain ⟨k1, k2, k3⟩ := (Props.C32_text_meaning asciiTables ratOps h00 s.lines hn hb g0.metaNames g0.ruleSections).1
    ⟨g0, hg0, rfl, rfl⟩
  obtain ⟨rs', j1, j2⟩ := grammarMeans_agree k1 hag hp
  have hnames := classes_names j2
  have k2' : ¬ Dangling g0.metaNames rs' := by unfold Dangling at k2 ⊢; rw [hnames]; exact k2
  have k3' : Rooted g0.metaNames rs' := by unfold Rooted at k3 ⊢; rw [hnames]; exact k3
  obtain ⟨g, hg, e1, e2⟩ := (Props.C32_text_meaning ct fo hu.zero s.lines hn hb g0.metaNames rs').2 ⟨j1, k2', k3'⟩
  have hcl : classes g.ruleSections = classes g0.ruleSections := by rw [e2, j2]
  have hunr : Unreferenced g.metaNames g.ruleSections ↔ Unreferenced g0.metaNames g0.ruleSections := by
    unfold Unreferenced; rw [e1, e2, hnames]
  rw [← e1] at hm
  rw [← hcl] at hr
  obtain ⟨r1, r2, r3, r4, r5⟩ := hr
  obtain ⟨m1, m2, m3, m4⟩ := hm
  refine ⟨g, hg, ?_, ?_, r4, ?_, ?_, ?_⟩
  · have a := Props.C30_status_of_constructed asciiTables ratOps h00 _ g0 hg0
    have b := Props.C30_status_of_constructed ct fo hu.zero _ g hg
    cases hw : s.warns
    · simp only [hw] at hs ⊢
      exact b.2.1.2 (fun x => a.2.1.1 hs (hunr.1 x))
    · simp only [hw] at hs ⊢
      exact b.1.2 (hunr.2 (a.1.1 hs))
  · obtain ⟨wf, _, hroot⟩ := Props.C29_constructed_wf ct fo hu.zero _ g hg
    refine Props.C79_complete wf hroot c.bound ⟨?_, m1⟩ m2
    intro sec hsec r hr
    obtain ⟨q, q1, q2, q3⟩ := mem_classes_of hsec hr
    rw [← q2]
    exact r1 q q1 _ q3
  · intro f hf sec hsec hl r hr o ho
    obtain ⟨q, q1, q2, q3⟩ := mem_classes_of hsec hr
    exact r2 f hf q q1 (by rw [q2]; exact leads_closed m3 hl) _ q3 o ho
  · intro f hf
    obtain ⟨must, d1, d2⟩ := r3 f hf
    refine ⟨must, (m4 must d1).1, ?_, (m4 must d1).2⟩
    intro sec hsec hl r hr
    obtain ⟨q, q1, q2, q3⟩ := mem_classes_of hsec hr
    exact d2 q q1 (by rw [q2]; exact hl) _ q3
  · intro p hp sec hsec hl r hr x hx e
    obtain ⟨q, q1, q2, q3⟩ := mem_classes_of hsec hr
    exact r5 p hp q q1 (by rw [q2]; exact leads_closed m3 hl) _ q3 x hx e

end AS
