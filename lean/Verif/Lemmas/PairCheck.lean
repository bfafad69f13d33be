import Verif.Lemmas.PruneCheck
import Verif.Spec.Pair
/-
Checking the claims about a grammar and a lexicon together.
-/
namespace AS
variable {F : Type}

/-- What shows the claims: the classes that no token has, the sections that cannot be matched, and the others that ADDRESS
leads to. -/
structure PairCert where
  dead : List InType
  barren : List Str
  reach : List Str

/-- The check. -/
def checkPair (p : Pair) (c : PairCert) : Bool :=
  checkPruned c.dead c.barren p.sample.lines p.left &&
  c.dead.all (fun t => !shapeClasses.contains t && !p.lexicon.classes.contains t) &&
  match Grammar.initialize asciiTables textOps (unlines p.left) with
  | .ok g => decide (Closed g.metaNames c.reach) && p.null.all (fun f => decide (NoneOf (classes g.ruleSections) c.reach f))
  | _ => false

theorem checkPair_dead {p : Pair} {c : PairCert} (h : checkPair p c = true) :
    ∀ t ∈ c.dead, t ∉ shapeClasses ∧ t ∉ p.lexicon.classes := by
  unfold checkPair at h
  simp only [Bool.and_eq_true, List.all_eq_true, Bool.not_eq_true', List.contains_eq_mem, decide_eq_false_iff_not] at h
  exact h.1.2

theorem checkPair_pruned {p : Pair} {c : PairCert} (h : checkPair p c = true) :
    checkPruned c.dead c.barren p.sample.lines p.left = true := by
  unfold checkPair at h
  simp only [Bool.and_eq_true] at h
  exact h.1.1

theorem classes_scored (fo : FloatOps F) (rs : List (Str × List (Rule Str))) : classes (scoredAll fo rs) = classes rs := by
  simp [classes, scoredAll, List.map_map, Function.comp_def, scored]

theorem checkPair_null {p : Pair} {c : PairCert} (h : checkPair p c = true) {ct : CharTables} {fo : FloatOps F}
    (hu : Usual ct fo) : ∃ g, Grammar.initialize ct fo (unlines p.left) = .ok g ∧
      ∀ f ∈ p.null, NeverFills g.metaNames g.ruleSections f := by
  have ht : textOk p.left = true := by
    have := checkPair_pruned h
    unfold checkPruned at this
    simp only [Bool.and_eq_true] at this
    exact this.1.2
  unfold checkPair at h
  rw [Bool.and_eq_true] at h
  have h := h.2
  split at h
  · next g0 e0 =>
    simp only [Bool.and_eq_true, decide_eq_true_eq, List.all_eq_true] at h
    obtain ⟨hc, hn⟩ := h
    obtain ⟨g, hg, g1, g2⟩ := accepted_scored ht e0 hu
    refine ⟨g, hg, fun f hf sec hs hl r hr o ho => ?_⟩
    rw [g1] at hl
    have hcl : classes g.ruleSections = classes g0.ruleSections := by rw [g2, classes_scored]
    have := hn f hf
    rw [← hcl] at this
    exact this (sec.1, sec.2.map (fun r => (r.inClass, r.outClass))) (List.mem_map.2 ⟨sec, hs, rfl⟩) (leads_closed hc hl)
      (r.inClass, r.outClass) (List.mem_map.2 ⟨r, hr, rfl⟩) o ho
  · cases h

end AS
