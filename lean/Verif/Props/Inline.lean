import Verif.Lemmas.Inline
import Verif.Props.Slack
/-
Property C93: writing out the references to a section of references.
-/
namespace AS.Props
open AS AS.Wrapper
variable {F D : Type}

/-! ## C93 -/

/-- Both grammars derive the same sequences of rules, the second with no more meta rules. -/
theorem C93_derives {t : Str} {G H : Grammar F} (wf : WfGrammar G) (hi : Inlined t G H) (node : Str) (rs : List (Rule F)) :
    (∀ m, Derives G [node] rs m → ∃ m', m' ≤ m ∧ Derives H [node] rs m') ∧
    (∀ m, Derives H [node] rs m → ∃ m', Derives G [node] rs m') :=
  ⟨fun _ h => inlined_derives wf hi h, fun _ h => derives_inlined hi h⟩

/-- With the references written out, whatever was found is found. -/
theorem C93_keeps_results {t : Str} {G H : Grammar F} (wfG : WfGrammar G) (wfH : WfGrammar H) (hi : Inlined t G H)
    (node : Str) (phrase : List Token) (results : List (SearchPath F)) (h : search G node phrase = .ok results) :
    ∃ results', search H node phrase = .ok results' ∧ ∀ p ∈ results, p ∈ results' := by
  obtain ⟨ps, hps, _⟩ := Token.enumerate_picks phrase
  rcases search_spec wfG node phrase ps hps with ⟨r, h1, hex, hmem⟩ | ⟨h1, _⟩
  · rw [h] at h1
    cases h1
    rcases search_spec wfH node phrase ps hps with ⟨r', h2, _, hmem'⟩ | ⟨h2, a, b⟩
    · refine ⟨r', h2, fun p hp => ?_⟩
      obtain ⟨rs, m, hd, hl, hin, rfl⟩ := (hmem p).1 hp
      obtain ⟨m', hm, hd'⟩ := inlined_derives wfG hi hd
      exact (hmem' _).2 ⟨rs, m', hd', by omega, hin, rfl⟩
    · exfalso
      obtain ⟨ls, _, k1, k2⟩ := hi
      rcases hex with ⟨sec, hs, e⟩ | ⟨sec, hs, e⟩
      · obtain ⟨rules', hr, _⟩ := inlined_lines k1 (List.mem_map.2 ⟨sec, hs, rfl⟩ :
          (sec.name, sec.rules.map (·.map (·.name))) ∈ G.metaNames)
        obtain ⟨sec', hs', e'⟩ := List.mem_map.1 hr
        exact a sec' hs' ((congrArg Prod.fst e').trans e)
      · obtain ⟨⟨n, ys⟩, hr, e1, _⟩ := k2.find _ (List.mem_map.2 ⟨sec, hs, rfl⟩ : (sec.name, sec.rules) ∈ G.ruleSections)
        obtain ⟨sec', hs', e'⟩ := List.mem_map.1 hr
        exact b sec' hs' ((congrArg Prod.fst e').trans (e1.trans e))
  · rw [h] at h1; cases h1

/-- A grammar that is searched completely still is. -/
theorem C93_complete {t : Str} {G H : Grammar F} (wfG : WfGrammar G) (wfH : WfGrammar H) (hrG : HasRoot G) (hrH : HasRoot H)
    (hi : Inlined t G H) (hc : Complete G) : Complete H := by
  rw [C79_complete_iff wfH hrH]
  intro rs m hd
  obtain ⟨m1, h1⟩ := derives_inlined hi hd
  obtain ⟨m2, h2, hle⟩ := (C79_complete_iff wfG hrG).1 hc rs m1 h1
  obtain ⟨m3, hm, h3⟩ := inlined_derives wfG hi h2
  exact ⟨m3, h3, by omega⟩

/-- If the grammar was searched completely, nothing else is found. -/
theorem C93_same_results {t : Str} {G H : Grammar F} (wfG : WfGrammar G) (wfH : WfGrammar H) (hrG : HasRoot G)
    (hi : Inlined t G H) (hc : Complete G) (phrase : List Token) (results : List (SearchPath F))
    (h : search G c!"ADDRESS" phrase = .ok results) :
    ∃ results', search H c!"ADDRESS" phrase = .ok results' ∧ ∀ p, p ∈ results' ↔ p ∈ results := by
  obtain ⟨results', h', hsub⟩ := C93_keeps_results wfG wfH hi c!"ADDRESS" phrase results h
  refine ⟨results', h', fun p => ⟨fun hp => ?_, hsub p⟩⟩
  obtain ⟨ps, hps, hpk⟩ := Token.enumerate_picks phrase
  rcases search_spec wfG c!"ADDRESS" phrase ps hps with ⟨r, h1, _, hmem⟩ | ⟨h1, _⟩
  · rw [h] at h1; cases h1
    rcases search_spec wfH c!"ADDRESS" phrase ps hps with ⟨r', h2, _, hmem'⟩ | ⟨h2, _⟩
    · rw [h'] at h2; cases h2
      obtain ⟨rs, m, hd, _, hin, rfl⟩ := (hmem' p).1 hp
      obtain ⟨m1, d1⟩ := derives_inlined hi hd
      obtain ⟨m2, d2, hle⟩ := (C79_complete_iff wfG hrG).1 hc rs m1 d1
      have hlen := picks_length (hpk _ hin)
      rw [List.length_map] at hlen
      exact (hmem _).2 ⟨rs, m2, d2, by omega, hin, rfl⟩
    · rw [h'] at h2; cases h2
  · rw [h] at h1; cases h1

/-- The best score is not worse, and the same if the grammar was searched completely. -/
theorem C93_score {fo : FloatOps F} {nan : F → Prop} (laws : NanLaws fo nan)
    (hm1 : fo.lt (fo.ofInt (-1)) fo.zero = true) {t : Str} {G H : Grammar F}
    (wfG : WfGrammar G) (wfH : WfGrammar H) (hbG : Balanced G) (hbH : Balanced H) (hrG : HasRoot G) (hrH : HasRoot H)
    (hi : Inlined t G H) (phrases : List (List Token)) :
    ∃ r r', searchAndReclassBestOf G fo phrases = .ok r ∧ searchAndReclassBestOf H fo phrases = .ok r' ∧
      fo.lt r'.score r.score = false ∧ (Complete G → fo.lt r.score r'.score = false) := by
  obtain ⟨r, r', k1, k2, k3⟩ := best_not_worse laws hm1 wfG wfH hbG hbH hrG hrH phrases fun phrase results h =>
    C93_keeps_results wfG wfH hi c!"ADDRESS" phrase results h
  refine ⟨r, r', k1, k2, k3, fun hc => ?_⟩
  obtain ⟨q', q, l1, l2, l3⟩ := best_not_worse laws hm1 wfH wfG hbH hbG hrH hrG phrases fun phrase results h => by
    obtain ⟨results0, h0⟩ := search_root wfG hrG phrase
    obtain ⟨results', h', hiff⟩ := C93_same_results wfG wfH hrG hi hc phrase results0 h0
    rw [h] at h'
    cases h'
    exact ⟨results0, h0, fun p hp => (hiff p).1 hp⟩
  rw [k1] at l2; cases l2
  rw [k2] at l1; cases l1
  exact l3

/-- What could be standardized can be, and nothing else if the grammar was searched completely. -/
theorem C93_addresses (env : Env F D) (laws : LtLaws env.fo) (signs : SignLaws env.fo)
    (h0 : env.fo.le0 env.fo.zero = true) (ha : env.alloc 1 = true) (text text' t : Str) (g g' : Grammar F)
    (hg : Grammar.initialize env.u.toCharTables env.fo text = .ok g)
    (hg' : Grammar.initialize env.u.toCharTables env.fo text' = .ok g') (hi : Inlined t g g')
    (address lexicon locale filter : Str) :
    ((∃ x, stdStandardize env address text lexicon locale filter = some ⟨some x, none⟩) →
      ∃ y, stdStandardize env address text' lexicon locale filter = some ⟨some y, none⟩) ∧
    (Complete g → (∃ y, stdStandardize env address text' lexicon locale filter = some ⟨some y, none⟩) →
      ∃ x, stdStandardize env address text lexicon locale filter = some ⟨some x, none⟩) := by
  obtain ⟨wf, _, hr⟩ := C29_constructed_wf _ env.fo h0 _ g hg
  obtain ⟨wf', _, hr'⟩ := C29_constructed_wf _ env.fo h0 _ g' hg'
  constructor
  · rintro ⟨x, h⟩
    exact address_kept env laws signs h0 ha text text' g g' hg hg'
      (fun phrase results h => C93_keeps_results wf wf' hi c!"ADDRESS" phrase results h) address lexicon locale filter x h
  · rintro hc ⟨x, h⟩
    refine address_kept env laws signs h0 ha text' text g' g hg' hg (fun phrase results h => ?_) address lexicon locale filter x h
    obtain ⟨results0, h0⟩ := search_root wf hr phrase
    obtain ⟨results', h', hiff⟩ := C93_same_results wf wf' hr hi hc phrase results0 h0
    rw [h] at h'
    cases h'
    exact ⟨results0, h0, fun p hp => (hiff p).1 hp⟩

theorem alike_refl {α : Type} (as : List (Str × List α)) : Alike as as := by
  induction as with
  | nil => exact .nil
  | cons a as ih => exact .cons (fun _ => Iff.rfl) ih

/-- A grammar with references to a section with two lines. -/
def nestedText : Str := unlines [c!"[ADDRESS]", c!"@A", c!"@S @C @S", c!"[A]", c!"@S @C", c!"[S]", c!"@N @W", c!"@W",
  c!"[N]", c!"NUMBER -> HOUSE -> 0.9", c!"[W]", c!"WORD -> STREET -> 0.5", c!"[C]", c!"WORD -> CITY -> 0.7"]

/-- The same with the references to S written out. -/
def writtenText : Str := unlines [c!"[ADDRESS]", c!"@A", c!"@N @W @C @N @W", c!"@N @W @C @W", c!"@W @C @N @W", c!"@W @C @W",
  c!"[A]", c!"@N @W @C", c!"@W @C", c!"[S]", c!"@N @W", c!"@W",
  c!"[N]", c!"NUMBER -> HOUSE -> 0.9", c!"[W]", c!"WORD -> STREET -> 0.5", c!"[C]", c!"WORD -> CITY -> 0.7"]

theorem both_ok {ε α : Type} {P : α → α → Prop} [DecidableRel P] {r r' : Except ε α}
    (h : (match r, r' with | .ok a, .ok b => decide (P a b) | _, _ => false) = true) :
    ∃ a b, r = .ok a ∧ r' = .ok b ∧ P a b := by
  cases r with
  | error e => simp at h
  | ok a =>
    cases r' with
    | error e => simp at h
    | ok b => exact ⟨a, b, rfl, rfl, by simpa using h⟩

/-- For the examples: the second grammar is the first written out, line by line. -/
def InlinedAs (t : Str) (ls : List (List Str)) (G H : Grammar Rat) : Prop :=
  (t, ls) ∈ G.metaNames ∧
  G.metaNames.map (fun s => if s.1 = t then s else (s.1, s.2.flatMap (writeOut t ls))) = H.metaNames ∧
  G.ruleSections = H.ruleSections

instance (t : Str) (ls : List (List Str)) (G H : Grammar Rat) : Decidable (InlinedAs t ls G H) := by
  unfold InlinedAs; infer_instance

theorem InlinedAs.inlined {t : Str} {ls : List (List Str)} {G H : Grammar Rat} (h : InlinedAs t ls G H) : Inlined t G H :=
  ⟨ls, h.1, by rw [h.2.1]; exact alike_refl _, by rw [h.2.2]; exact alike_refl _⟩

/-- They meet the hypotheses, with a grammar that is searched completely. -/
example : ∃ g g', Grammar.initialize asciiTables ratOps nestedText = .ok g ∧
    Grammar.initialize asciiTables ratOps writtenText = .ok g' ∧ Inlined c!"S" g g' ∧ Complete g := by
  obtain ⟨g, g', hg, hg', h1, h3⟩ := both_ok (P := fun (g g' : Grammar Rat) =>
      InlinedAs c!"S" [[c!"N", c!"W"], [c!"W"]] g g' ∧
      Slack g.metaNames g.ruleSections (fun s => if s = c!"ADDRESS" then 1 else if s = c!"S" then 0 else if s = c!"A" then 0 else -1))
    (r := Grammar.initialize asciiTables ratOps nestedText) (r' := Grammar.initialize asciiTables ratOps writtenText)
    (by decide +kernel)
  obtain ⟨wf, _, hr⟩ := C29_constructed_wf _ ratOps (by decide) _ g hg
  exact ⟨g, g', hg, hg', h1.inlined, C79_complete wf hr _ h3 (by decide)⟩

/-- A grammar that is not searched completely may find more with references written out. -/
theorem C93_may_find_more : ∃ (text text' t : Str) (g g' : Grammar Rat) (phrase : List Token) (p : SearchPath Rat)
    (results : List (SearchPath Rat)),
    Grammar.initialize asciiTables ratOps text = .ok g ∧ Grammar.initialize asciiTables ratOps text' = .ok g' ∧
    Inlined t g g' ∧ search g c!"ADDRESS" phrase = .ok [] ∧ search g' c!"ADDRESS" phrase = .ok results ∧ p ∈ results := by
  obtain ⟨g, g', hg, hg', h1, h3, h4⟩ := both_ok (P := fun (g g' : Grammar Rat) =>
      InlinedAs c!"B" [[c!"C"]] g g' ∧
      (match search g c!"ADDRESS" [{ inclass := [.WORD] }] with | .ok [] => true | _ => false) = true ∧
      (match search g' c!"ADDRESS" [{ inclass := [.WORD] }] with | .ok (_ :: _) => true | _ => false) = true)
    (r := Grammar.initialize asciiTables ratOps (unlines
      [c!"[ADDRESS]", c!"@A", c!"[A]", c!"@B", c!"[B]", c!"@C", c!"[C]", c!"@D", c!"[D]", c!"WORD -> STREET -> 0.5"]))
    (r' := Grammar.initialize asciiTables ratOps (unlines
      [c!"[ADDRESS]", c!"@A", c!"[A]", c!"@C", c!"[B]", c!"@C", c!"[C]", c!"@D", c!"[D]", c!"WORD -> STREET -> 0.5"]))
    (by decide +kernel)
  have k3 : search g c!"ADDRESS" [{ inclass := [.WORD] }] = .ok [] := by
    split at h3
    · assumption
    · cases h3
  have k4 : ∃ p ps, search g' c!"ADDRESS" [{ inclass := [.WORD] }] = .ok (p :: ps) := by
    split at h4
    · exact ⟨_, _, by assumption⟩
    · cases h4
  obtain ⟨p, ps, k4⟩ := k4
  exact ⟨_, _, _, g, g', _, p, _, hg, hg', h1.inlined, k3, k4, List.mem_cons_self⟩

end AS.Props
