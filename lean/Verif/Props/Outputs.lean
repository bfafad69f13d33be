import Verif.Spec.Outputs
import Verif.Lemmas.Defined
import Verif.Props.Mirror
import Verif.Props.Cache
/-
Property C98: the output classes of a grammar have no influence on which rules are used.
-/
namespace AS.Props
open AS AS.Wrapper
variable {F D : Type}

theorem search_outputs {f : Rule F → Rule F} {G H : Grammar F} (wfG : WfGrammar G) (wfH : WfGrammar H) (hr : HasRoot G)
    (h : OtherOutputs f G H) (phrase : List Token) :
    ∃ results, search G c!"ADDRESS" phrase = .ok results ∧
      search H c!"ADDRESS" phrase = .ok (results.map (fun p => ⟨p.rules.map f, [], p.remaining⟩)) := by
  have hm : Mirrors (Leads G.metaNames) id f G.look H.look := by
    intro a ha
    rcases leads_section wfG hr ha with ⟨v, hv⟩ | ⟨hn, rs, hrs⟩
    · have hmem := (look_metas_mem wfG _ _).1 hv
      refine Or.inl ⟨v, hv, ?_, ?_⟩
      · rw [look_metas_mem wfH, h.metas]
        simpa using hmem
      · intro refs hrefs n hn
        exact .step ha hmem hrefs hn
    · have hmem : (a, rs.map f) ∈ H.ruleSections := by
        rw [h.rules]
        exact List.mem_map.2 ⟨_, (look_rules_mem wfG _ _).1 hrs, rfl⟩
      refine Or.inr ⟨hn, ?_, rs, hrs, (look_rules_mem wfH _ _).2 hmem⟩
      obtain ⟨sec, hs, e⟩ := List.mem_map.1 hmem
      simp only [Prod.mk.injEq] at e
      rw [id, ← e.1]
      exact look_meta_none wfH hs
  obtain ⟨results, hs⟩ := search_root wfG hr phrase
  rcases search_mirrors (φ := f) wfG wfH h.inClass hm c!"ADDRESS" .root phrase with ⟨h1, _⟩ | ⟨rs, h1, h2, _⟩
  · rw [hs] at h1; cases h1
  · exact ⟨rs, h1, h2⟩

section paths
variable {f : Rule F → Rule F} {G H : Grammar F} (h : OtherOutputs f G H) (fo : FloatOps F)
include h

theorem inputs_outputs (rs : List (Rule F)) : inputs (rs.map f) = inputs rs := by
  unfold inputs
  rw [List.flatMap_map]
  simp only [h.inClass]

theorem avgScore_outputs (p : SearchPath F) : avgScore fo ⟨p.rules.map f, [], p.remaining⟩ = avgScore fo p := by
  unfold avgScore
  simp only [List.foldl_map, h.score, List.length_map]

theorem bestLoop_outputs : ∀ (ps : List (SearchPath F)) (i : Nat) (st : BestState F),
    bestLoop fo i st (ps.map (fun p => ⟨p.rules.map f, [], p.remaining⟩)) = bestLoop fo i st ps
  | [], _, _ => rfl
  | p :: ps, i, st => by
    rw [List.map_cons, bestLoop, bestLoop]
    simp only [avgScore_outputs h, List.length_map]
    exact bestLoop_outputs ps (i + 1) _

theorem best_outputs (wfG : WfGrammar G) (wfH : WfGrammar H) (hbG : Balanced G) (hbH : Balanced H) (hr : HasRoot G)
    (phrase : List Token) : ∃ r r' rs, searchAndReclassBest G fo phrase = .ok r ∧ searchAndReclassBest H fo phrase = .ok r' ∧
      r'.score = r.score ∧ r'.nrules = r.nrules ∧
      r.tokens = retag phrase (inputs rs) (outputs rs) ∧ r'.tokens = retag phrase (inputs rs) (outputs (rs.map f)) := by
  obtain ⟨results, hs, hs'⟩ := search_outputs wfG wfH hr h phrase
  rw [searchAndReclassBest, searchAndReclassBest, hs, hs']
  by_cases he : results.length = 0
  · refine ⟨_, _, [], if_pos he, if_pos (by rw [List.length_map]; exact he), rfl, rfl, ?_, ?_⟩ <;> cases phrase <;> rfl
  · simp only [List.length_map, if_neg he, bestLoop_outputs h]
    have hlt : (bestLoop fo 0 ⟨0, fo.zero, fo.ofInt (-1)⟩ results).best < results.length := by
      rcases bestLoop_lt fo results 0 ⟨0, fo.zero, fo.ofInt (-1)⟩ with h | h
      · rw [h]; exact Nat.pos_of_ne_zero he
      · omega
    have hmem := List.getElem_mem hlt
    obtain ⟨b1, b2, _⟩ := search_balanced wfG hbG _ phrase results hs _ hmem
    have e1 := reclassTokens_ok phrase _ b1 b2
    obtain ⟨b1', b2', _⟩ := search_balanced wfH hbH _ phrase _ hs' _ (List.mem_map_of_mem hmem)
    have e2 := reclassTokens_ok phrase _ b1' b2'
    rw [List.getElem?_map, List.getElem?_eq_getElem hlt, Option.map_some]
    simp only [e1, e2]
    exact ⟨_, _, _, rfl, rfl, rfl, rfl, rfl, by simp only [inputs_outputs h]⟩

/-- The same rules are used for the best match, with the same score: the tokens are the same, the output classes of the one
come from the rules used and those of the other from the rules that stand for them. -/
theorem C98_same_rules (wfG : WfGrammar G) (wfH : WfGrammar H) (hbG : Balanced G) (hbH : Balanced H) (hr : HasRoot G)
    (phrases : List (List Token)) : ∃ r r' phrase rs,
      searchAndReclassBestOf G fo phrases = .ok r ∧ searchAndReclassBestOf H fo phrases = .ok r' ∧
      r'.score = r.score ∧ r'.nrules = r.nrules ∧ (phrase ∈ phrases ∨ rs = []) ∧
      r.tokens = retag phrase (inputs rs) (outputs rs) ∧ r'.tokens = retag phrase (inputs rs) (outputs (rs.map f)) := by
  have loop : ∀ (ps : List (List Token)), (∀ p ∈ ps, p ∈ phrases) → ∀ (b b' : BestResult F) (phrase : List Token) (rs : List (Rule F)),
      b'.score = b.score → b'.nrules = b.nrules → (phrase ∈ phrases ∨ rs = []) →
      b.tokens = retag phrase (inputs rs) (outputs rs) → b'.tokens = retag phrase (inputs rs) (outputs (rs.map f)) →
      ∃ r r' phrase rs, bestPhrases G fo b ps = .ok r ∧ bestPhrases H fo b' ps = .ok r' ∧
        r'.score = r.score ∧ r'.nrules = r.nrules ∧ (phrase ∈ phrases ∨ rs = []) ∧
        r.tokens = retag phrase (inputs rs) (outputs rs) ∧ r'.tokens = retag phrase (inputs rs) (outputs (rs.map f)) := by
    intro ps
    induction ps with
    | nil => intro _ b b' phrase rs h1 h2 h3 h4 h5; exact ⟨b, b', phrase, rs, rfl, rfl, h1, h2, h3, h4, h5⟩
    | cons p ps ih =>
      intro hps b b' phrase rs h1 h2 h3 h4 h5
      obtain ⟨r, r', us, e, e', h6, h7, h8, h9⟩ := best_outputs h fo wfG wfH hbG hbH hr p
      rw [bestPhrases, bestPhrases, e, e']
      simp only [h1, h6]
      cases hlt : fo.lt b.score r.score with
      | true =>
        exact ih (fun q hq => hps q (List.mem_cons_of_mem _ hq)) _ _ p us rfl h7 (Or.inl (hps p (List.mem_cons_self ..))) h8 h9
      | false => exact ih (fun q hq => hps q (List.mem_cons_of_mem _ hq)) _ _ phrase rs h1 h2 h3 h4 h5
  exact loop phrases (fun _ hp => hp) _ _ [] [] rfl rfl (Or.inr rfl) rfl rfl

/-- The lists of matches have equal scores and numbers of rules, row by row. -/
theorem C98_rows (dops : FloatOps D) (widen : F → D) (wfG : WfGrammar G) (wfH : WfGrammar H) (hbG : Balanced G)
    (hbH : Balanced H) (hr : HasRoot G) (hr' : HasRoot H) (phrases : List (List Token)) :
    ∃ rows rows', searchAndReclassAll G dops widen phrases = .ok rows ∧ searchAndReclassAll H dops widen phrases = .ok rows' ∧
      rows'.map (fun r => (r.score, r.nrules)) = rows.map (fun r => (r.score, r.nrules)) := by
  obtain ⟨rss, h1, h2⟩ := rowsOfAll_eq dops widen wfG hbG hr phrases
  obtain ⟨rss', h1', h2'⟩ := rowsOfAll_eq dops widen wfH hbH hr' phrases
  have key : ∀ (ps : List (List Token)) (rss rss' : List (List (SearchPath F))),
      ps.map (search G c!"ADDRESS") = rss.map .ok → ps.map (search H c!"ADDRESS") = rss'.map .ok →
      ((ps.zip rss').flatMap (fun q => q.2.map (rowFor dops widen q.1))).map (fun r => (r.score, r.nrules)) =
      ((ps.zip rss).flatMap (fun q => q.2.map (rowFor dops widen q.1))).map (fun r => (r.score, r.nrules)) := by
    intro ps
    induction ps with
    | nil => intro _ _ _ _; rfl
    | cons p ps ih =>
      intro rss rss' e e'
      cases rss with
      | nil => cases e
      | cons rs rss =>
        cases rss' with
        | nil => cases e'
        | cons rs' rss' =>
          simp only [List.map_cons, List.cons.injEq] at e e'
          obtain ⟨results, hs, hs'⟩ := search_outputs wfG wfH hr h p
          rw [hs] at e
          rw [hs'] at e'
          cases e.1
          cases e'.1
          simp only [List.zip_cons_cons, List.flatMap_cons, List.map_append, ih rss rss' e.2 e'.2, List.map_map]
          congr 1
          apply List.map_congr_left
          intro q _
          simp only [Function.comp_apply, rowFor, List.map_map, List.length_map, Function.comp_def, h.score]
  have hk := key phrases rss rss' h1 h1'
  unfold searchAndReclassAll
  rw [h2, h2']
  revert hk
  generalize (phrases.zip rss).flatMap (fun q => q.2.map (rowFor dops widen q.1)) = A
  generalize (phrases.zip rss').flatMap (fun q => q.2.map (rowFor dops widen q.1)) = B
  intro hk
  cases A with
  | nil =>
    cases B with
    | nil => exact ⟨_, _, rfl, rfl, rfl⟩
    | cons b B => cases hk
  | cons a A =>
    cases B with
    | nil => cases hk
    | cons b B => exact ⟨_, _, rfl, rfl, hk⟩

end paths

/-! ### Classes replaced everywhere -/

theorem retag_map (φ : OutType → OutType) : ∀ (ts : List Token) (is : List InType) (os : List OutType),
    retag ts is (os.map φ) = (retag ts is os).map (tokenOut φ)
  | [], _, _ => rfl
  | _ :: _, [], _ => rfl
  | _ :: _, _ :: _, [] => rfl
  | t :: ts, i :: is, o :: os => by
    rw [List.map_cons, retag, retag, retag_map φ ts is os]
    rfl

theorem outputs_replace (φ : OutType → OutType) (rs : List (Rule F)) :
    outputs (rs.map (replaceOut φ)) = (outputs rs).map φ := by
  unfold outputs
  rw [List.flatMap_map, List.map_flatMap]
  rfl

theorem standardize_out (l : Lexicon) (φ : OutType → OutType) (t : Token) :
    l.standardize (tokenOut φ t) = (l.standardize t).map (tokenOut φ) := by
  unfold Lexicon.standardize tokenOut
  simp only
  split
  · rfl
  · split <;> (simp only; split <;> rfl)

theorem words_out (φ : OutType → OutType) {f f' : Field} (hm : Moved φ f f') (std : List Token) :
    wordsFor f' (std.map (tokenOut φ)) = wordsFor f std := by
  unfold wordsFor
  rw [List.filter_map, List.map_map]
  have : (fun t : Token => decide (fieldOf t.outclass = some f')) ∘ tokenOut φ = fun t => decide (fieldOf t.outclass = some f) := by
    funext t
    exact decide_eq_decide.2 (hm t.outclass).symm
  rw [this]
  rfl

/-- If the classes in a grammar text are replaced everywhere, the same addresses can be standardized; where all classes of
a field become classes of another and no others do, the words of the one are found in the other. -/
theorem C98_moved (env : Env F D) (h0 : env.fo.le0 env.fo.zero = true) (φ : OutType → OutType) (t t' : Str) (g g' : Grammar F)
    (hg : loadGrammar env t = .ok g) (hg' : loadGrammar env t' = .ok g')
    (hm : g'.metaNames = g.metaNames)
    (hs : g'.ruleSections = g.ruleSections.map (fun s => (s.1, s.2.map (replaceOut φ)))) (address lexicon locale filter : Str) :
    (∃ a a', stdStandardize env address t lexicon locale filter = some ⟨some a, none⟩ ∧
      stdStandardize env address t' lexicon locale filter = some ⟨some a', none⟩ ∧
      ∀ f f', Moved φ f f' → a'.get f' = a.get f) ∨
    (stdStandardize env address t' lexicon locale filter = stdStandardize env address t lexicon locale filter ∧
      ∀ a, stdStandardize env address t lexicon locale filter ≠ some ⟨some a, none⟩) := by
  have hO : OtherOutputs (replaceOut φ) g g' := ⟨hm, hs, fun _ => rfl, fun _ => rfl⟩
  obtain ⟨wf, hb, hr⟩ := loadGrammar_wf env h0 hg
  obtain ⟨wf', hb', hr'⟩ := loadGrammar_wf env h0 hg'
  unfold stdStandardize
  rw [hg, hg']
  simp only
  cases hl : loadLexicon env lexicon with
  | undefined => exact Or.inr ⟨rfl, by simp⟩
  | throws m => exact Or.inr ⟨rfl, by simp⟩
  | ok l =>
    simp only [standardizeAddr, standardizeAddrWith]
    cases hp : phrasesOf env l locale filter address with
    | undefined => exact Or.inr ⟨rfl, by simp⟩
    | throws m => exact Or.inr ⟨rfl, by simp⟩
    | ok phrases =>
      obtain ⟨r, r', phrase, rs, e, e', h1, _, _, h3, h4⟩ := C98_same_rules hO env.fo wf wf' hb hb' hr phrases
      obtain ⟨r2, e2, hcls⟩ := bestPhrases_defined env.fo wf hb hr phrases
        { tokens := [], score := env.fo.ofInt (-1), matched := some [], nrules := env.fo.ofInt (-1) } (by simp)
      have : r2 = r := by
        have : searchAndReclassBestOf g env.fo phrases = .ok r2 := e2
        rw [e] at this
        cases this
        rfl
      subst this
      have ht : r'.tokens = r2.tokens.map (tokenOut φ) := by
        rw [h4, outputs_replace, retag_map, ← h3]
      obtain ⟨std, hstd⟩ := standardize_all l r2.tokens hcls
      have hstd' : r'.tokens.map l.standardize = (std.map (tokenOut φ)).map some := by
        rw [ht, List.map_map]
        have : l.standardize ∘ tokenOut φ = fun t => (l.standardize t).map (tokenOut φ) := funext (standardize_out l φ)
        rw [this]
        have h5 := congrArg (List.map (Option.map (tokenOut φ))) hstd
        rw [List.map_map, List.map_map] at h5
        rw [List.map_map]
        exact h5
      obtain ⟨v, c1, c2⟩ := collect_fields l r2.tokens std (r2.matched.getD []) hstd
      obtain ⟨v', c1', c2'⟩ := collect_fields l r'.tokens (std.map (tokenOut φ)) (r'.matched.getD []) hstd'
      simp only [e, e', h1, c1, c1']
      cases env.fo.ge0 r2.score with
      | false => exact Or.inr ⟨rfl, by simp⟩
      | true =>
        cases env.alloc 1 with
        | false => exact Or.inr ⟨rfl, by simp⟩
        | true =>
          refine Or.inl ⟨_, _, rfl, rfl, fun f f' hmv => ?_⟩
          rw [c2, c2', words_out φ hmv]

/-! ### An example -/

/-- Cities and street names change places, stop words are dropped. -/
def swapOut : OutType → OutType
  | .CITY => .STREET
  | .STREET => .CITY
  | .STOP => .IGNORE
  | o => o

def swapText : Str := unlines [c!"[ADDRESS]", c!"@A", c!"@A @B", c!"[A]", c!"NUMBER CITY TYPE -> HOUSE STREET SUFTYP -> 0.5",
  c!"NUMBER WORD WORD -> HOUSE CITY CITY -> 0.8", c!"[B]", c!"WORD -> EXTRA -> 0.1", c!"TYPE -> IGNORE -> 0.1"]

/-- The hypotheses of C98: a text with the classes replaced; both fields change places and the others keep their words,
but for the one stop words belong to. -/
example : exEnv.fo.le0 exEnv.fo.zero = true ∧
    (∃ g g', loadGrammar exEnv addrText = .ok g ∧ loadGrammar exEnv swapText = .ok g' ∧ g'.metaNames = g.metaNames ∧
      g'.ruleSections = g.ruleSections.map (fun s => (s.1, s.2.map (replaceOut swapOut))) ∧
      OtherOutputs (replaceOut swapOut) g g') ∧
    Moved swapOut .city .name ∧ Moved swapOut .name .city ∧ ¬ Moved swapOut .extra .extra ∧
    (∀ f, f ≠ .city → f ≠ .name → f ≠ .extra → Moved swapOut f f) ∧
    (stdStandardize exEnv c!"12 new york str" addrText townText c!"en" c!"SPACE").map (fun r => r.value.map (fun a => (a.city, a.name))) =
      some (some (some c!"NY", none)) ∧
    (stdStandardize exEnv c!"12 new york str" swapText townText c!"en" c!"SPACE").map (fun r => r.value.map (fun a => (a.city, a.name))) =
      some (some (none, some c!"NY")) := by
  obtain ⟨g, hg, h1⟩ := of_outcomeIs (o := loadGrammar exEnv addrText) (p := fun g =>
    outcomeIs (loadGrammar exEnv swapText) (fun g' => decide (g'.metaNames = g.metaNames ∧
      g'.ruleSections = g.ruleSections.map (fun s => (s.1, s.2.map (replaceOut swapOut)))))) (by decide +kernel)
  obtain ⟨g', hg', h2⟩ := of_outcomeIs h1
  rw [decide_eq_true_eq] at h2
  refine ⟨by decide, ⟨g, g', hg, hg', h2.1, h2.2, h2.1, h2.2, fun _ => rfl, fun _ => rfl⟩, ?_, ?_, ?_, ?_, by decide +kernel, by decide +kernel⟩
  · intro o; cases o <;> decide
  · intro o; cases o <;> decide
  · intro h; exact absurd (h .STOP) (by decide)
  · intro f h1 h2 h3 o
    cases f <;> first | exact absurd rfl h1 | exact absurd rfl h2 | exact absurd rfl h3 | (cases o <;> decide)

end AS.Props
