import Verif.Spec.Defined
import Verif.Props.AltBound
/-
Lemmas for C97: the number of rows, and what of the search and of the fields cannot go wrong.
-/
namespace AS
open Wrapper
variable {F D : Type}

/-! ### The number of rows -/

/-- All choices for so many tokens. -/
def everyChoice : Nat → List (List Bool)
  | 0 => [[]]
  | k + 1 => (everyChoice k).map (true :: ·) ++ (everyChoice k).map (false :: ·)

theorem everyChoice_mem : ∀ (k : Nat) (c : List Bool), c ∈ everyChoice k ↔ c.length = k
  | 0, c => by simp [everyChoice]
  | k + 1, [] => by simp [everyChoice]
  | k + 1, b :: c => by
    have h := everyChoice_mem k c
    cases b <;> simp [everyChoice, h]

theorem everyChoice_nodup : ∀ k : Nat, (everyChoice k).Nodup
  | 0 => by simp [everyChoice]
  | k + 1 => by
    have h := everyChoice_nodup k
    rw [everyChoice, List.nodup_append]
    refine ⟨?_, ?_, ?_⟩
    · exact List.Pairwise.map _ (fun a b hab e => hab (List.cons.inj e).2) h
    · exact List.Pairwise.map _ (fun a b hab e => hab (List.cons.inj e).2) h
    · intro a ha b hb e
      obtain ⟨x, _, rfl⟩ := List.mem_map.1 ha
      obtain ⟨y, _, rfl⟩ := List.mem_map.1 hb
      cases e

theorem everyChoice_length : ∀ k : Nat, (everyChoice k).length = 2 ^ k
  | 0 => rfl
  | k + 1 => by
    rw [everyChoice, List.length_append, List.length_map, List.length_map, everyChoice_length k, Nat.pow_succ]
    omega

theorem perm_everyChoice {k : Nat} {choices : List (List Bool)} (h : ∀ c, c ∈ choices ↔ c.length = k) (hn : choices.Nodup) :
    choices.Perm (everyChoice k) := by
  rw [List.perm_ext_iff_of_nodup hn (everyChoice_nodup k)]
  intro c
  rw [h, everyChoice_mem]

theorem sum_map_add {α : Type} (n : Nat) (f : α → Nat) : ∀ l : List α, (l.map (fun c => n + f c)).sum = n * l.length + (l.map f).sum
  | [] => by simp
  | a :: l => by
    rw [List.map_cons, List.map_cons, List.sum_cons, List.sum_cons, sum_map_add n f l, List.length_cons, Nat.mul_succ]
    omega

theorem spaced_cons (t : Token) (ts : List Token) :
    (' ' ∈ t.text → spaced (t :: ts) = t :: spaced ts ∧ unspaced (t :: ts) = unspaced ts) ∧
    (' ' ∉ t.text → spaced (t :: ts) = spaced ts ∧ unspaced (t :: ts) = t :: unspaced ts) := by
  unfold spaced unspaced
  constructor <;> intro h <;> simp [h]

theorem rows_sum (f : Str → Token) : ∀ ts : List Token,
    2 * ((everyChoice (spaced ts).length).map (fun c => (broken f c ts).length)).sum = twiceRows ts
  | [] => by simp [everyChoice, broken, twiceRows, spaced, unspaced, spacedWords]
  | t :: ts => by
    have ih := rows_sum f ts
    by_cases h : ' ' ∈ t.text
    · obtain ⟨e1, e2⟩ := (spaced_cons t ts).1 h
      have e3 : spacedWords (t :: ts) = (wordsOf t.text).length + spacedWords ts := by simp [spacedWords, e1]
      have a1 : ∀ c : List Bool, (broken f (true :: c) (t :: ts)).length = (wordsOf t.text).length + (broken f c ts).length := by
        intro c; simp [broken, h]
      have a2 : ∀ c : List Bool, (broken f (false :: c) (t :: ts)).length = 1 + (broken f c ts).length := by
        intro c; simp [broken, h]; omega
      rw [e1, List.length_cons, everyChoice, List.map_append, List.sum_append, List.map_map, List.map_map]
      simp only [Function.comp_def, a1, a2, sum_map_add, everyChoice_length]
      unfold twiceRows at ih ⊢
      rw [e1, e2, e3, List.length_cons, Nat.pow_succ]
      generalize ((everyChoice (spaced ts).length).map fun c => (broken f c ts).length).sum = S at ih ⊢
      generalize 2 ^ (spaced ts).length = P at ih ⊢
      generalize (spaced ts).length = k at ih ⊢
      generalize (unspaced ts).length = s at ih ⊢
      generalize spacedWords ts = w at ih ⊢
      generalize (wordsOf t.text).length = v
      grind
    · obtain ⟨e1, e2⟩ := (spaced_cons t ts).2 h
      have e3 : spacedWords (t :: ts) = spacedWords ts := by simp [spacedWords, e1]
      have a1 : ∀ c : List Bool, (broken f c (t :: ts)).length = 1 + (broken f c ts).length := by
        intro c; simp [broken, h]; omega
      rw [e1]
      simp only [a1, sum_map_add, everyChoice_length]
      unfold twiceRows at ih ⊢
      rw [e1, e2, e3, List.length_cons]
      grind

/-- The number of tokens in all lists. -/
theorem rows_count (f : Str → Token) (ts : List Token) (choices : List (List Bool))
    (h : ∀ c, c ∈ choices ↔ c.length = (spaced ts).length) (hn : choices.Nodup) :
    2 * (choices.map (fun c => broken f c ts)).flatten.length = twiceRows ts ∧ choices.length = 2 ^ (spaced ts).length := by
  have hp := perm_everyChoice h hn
  constructor
  · rw [List.length_flatten, List.map_map, ← rows_sum f ts]
    congr 1
    exact (hp.map _).sum_nat
  · rw [hp.length_eq, everyChoice_length]

/-! ### The search -/

theorem bestLoop_lt (fo : FloatOps F) : ∀ (ps : List (SearchPath F)) (i : Nat) (st : BestState F),
    (bestLoop fo i st ps).best = st.best ∨ (bestLoop fo i st ps).best < i + ps.length
  | [], _, _ => Or.inl rfl
  | p :: ps, i, st => by
    rw [bestLoop, List.length_cons]
    rcases bestLoop_lt fo ps (i + 1) (if fo.lt st.bestScore (avgScore fo p) then
        { best := i, bestScore := avgScore fo p, bestNrules := fo.ofInt p.rules.length } else st) with h | h
    · rw [h]
      split
      · exact Or.inr (by simp)
      · exact Or.inl rfl
    · exact Or.inr (by omega)

theorem best_defined (fo : FloatOps F) {G : Grammar F} (wf : WfGrammar G) (hb : Balanced G) (hroot : HasRoot G)
    (phrase : List Token) :
    ∃ r, searchAndReclassBest G fo phrase = .ok r ∧ ∀ t ∈ r.tokens, t.inclass ≠ [] := by
  obtain ⟨results, hs⟩ := Props.search_root wf hroot phrase
  rw [searchAndReclassBest, hs]
  by_cases he : results.length = 0
  · exact ⟨_, if_pos he, by simp⟩
  · have hlt : (bestLoop fo 0 ⟨0, fo.zero, fo.ofInt (-1)⟩ results).best < results.length := by
      rcases bestLoop_lt fo results 0 ⟨0, fo.zero, fo.ofInt (-1)⟩ with h | h
      · rw [h]; exact Nat.pos_of_ne_zero he
      · omega
    obtain ⟨ts, h1, h2, h3⟩ := Props.C40_reclassified wf hb _ phrase results hs _ (List.getElem_mem hlt)
    simp only [if_neg he, List.getElem?_eq_getElem hlt, h1]
    refine ⟨_, rfl, ?_⟩
    intro t ht
    obtain ⟨k, hk, e⟩ := List.getElem_of_mem (show t ∈ ts from ht)
    obtain ⟨i, o, _, _, _, h4⟩ := h3 k phrase[k] (List.getElem?_eq_getElem (by omega))
    rw [List.getElem?_eq_getElem hk, e] at h4
    cases h4
    simp

theorem bestPhrases_defined (fo : FloatOps F) {G : Grammar F} (wf : WfGrammar G) (hb : Balanced G) (hroot : HasRoot G) :
    ∀ (phrases : List (List Token)) (b : BestResult F), (∀ t ∈ b.tokens, t.inclass ≠ []) →
      ∃ r, bestPhrases G fo b phrases = .ok r ∧ ∀ t ∈ r.tokens, t.inclass ≠ []
  | [], b, h => ⟨b, rfl, h⟩
  | p :: ps, b, h => by
    obtain ⟨r, h1, h2⟩ := best_defined fo wf hb hroot p
    rw [bestPhrases, h1]
    apply bestPhrases_defined fo wf hb hroot ps
    split
    · exact h2
    · exact h

/-- Once there are token lists nothing is undefined. -/
theorem standardizeAddr_defined (env : Env F D) {g : Grammar F} (wf : WfGrammar g) (hb : Balanced g) (hroot : HasRoot g)
    (l : Lexicon) (phrases : List (List Token)) :
    ∃ r, standardizeAddrWith env l (.ok phrases) (searchAndReclassBestOf g env.fo) = some r := by
  obtain ⟨b, h1, h2⟩ := bestPhrases_defined env.fo wf hb hroot phrases
    { tokens := [], score := env.fo.ofInt (-1), matched := some [], nrules := env.fo.ofInt (-1) } (by simp)
  obtain ⟨std, h3⟩ := standardize_all l b.tokens h2
  obtain ⟨v, h4, _⟩ := collect_fields l b.tokens std [] h3
  have h5 : searchAndReclassBestOf g env.fo phrases = .ok b := h1
  simp only [standardizeAddrWith, h5, h4]
  split
  · split <;> exact ⟨_, rfl⟩
  · exact ⟨_, rfl⟩

/-! ### Loading and sorting -/

theorem loadGrammar_wf (env : Env F D) (h0 : env.fo.le0 env.fo.zero = true) {text : Str} {g : Grammar F}
    (hg : loadGrammar env text = .ok g) : WfGrammar g ∧ Balanced g ∧ HasRoot g := by
  unfold loadGrammar at hg
  split at hg
  · next g' e => cases hg; exact Props.C29_constructed_wf _ _ h0 text _ e
  · cases hg

theorem loadGrammar_defined (env : Env F D) (text : Str) : loadGrammar env text ≠ .undefined := by
  unfold loadGrammar
  split <;> simp

theorem loadLexicon_defined (env : Env F D) (text : Str) : loadLexicon env text ≠ .undefined := by
  unfold loadLexicon
  split
  · simp
  · simp
  · split <;> simp

/-- The comparison of scores is no strict weak ordering exactly if there are a NaN and two different scores. -/
theorem strictWeak_nan (dops : FloatOps D) (nan : D → Prop) (laws : NanLaws dops nan) (toks : List (MatchResult D)) :
    strictWeakOn (sortByScoresDesc dops) toks = false ↔
      ∃ a ∈ toks, ∃ b ∈ toks, ∃ c ∈ toks, nan b.score ∧ dops.lt a.score c.score = true := by
  constructor
  · intro h
    apply Classical.byContradiction
    intro hno
    have : strictWeakOn (sortByScoresDesc dops) toks = true := by
      rw [strictWeakOn_iff]
      refine ⟨fun a _ => laws.irrefl _, fun a _ b _ c _ h1 h2 => laws.trans _ _ _ h2 h1, ?_⟩
      intro a ha b hb c hc h1 h2 h3 h4
      simp only [sortByScoresDesc] at *
      constructor
      · cases hx : dops.lt c.score a.score with
        | false => rfl
        | true =>
          have hn : ¬ nan b.score := fun hn => hno ⟨c, hc, b, hb, a, ha, hn, hx⟩
          rcases laws.total _ b.score _ hn hx with x | x <;> simp_all
      · cases hx : dops.lt a.score c.score with
        | false => rfl
        | true =>
          have hn : ¬ nan b.score := fun hn => hno ⟨a, ha, b, hb, c, hc, hn, hx⟩
          rcases laws.total _ b.score _ hn hx with x | x <;> simp_all
    rw [this] at h
    cases h
  · rintro ⟨a, ha, b, hb, c, hc, hn, hlt⟩
    cases hs : strictWeakOn (sortByScoresDesc dops) toks with
    | false => rfl
    | true =>
      obtain ⟨_, _, h3⟩ := (strictWeakOn_iff _ _).1 hs
      have := (h3 a ha b hb c hc (laws.left _ _ hn) (laws.right _ _ hn) (laws.right _ _ hn) (laws.left _ _ hn)).2
      simp only [sortByScoresDesc] at this
      rw [this] at hlt
      cases hlt

end AS
