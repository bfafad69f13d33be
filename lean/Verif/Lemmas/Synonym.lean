import Verif.Lemmas.Further
import Verif.Lemmas.Wrapper
import Verif.Spec.Joint
/-
Tokens that differ in a text that the lexicon treats like the other.
-/
namespace AS
open Tokenizer
variable {F D : Type}

/-- The tokens are the same, or the texts are `v` and `w`, and `Q` holds of the standard text and each of the classes. -/
def Swapped (Q : Str → InType → Prop) (v w : Str) (t t' : Token) : Prop :=
  t' = t ∨ (t.text = v ∧ t' = { t with text := w } ∧ t.inclass ≠ [] ∧ ∀ c ∈ t.inclass, Q t.stdtext c)

/-- The two words are standardized alike in the class. -/
def SameStandard (l : Lexicon) (v w : Str) (_ : Str) (c : InType) : Prop :=
  ∃ s, s ≠ [] ∧ ∀ cs, Lexicon.stdLoop (c :: cs) (l.find v) = some (some s) ∧ Lexicon.stdLoop (c :: cs) (l.find w) = some (some s)

/-- The tokens are the same, or the texts are `v` and `w`, and both are standardized alike in each of the classes. -/
abbrev Replaced (l : Lexicon) (v w : Str) : Token → Token → Prop := Swapped (SameStandard l v w) v w

namespace Swapped
variable {Q : Str → InType → Prop} {v w : Str} {t t' : Token}

theorem inclass (h : Swapped Q v w t t') : t'.inclass = t.inclass := by
  rcases h with rfl | ⟨_, rfl, _⟩ <;> rfl

theorem outclass (h : Swapped Q v w t t') : t'.outclass = t.outclass := by
  rcases h with rfl | ⟨_, rfl, _⟩ <;> rfl

theorem attached (h : Swapped Q v w t t') : t'.attached = t.attached := by
  rcases h with rfl | ⟨_, rfl, _⟩ <;> rfl

theorem retag (h : Swapped Q v w t t') {i : InType} (hi : i ∈ t.inclass) (o : OutType) :
    Swapped Q v w { t with inclass := [i], outclass := o } { t' with inclass := [i], outclass := o } := by
  rcases h with rfl | ⟨h1, rfl, h2⟩
  · exact Or.inl rfl
  · refine Or.inr ⟨h1, rfl, by simp, fun c hc => ?_⟩
    rw [List.mem_singleton.1 hc]
    exact h2.2 i hi

end Swapped

variable {Q : Str → InType → Prop} {v w : Str}

theorem along_inclass {ts ts' : List Token} (h : Along (Swapped Q v w) ts ts') : ts'.map (·.inclass) = ts.map (·.inclass) := by
  induction h with
  | nil => rfl
  | cons r _ ih => rw [List.map_cons, List.map_cons, r.inclass, ih]

theorem countCombos_replaced {ts ts' : List Token} (h : Along (Swapped Q v w) ts ts') : ∀ n,
    Token.countCombos n ts' = Token.countCombos n ts := by
  induction h with
  | nil => intro n; rfl
  | cons r _ ih => intro n; rw [Token.countCombos, Token.countCombos, ih]; simp only [Token.inSize, r.inclass]

theorem enumOne_replaced {ts ts' : List Token} (h : Along (Swapped Q v w) ts ts') : ∀ cnt i n,
    Token.enumOne cnt i n ts' = Token.enumOne cnt i n ts := by
  induction h with
  | nil => intro _ _ _; rfl
  | cons r _ ih => intro cnt i n; rw [Token.enumOne, Token.enumOne]; simp only [Token.inSize, r.inclass, ih]

theorem search_replaced (g : Grammar F) (node : Str) {ts ts' : List Token} (h : Along (Swapped Q v w) ts ts') :
    search g node ts' = search g node ts := by
  have e : Token.enumerate ts' = Token.enumerate ts := by
    unfold Token.enumerate
    simp only [countCombos_replaced h, enumOne_replaced h]
  unfold search
  rw [e, h.length]

/-- Both are undefined, or both give the flag and lists that are related. -/
def FlagAlong {α β : Type} (R : α → β → Prop) (a : Option (Bool × List α)) (b : Option (Bool × List β)) : Prop :=
  (a = none ∧ b = none) ∨ ∃ f x y, a = some (f, x) ∧ b = some (f, y) ∧ Along R x y

theorem reclassRule_replaced : ∀ (is : List InType) (os : List OutType) {ts ts' : List Token}, Along (Swapped Q v w) ts ts' →
    (reclassRule is os ts = none ∧ reclassRule is os ts' = none) ∨ ∃ f d d' r r', reclassRule is os ts = some (f, d, r) ∧
      reclassRule is os ts' = some (f, d', r') ∧ Along (Swapped Q v w) d d' ∧ Along (Swapped Q v w) r r'
  | [], os, ts, ts', h => by
    refine Or.inr ⟨true, [], [], ts, ts', ?_, ?_, .nil, h⟩ <;> simp [reclassRule]
  | i :: is, os, _, _, .nil => Or.inl ⟨by simp [reclassRule], by simp [reclassRule]⟩
  | i :: is, [], _, _, .cons r h => Or.inl ⟨by simp [reclassRule], by simp [reclassRule]⟩
  | i :: is, o :: os, _, _, .cons (a := t) (b := t') (as := ts) (bs := ts') r h => by
    rw [reclassRule, reclassRule]
    have hc : t'.isInClass i = t.isInClass i := by unfold Token.isInClass; rw [r.inclass]
    simp only [hc]
    cases hi : t.isInClass i with
    | false => exact Or.inr ⟨false, [], [], _, _, rfl, rfl, .nil, .cons r h⟩
    | true =>
      simp only [↓reduceIte]
      rcases reclassRule_replaced is os h with ⟨e1, e2⟩ | ⟨f, d, d', q, q', e1, e2, e3, e4⟩
      · rw [e1, e2]; exact Or.inl ⟨rfl, rfl⟩
      · rw [e1, e2]
        refine Or.inr ⟨f, _, _, _, _, rfl, rfl, .cons (r.retag ?_ o) e3, e4⟩
        simpa [Token.isInClass] using hi

theorem reclassRules_replaced : ∀ (rs : List (Rule F)) {ts ts' : List Token}, Along (Swapped Q v w) ts ts' →
    FlagAlong (Swapped Q v w) (reclassRules rs ts) (reclassRules rs ts')
  | [], _, _, h => Or.inr ⟨true, _, _, rfl, rfl, h⟩
  | r :: rs, ts, ts', h => by
    rw [reclassRules, reclassRules]
    rcases reclassRule_replaced r.inClass r.outClass h with ⟨e1, e2⟩ | ⟨f, d, d', q, q', e1, e2, e3, e4⟩
    · rw [e1, e2]; exact Or.inl ⟨rfl, rfl⟩
    · rw [e1, e2]
      cases f with
      | false => exact Or.inr ⟨false, _, _, rfl, rfl, e3.append e4⟩
      | true =>
        simp only
        rcases reclassRules_replaced rs e4 with ⟨k1, k2⟩ | ⟨f, x, y, k1, k2, k3⟩
        · rw [k1, k2]; exact Or.inl ⟨rfl, rfl⟩
        · rw [k1, k2]; exact Or.inr ⟨f, _, _, rfl, rfl, e3.append k3⟩

theorem reclassTokens_replaced (p : SearchPath F) {ts ts' : List Token} (h : Along (Swapped Q v w) ts ts') :
    FlagAlong (Swapped Q v w) (reclassTokens ts p) (reclassTokens ts' p) := by
  unfold reclassTokens
  simp only
  rw [h.length]
  split
  · exact Or.inr ⟨false, _, _, rfl, rfl, h⟩
  · exact reclassRules_replaced _ h

theorem searchToString_replaced {ts ts' : List Token} (h : Along (Swapped Q v w) ts ts') : searchToString ts' = searchToString ts := by
  have h1 : ∀ out, toStringIn out ts' = toStringIn out ts := by
    induction h with
    | nil => intro _; rfl
    | cons r _ ih => intro out; rw [toStringIn, toStringIn, r.inclass, ih]
  have h2 : ∀ out, toStringOut out ts' = toStringOut out ts := by
    clear h1
    induction h with
    | nil => intro _; rfl
    | cons r _ ih => intro out; rw [toStringOut, toStringOut, r.outclass, ih]
  unfold searchToString
  rw [h1, h2]

/-- Both undefined, both an exception with the same message, or related results. -/
def OutAlike {α β : Type} (R : α → β → Prop) (a : Outcome α) (b : Outcome β) : Prop :=
  (a = .undefined ∧ b = .undefined) ∨ (∃ m, a = .throws m ∧ b = .throws m) ∨ ∃ x y, a = .ok x ∧ b = .ok y ∧ R x y

/-- Results that differ in the tokens only. -/
def BestAlike (Q : Str → InType → Prop) (v w : Str) (r r' : BestResult F) : Prop :=
  r' = { r with tokens := r'.tokens } ∧ Along (Swapped Q v w) r.tokens r'.tokens

theorem best_replaced (g : Grammar F) (fo : FloatOps F) {ts ts' : List Token} (h : Along (Swapped Q v w) ts ts') :
    OutAlike (BestAlike Q v w) (searchAndReclassBest g fo ts) (searchAndReclassBest g fo ts') := by
  unfold searchAndReclassBest
  rw [search_replaced g _ h]
  cases search g c!"ADDRESS" ts with
  | undefined => exact Or.inl ⟨rfl, rfl⟩
  | throws m => exact Or.inr (Or.inl ⟨m, rfl, rfl⟩)
  | ok results =>
    simp only
    split
    · exact Or.inr (Or.inr ⟨_, _, rfl, rfl, rfl, .nil⟩)
    · split
      · exact Or.inl ⟨rfl, rfl⟩
      · next p _ =>
        rcases reclassTokens_replaced p h with ⟨e1, e2⟩ | ⟨f, x, y, e1, e2, e3⟩
        · rw [e1, e2]; exact Or.inl ⟨rfl, rfl⟩
        · rw [e1, e2]
          cases f with
          | false => exact Or.inr (Or.inr ⟨_, _, rfl, rfl, rfl, e3⟩)
          | true => exact Or.inr (Or.inr ⟨_, _, rfl, rfl, by rw [searchToString_replaced e3], e3⟩)

theorem bestPhrases_replaced (g : Grammar F) (fo : FloatOps F) {ps ps' : List (List Token)}
    (h : Along (Along (Swapped Q v w)) ps ps') : ∀ {b b' : BestResult F}, BestAlike Q v w b b' →
    OutAlike (BestAlike Q v w) (bestPhrases g fo b ps) (bestPhrases g fo b' ps') := by
  induction h with
  | nil => intro b b' hb; exact Or.inr (Or.inr ⟨b, b', rfl, rfl, hb⟩)
  | cons hr _ ih =>
    intro b b' hb
    rw [bestPhrases, bestPhrases]
    rcases best_replaced g fo hr with ⟨e1, e2⟩ | ⟨m, e1, e2⟩ | ⟨r, r', e1, e2, e3⟩
    · rw [e1, e2]; exact Or.inl ⟨rfl, rfl⟩
    · rw [e1, e2]; exact Or.inr (Or.inl ⟨m, rfl, rfl⟩)
    · rw [e1, e2]
      simp only
      have s1 : r'.score = r.score := by rw [e3.1]
      have s2 : b'.score = b.score := by rw [hb.1]
      rw [s1, s2]
      split
      · refine ih ⟨?_, e3.2⟩
        rw [e3.1]
      · exact ih hb

theorem collect_replaced {l : Lexicon} {ts ts' : List Token} (h : Along (Replaced l v w) ts ts') : ∀ x, Wrapper.collect l x ts' = Wrapper.collect l x ts := by
  induction h with
  | nil => intro x; rfl
  | @cons t t' ts ts' r _ ih =>
    intro x
    rw [Wrapper.collect, Wrapper.collect]
    rcases r with rfl | ⟨h1, rfl, h2⟩
    · cases l.standardize t' with
      | none => rfl
      | some t => simp only [ih]
    · obtain ⟨c, cs, hc⟩ := List.exists_cons_of_ne_nil h2.1
      obtain ⟨s, hs, k⟩ := h2.2 c (by rw [hc]; simp)
      obtain ⟨k1, k2⟩ := k cs
      have hs0 : s.length ≠ 0 := fun h => hs (List.eq_nil_of_length_eq_zero h)
      have e1 : l.standardize t = some { t with stdtext := s } := by
        unfold Lexicon.standardize
        rw [hc, h1, k1]
        simp [hs0]
      have e2 : l.standardize { t with text := w } = some { t with text := w, stdtext := s } := by
        unfold Lexicon.standardize
        simp only [hc, k2]
        simp [hs0]
      rw [e1, e2]
      simp only [ih]

/-! ### Alternatives -/

theorem altOne_replaced (u : UTables) (l : Lexicon) (hv : (splitBlanks false [] v).length = 1) (hw : (splitBlanks false [] w).length = 1)
    (i : Nat) {ts ts' : List Token} (ha : Along (Swapped Q v w) ts ts') : ∀ n, OptAlong (Swapped Q v w)
    (altOne u l i n (ts.map (fun t => (t, splitBlanks false [] t.text))))
    (altOne u l i n (ts'.map (fun t => (t, splitBlanks false [] t.text)))) := by
  induction ha with
  | nil => intro n; exact Or.inr ⟨[], [], rfl, rfl, .nil⟩
  | @cons t t' ts ts' r _ ih =>
    intro n
    rw [List.map_cons, List.map_cons, altOne, altOne]
    rcases r with rfl | ⟨h1, rfl, h2⟩
    · split
      · exact optAlong_map (ih _) fun _ _ hx => .cons (Or.inl rfl) hx
      · split
        · exact Or.inl ⟨rfl, rfl⟩
        · split
          · exact optAlong_map (ih _) fun _ _ hx => .cons (Or.inl rfl) hx
          · exact optAlong_map (ih _) fun _ _ hx => .append (.mapped _ fun w _ => Or.inl rfl) hx
    · rw [h1, if_pos hv, if_pos hw]
      exact optAlong_map (ih _) fun _ _ hx => .cons (Or.inr ⟨h1, rfl, h2⟩) hx

theorem getAltTokens_replaced (u : UTables) (l : Lexicon) (hv : (splitBlanks false [] v).length = 1) (hw : (splitBlanks false [] w).length = 1)
    {ts ts' : List Token} (ha : Along (Swapped Q v w) ts ts') :
    OptAlong (Along (Swapped Q v w)) (getAltTokens u l ts) (getAltTokens u l ts') := by
  have hc : ∀ n, countAlts n (ts'.map (fun t => (t, splitBlanks false [] t.text))) =
      countAlts n (ts.map (fun t => (t, splitBlanks false [] t.text))) := by
    induction ha with
    | nil => intro n; rfl
    | @cons t t' ts ts' r _ ih =>
      intro n
      rw [List.map_cons, List.map_cons, countAlts, countAlts]
      rcases r with rfl | ⟨h1, rfl, _⟩
      · rw [ih]
      · rw [h1, if_neg (by show ¬ (splitBlanks false [] w).length > 1; rw [hw]; decide),
          if_neg (by show ¬ (splitBlanks false [] v).length > 1; rw [hv]; decide), ih]
  unfold getAltTokens
  simp only
  rw [hc]
  split
  · exact Or.inr ⟨_, _, rfl, rfl, .nil⟩
  · split
    · exact Or.inl ⟨rfl, rfl⟩
    · exact mapM_more (fun i => altOne_replaced u l hv hw i ha 0) _

theorem applyFilter_replaced (f : List InType) {ts ts' : List Token} (h : Along (Swapped Q v w) ts ts') :
    Along (Swapped Q v w) (applyFilter f ts) (applyFilter f ts') := by
  induction h with
  | nil => exact .nil
  | @cons t t' ts ts' r _ ih =>
    have : t'.isInAnyClass f = t.isInAnyClass f := by
      rw [Bool.eq_iff_iff, isInAny_iff, isInAny_iff, r.inclass]
    rw [applyFilter, applyFilter, this]
    split
    · exact .cons r ih
    · exact ih

/-! ### The functions of the interface -/

theorem rowsOf_replaced (dops : FloatOps D) (widen : F → D) {ts ts' : List Token} (h : Along (Swapped Q v w) ts ts') :
    ∀ ps : List (SearchPath F), rowsOf dops widen ts' ps = rowsOf dops widen ts ps
  | [] => rfl
  | p :: ps => by
    rw [rowsOf, rowsOf, rowsOf_replaced dops widen h ps]
    rcases reclassTokens_replaced p h with ⟨e1, e2⟩ | ⟨f, x, y, e1, e2, e3⟩
    · rw [e1, e2]
    · rw [e1, e2]; simp only [searchToString_replaced e3]

theorem rowsOfAll_replaced (g : Grammar F) (dops : FloatOps D) (widen : F → D) {ps ps' : List (List Token)}
    (h : Along (Along (Swapped Q v w)) ps ps') : rowsOfAll g dops widen ps' = rowsOfAll g dops widen ps := by
  induction h with
  | nil => rfl
  | cons hr _ ih =>
    rw [rowsOfAll, rowsOfAll, search_replaced g _ hr]
    simp only [rowsOf_replaced dops widen hr, ih]

theorem parseTokens_replaced {ts ts' : List Token} (h : Along (Swapped Q v w) ts ts') : ∀ i j,
    (Wrapper.parseTokens i j ts').2 = (Wrapper.parseTokens i j ts).2 ∧
    Along (WordReplaced v w) (Wrapper.parseTokens i j ts).1 (Wrapper.parseTokens i j ts').1 := by
  induction h with
  | nil => intro i j; exact ⟨rfl, .nil⟩
  | cons r _ ih =>
    intro i j
    rw [Wrapper.parseTokens, Wrapper.parseTokens]
    obtain ⟨h1, h2⟩ := ih i (j + 1)
    refine ⟨h1, .cons ?_ h2⟩
    rcases r with rfl | ⟨h1, rfl, _⟩
    · exact Or.inl rfl
    · exact Or.inr ⟨by rw [h1]; rfl, rfl⟩

theorem parseLoop_replaced {ps ps' : List (List Token)} (h : Along (Along (Swapped Q v w)) ps ps') : ∀ i j,
    Along (WordReplaced v w) (Wrapper.parseLoop i j ps) (Wrapper.parseLoop i j ps') := by
  induction h with
  | nil => intro _ _; exact .nil
  | cons hr _ ih =>
    intro i j
    rw [Wrapper.parseLoop, Wrapper.parseLoop]
    obtain ⟨h1, h2⟩ := parseTokens_replaced hr i j
    simp only [h1]
    exact h2.append (ih _ _)

theorem parseCount_replaced {ps ps' : List (List Token)} (h : Along (Along (Swapped Q v w)) ps ps') : ∀ n,
    Wrapper.parseCount n ps' = Wrapper.parseCount n ps := by
  induction h with
  | nil => intro _; rfl
  | cons hr _ ih => intro n; rw [Wrapper.parseCount, Wrapper.parseCount, hr.length, ih]

end AS
