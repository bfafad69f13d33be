import Verif.Spec.Wrapper
import Verif.Props.Tokenizer
import Verif.Props.Lexicon
import Verif.Props.Grammar
/-
Lemmas on the C interface.
-/
namespace AS
namespace Wrapper
variable {F D : Type}

theorem cstr_upToNul (s : Str) : cstr s = upToNul s := rfl

theorem cstr_eq (s : Str) (h : NoNul s) : cstr s = s := by
  unfold cstr NoNul at *
  induction s with
  | nil => rfl
  | cons c s ih =>
    simp only [List.mem_cons, not_or] at h
    have hc : ¬ c = '\x00' := fun e => h.1 e.symm
    rw [List.takeWhile_cons]
    simp only [ne_eq, hc, not_false_eq_true, decide_true, ↓reduceIte, List.cons.injEq, true_and]
    exact ih h.2

/-- The texts with a blank after each. -/
def blanked (ws : List Str) : Str := ws.flatMap (fun s => s ++ c!" ")

theorem blanked_dropLast : ∀ ws : List Str, ws ≠ [] → (blanked ws).dropLast = joinWith c!" " ws
  | [], h => absurd rfl h
  | [w], _ => by simp [blanked, joinWith]
  | w :: v :: vs, _ => by
    have ih := blanked_dropLast (v :: vs) (by simp)
    have hne : blanked (v :: vs) ≠ [] := by simp [blanked]
    have e : blanked (w :: v :: vs) = (w ++ c!" ") ++ blanked (v :: vs) := by simp [blanked]
    rw [e, List.dropLast_append_of_ne_nil hne, ih]
    simp [joinWith]

theorem blanked_ne (ws : List Str) : blanked ws = [] ↔ ws = [] := by
  cases ws with
  | nil => simp [blanked]
  | cons w ws => simp [blanked]

/-- The texts that go to a slot. -/
def slotWords (i : Nat) (ts : List Token) : List Str :=
  (ts.filter (fun t => slotOf t.outclass = some i)).map (·.stdtext)

theorem slotOf_lt (o : OutType) (i : Nat) (h : slotOf o = some i) : i < 16 := by
  cases o <;> simp [slotOf] at h <;> omega

theorem standardize_outclass (l : Lexicon) (t t' : Token) (h : l.standardize t = some t') : t'.outclass = t.outclass := by
  unfold Lexicon.standardize at h
  cases hr : Lexicon.stdLoop t.inclass (l.find t.text) with
  | none => rw [hr] at h; cases h
  | some r =>
    rw [hr] at h
    simp only [Option.some.injEq] at h
    subst h
    cases r <;> simp only [] <;> split <;> rfl

theorem collect_spec (l : Lexicon) : ∀ (ts std : List Token) (v : List Str), v.length = 16 →
    ts.map l.standardize = std.map some →
    ∃ v', collect l v ts = some v' ∧ v'.length = 16 ∧
      ∀ i < 16, v'[i]? = some (v[i]?.getD [] ++ blanked (slotWords i std))
  | [], [], v, hv, _ => ⟨v, rfl, hv, fun i hi => by
      have : i < v.length := by omega
      simp [slotWords, blanked, List.getElem?_eq_getElem this]⟩
  | [], _ :: _, _, _, h => by simp at h
  | _ :: _, [], _, _, h => by simp at h
  | t :: ts, s :: std, v, hv, h => by
    simp only [List.map_cons, List.cons.injEq] at h
    obtain ⟨h1, h2⟩ := h
    have hcollect : collect l v (t :: ts) = match slotOf s.outclass with
        | some i => collect l (appendSlot v i s.stdtext) ts
        | none => collect l v ts := by
      rw [collect, h1]
      rfl
    rw [hcollect]
    cases hs : slotOf s.outclass with
    | none =>
      obtain ⟨v', e1, e2, e3⟩ := collect_spec l ts std v hv h2
      refine ⟨v', e1, e2, fun i hi => ?_⟩
      rw [e3 i hi]
      simp [slotWords, hs]
    | some k =>
      have hk := slotOf_lt _ _ hs
      obtain ⟨v', e1, e2, e3⟩ := collect_spec l ts std (appendSlot v k s.stdtext) (by simp [appendSlot, hv]) h2
      refine ⟨v', e1, e2, fun i hi => ?_⟩
      rw [e3 i hi]
      have hi' : i < v.length := by omega
      by_cases hik : k = i
      · subst hik
        simp [appendSlot, hi', slotWords, hs, blanked]
      · have : ¬ (slotOf s.outclass = some i) := by rw [hs]; simpa using hik
        simp [appendSlot, hik, slotWords, this]

/-- Slot number of a field. -/
def indexOf : Field → Nat
  | .building => 0
  | .houseNum => 1
  | .predir => 2
  | .qual => 3
  | .pretype => 4
  | .name => 5
  | .suftype => 6
  | .sufdir => 7
  | .ruralroute => 8
  | .extra => 9
  | .city => 10
  | .prov => 11
  | .country => 12
  | .postcode => 13
  | .box => 14
  | .unit => 15

theorem fill_get (v : List Str) (m : Str) (f : Field) : (fill v m).get f = fieldAt v (indexOf f) := by
  cases f <;> rfl

theorem slot_field (o : OutType) (f : Field) : slotOf o = some (indexOf f) ↔ fieldOf o = some f := by
  cases o <;> cases f <;> decide

theorem slotWords_eq (f : Field) (ts : List Token) : slotWords (indexOf f) ts = wordsFor f ts := by
  unfold slotWords wordsFor
  congr 2
  funext t
  exact decide_eq_decide.2 (slot_field t.outclass f)

theorem indexOf_lt (f : Field) : indexOf f < 16 := by cases f <;> decide

theorem collect_fields (l : Lexicon) (ts std : List Token) (m : Str) (h : ts.map l.standardize = std.map some) :
    ∃ v, collect l (List.replicate 16 []) ts = some v ∧
      ∀ f, (fill v m).get f =
        if wordsFor f std = [] then none else some (cstr (joinWith c!" " (wordsFor f std))) := by
  obtain ⟨v, h1, _, h3⟩ := collect_spec l ts std (List.replicate 16 []) (by simp) h
  refine ⟨v, h1, fun f => ?_⟩
  have hv := h3 (indexOf f) (indexOf_lt f)
  have h0 : (List.replicate 16 ([] : Str))[indexOf f]?.getD [] = [] := by
    rw [List.getElem?_replicate, if_pos (indexOf_lt f)]; rfl
  rw [h0, List.nil_append, slotWords_eq] at hv
  rw [fill_get, fieldAt, hv]
  simp only []
  by_cases hw : wordsFor f std = []
  · rw [if_pos hw, hw]; rfl
  · rw [if_neg hw, if_pos, blanked_dropLast _ hw]
    exact List.length_pos_iff.2 (fun e => hw ((blanked_ne _).1 e))

/-- Tokens with a class can all be standardized. -/
theorem standardize_all (l : Lexicon) : ∀ ts : List Token, (∀ t ∈ ts, t.inclass ≠ []) →
    ∃ std : List Token, ts.map l.standardize = std.map some
  | [], _ => ⟨[], rfl⟩
  | t :: ts, h => by
    obtain ⟨std, hs⟩ := standardize_all l ts (fun x hx => h x (List.mem_cons_of_mem _ hx))
    cases hc : t.inclass with
    | nil => exact absurd hc (h t (List.mem_cons_self ..))
    | cons c cs =>
      obtain ⟨s, h1, _⟩ := Props.C20_standardize l t c cs hc
      exact ⟨_ :: std, by simp [hs, h1]; rfl⟩

/-- And then they all have. -/
theorem standardize_all_of_collect (l : Lexicon) : ∀ (ts : List Token) (v v' : List Str), collect l v ts = some v' →
    ∃ std : List Token, ts.map l.standardize = std.map some
  | [], _, _, _ => ⟨[], rfl⟩
  | t :: ts, v, v', h => by
    rw [collect] at h
    split at h
    · cases h
    · next t' ht =>
      split at h
      all_goals
        obtain ⟨std, hs⟩ := standardize_all_of_collect l ts _ _ h
        exact ⟨t' :: std, by simp [hs, ht]⟩

/-! ### Rows of parse -/

theorem parseCount_eq : ∀ (ps : List (List Token)) (n : Nat), parseCount n ps = n + ps.flatten.length
  | [], n => by simp [parseCount]
  | p :: ps, n => by simp [parseCount, parseCount_eq ps]; omega

theorem parseTokens_snd : ∀ (ts : List Token) (i j : Nat), (parseTokens i j ts).2 = j + ts.length
  | [], i, j => by simp [parseTokens]
  | t :: ts, i, j => by
    have := parseTokens_snd ts i (j + 1)
    simp only [parseTokens, this, List.length_cons]; omega

/-! ### Sorting -/

theorem strictWeakOn_iff {α : Type} (lt : α → α → Bool) (l : List α) : strictWeakOn lt l = true ↔
    (∀ a ∈ l, lt a a = false) ∧
    (∀ a ∈ l, ∀ b ∈ l, ∀ c ∈ l, lt a b = true → lt b c = true → lt a c = true) ∧
    (∀ a ∈ l, ∀ b ∈ l, ∀ c ∈ l, lt a b = false → lt b a = false → lt b c = false → lt c b = false →
      lt a c = false ∧ lt c a = false) := by
  simp only [strictWeakOn, Bool.and_eq_true, List.all_eq_true, Bool.or_eq_true, Bool.not_eq_eq_eq_not, Bool.not_true]
  constructor
  · rintro ⟨h1, h2⟩
    refine ⟨h1, ?_, ?_⟩
    · intro a ha b hb c hc h3 h4
      have := (h2 a ha b hb c hc).1
      simpa [h3, h4] using this
    · intro a ha b hb c hc h3 h4 h5 h6
      have := (h2 a ha b hb c hc).2
      simpa [h3, h4, h5, h6] using this
  · rintro ⟨h1, h2, h3⟩
    refine ⟨h1, fun a ha b hb c hc => ⟨?_, ?_⟩⟩
    · cases h4 : lt a b with
      | false => simp
      | true =>
        cases h5 : lt b c with
        | false => simp
        | true => simp [h2 a ha b hb c hc h4 h5]
    · cases h4 : lt a b with
      | true => simp
      | false =>
        cases h5 : lt b a with
        | true => simp
        | false =>
          cases h6 : lt b c with
          | true => simp
          | false =>
            cases h7 : lt c b with
            | true => simp
            | false =>
              obtain ⟨x, y⟩ := h3 a ha b hb c hc h4 h5 h6 h7
              simp [x, y]

/-- Insertion sort. -/
def insertBy {α : Type} (lt : α → α → Bool) (x : α) : List α → List α
  | [] => [x]
  | y :: ys => if lt x y then x :: y :: ys else y :: insertBy lt x ys

def insertionSort {α : Type} (lt : α → α → Bool) : List α → List α
  | [] => []
  | x :: xs => insertBy lt x (insertionSort lt xs)

theorem insertBy_perm {α : Type} (lt : α → α → Bool) (x : α) : ∀ l : List α, (insertBy lt x l).Perm (x :: l)
  | [] => .refl _
  | y :: ys => by
    rw [insertBy]
    split
    · exact .refl _
    · exact ((insertBy_perm lt x ys).cons y).trans (.swap x y ys)

theorem insertionSort_perm {α : Type} (lt : α → α → Bool) : ∀ l : List α, (insertionSort lt l).Perm l
  | [] => .refl _
  | x :: xs => (insertBy_perm lt x _).trans ((insertionSort_perm lt xs).cons x)

/-- `std::sort` can be implemented. -/
theorem insertionSort_contract : SortContract insertionSort := by
  intro α lt l h1 h2 h3
  refine ⟨insertionSort_perm lt l, ?_⟩
  have key : ∀ m : List α, (∀ x ∈ m, x ∈ l) → (insertionSort lt m).Pairwise (fun a b => lt b a = false) := by
    intro m
    induction m with
    | nil => intro _; exact .nil
    | cons x xs ih =>
      intro hm
      have hxs := ih (fun y hy => hm y (List.mem_cons_of_mem _ hy))
      have hx : x ∈ l := hm x (List.mem_cons_self ..)
      have hsub : ∀ y ∈ insertionSort lt xs, y ∈ l := fun y hy =>
        hm y (List.mem_cons_of_mem _ ((insertionSort_perm lt xs).mem_iff.1 hy))
      rw [insertionSort]
      generalize insertionSort lt xs = s at hxs hsub
      clear ih hm
      induction s with
      | nil => simp [insertBy]
      | cons y ys ih =>
        rw [List.pairwise_cons] at hxs
        rw [insertBy]
        have hy : y ∈ l := hsub y (List.mem_cons_self ..)
        cases hlt : lt x y with
        | true =>
          simp only [↓reduceIte]
          rw [List.pairwise_cons]
          refine ⟨?_, List.pairwise_cons.2 hxs⟩
          intro z hz
          cases hzx : lt z x with
          | false => rfl
          | true =>
            exfalso
            rcases List.mem_cons.1 hz with rfl | hz'
            · have := h2 z (hsub z hz) x hx z (hsub z hz) hzx hlt
              rw [h1 z (hsub z hz)] at this
              cases this
            · have := h2 z (hsub z hz) x hx y hy hzx hlt
              rw [hxs.1 z hz'] at this
              cases this
        | false =>
          simp only [Bool.false_eq_true, ↓reduceIte]
          rw [List.pairwise_cons]
          refine ⟨?_, ih hxs.2 (fun z hz => hsub z (List.mem_cons_of_mem _ hz))⟩
          intro z hz
          rcases List.mem_cons.1 ((insertBy_perm lt x ys).mem_iff.1 hz) with rfl | hz'
          · exact hlt
          · exact hxs.1 z hz'
  exact key l (fun _ h => h)

theorem retag_inclass : ∀ (ts : List Token) (is : List InType) (os : List OutType),
    ∀ t ∈ retag ts is os, t.inclass ≠ []
  | [], _, _ => by simp [retag]
  | _ :: _, [], _ => by simp [retag]
  | _ :: _, _ :: _, [] => by simp [retag]
  | t :: ts, i :: is, o :: os => by
    intro x hx
    rw [retag] at hx
    rcases List.mem_cons.1 hx with rfl | hx
    · simp
    · exact retag_inclass ts is os x hx

end Wrapper
end AS
