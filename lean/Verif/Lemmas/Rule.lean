import Verif.Spec.Rule
import Verif.Lemmas.Codec
/-
Lemmas about reading and printing rules.
-/
namespace AS

/-! ### Words -/

theorem mem_takeWhile {α : Type} (p : α → Bool) : ∀ (l : List α) (x : α), x ∈ l.takeWhile p → p x = true
  | [], x, h => by simp at h
  | y :: ys, x, h => by
    rw [List.takeWhile_cons] at h
    split at h
    · rcases List.mem_cons.1 h with rfl | h
      · assumption
      · exact mem_takeWhile p ys x h
    · cases h

theorem whiteSpace_eq (c : Char) : whiteSpace c = isCSpace c := rfl

theorem words_space (c : Char) (cs : Str) (h : isCSpace c = true) : words (c :: cs) = words cs := by
  rw [words.eq_def]; simp [whiteSpace_eq, h]

theorem words_dropSpace : ∀ s : Str, words (s.dropWhile isCSpace) = words s
  | [] => rfl
  | c :: cs => by
    cases h : isCSpace c with
    | true => rw [List.dropWhile_cons_of_pos h, words_space c cs h, words_dropSpace cs]
    | false => rw [List.dropWhile_cons_of_neg (by simp [h])]

/-- A non-blank run followed by something that is empty or starts with a blank. -/
theorem words_run : ∀ (w : Str) (r : Str), w ≠ [] → (∀ c ∈ w, isCSpace c = false) →
    (∀ c cs, r = c :: cs → isCSpace c = true) → words (w ++ r) = w :: words r
  | [], _, h, _, _ => absurd rfl h
  | [c], r, _, hw, hr => by
    have hc := hw c (List.mem_cons_self ..)
    cases r with
    | nil => simp [words, whiteSpace_eq, hc]
    | cons d ds => 
      have hd := hr d ds rfl
      rw [List.cons_append, List.nil_append, words.eq_def]
      simp [whiteSpace_eq, hc, hd]
  | c :: d :: w, r, _, hw, hr => by
    have hc := hw c (List.mem_cons_self ..)
    have hd := hw d (List.mem_cons_of_mem _ (List.mem_cons_self ..))
    have ih := words_run (d :: w) r (by simp) (fun x hx => hw x (List.mem_cons_of_mem _ hx)) hr
    rw [List.cons_append, List.cons_append, words.eq_def]
    simp only [whiteSpace_eq, hc, hd, Bool.false_eq_true, ↓reduceIte]
    rw [List.cons_append] at ih
    rw [ih]

theorem words_readWord (c : Char) (cs : Str) (h : isCSpace c = false) :
    words (c :: cs) = (c :: cs).takeWhile (fun x => !isCSpace x) ::
      words ((c :: cs).dropWhile (fun x => !isCSpace x)) := by
  have h1 := List.takeWhile_append_dropWhile (p := fun x => !isCSpace x) (l := c :: cs)
  rw [← words_run]
  · rw [h1]
  · simp [h]
  · intro x hx
    have := mem_takeWhile _ _ _ hx
    simpa using this
  · intro x xs hx
    have := List.head?_dropWhile_not (fun x => !isCSpace x) (c :: cs)
    rw [hx] at this
    simpa using this

theorem words_append_space : ∀ (s b : Str), (∀ c ∈ b, isCSpace c = true) → words (s ++ b) = words s := by
  have hb : ∀ b : Str, (∀ c ∈ b, isCSpace c = true) → words b = [] := by
    intro b
    induction b with
    | nil => intro _; rfl
    | cons c cs ih =>
      intro h
      rw [words_space c cs (h c (List.mem_cons_self ..))]
      exact ih (fun x hx => h x (List.mem_cons_of_mem _ hx))
  intro s b h
  generalize hn : s.length = n
  induction n using Nat.strongRecOn generalizing s with
  | ind n ih =>
    cases s with
    | nil => rw [List.nil_append, hb b h]; rfl
    | cons c cs =>
      cases hc : isCSpace c with
      | true =>
        rw [List.cons_append, words_space _ _ hc, words_space _ _ hc]
        exact ih cs.length (by simp at hn; omega) cs rfl
      | false =>
        rw [words_readWord c cs hc]
        have h1 := List.takeWhile_append_dropWhile (p := fun x => !isCSpace x) (l := c :: cs)
        generalize hw : (c :: cs).takeWhile (fun x => !isCSpace x) = w at *
        generalize hr : (c :: cs).dropWhile (fun x => !isCSpace x) = r at *
        have hwn : w ≠ [] := by rw [← hw]; simp [hc]
        have hlen : r.length < n := by
          have := congrArg List.length h1
          rw [List.length_append] at this
          have : 0 < w.length := List.length_pos_iff.2 hwn
          omega
        rw [← h1, List.append_assoc, words_run, ih r.length hlen r rfl]
        · exact hwn
        · intro x hx
          rw [← hw] at hx
          have := mem_takeWhile _ _ _ hx
          simpa using this
        · intro x xs hx
          cases hrr : r with
          | nil =>
            rw [hrr, List.nil_append] at hx
            exact h x (by rw [hx]; exact List.mem_cons_self ..)
          | cons y ys =>
            rw [hrr, List.cons_append] at hx
            have := List.head?_dropWhile_not (fun x => !isCSpace x) (c :: cs)
            rw [hr, hrr] at this
            rw [← (List.cons.inj hx).1]
            simpa using this

namespace Rule
variable {F : Type} (fo : FloatOps F)

/-! ### The reading loop -/

/-- The loop processes the words in order; the last one (or the initial content of the variable) may
be processed a second time. -/
theorem readLoop_words : ∀ (fuel : Nat) (rest : Str) (token : Str) (st : Nat × Rule F),
    rest.length + 3 ≤ fuel →
    ∃ b : Bool, (words rest = [] → b = true) ∧
      readLoop fo fuel { rest := rest } token st =
        some ((words rest ++ if b then [(token :: words rest).getLast (by simp)] else []).foldl (readToken fo) st)
  | 0, rest, _, _, h => by omega
  | fuel + 1, rest, token, st, h => by
    rw [readLoop]
    simp only [Bool.false_eq_true, ↓reduceIte, IStream.readWord, IStream.good, Bool.not_false, Bool.and_self]
    cases hd : rest.dropWhile isCSpace with
    | nil =>
      have hw : words rest = [] := by rw [← words_dropSpace, hd]; rfl
      refine ⟨true, fun _ => rfl, ?_⟩
      obtain ⟨f, rfl⟩ : ∃ f, fuel = f + 1 := ⟨fuel - 1, by omega⟩
      simp [readLoop, hw]
    | cons c cs =>
      have hlen : (c :: cs).length ≤ rest.length := by
        rw [← hd]; exact (List.dropWhile_suffix _).length_le
      have hc : isCSpace c = false := by
        have := List.head?_dropWhile_not isCSpace rest
        rw [hd] at this
        simpa using this
      have hw : words rest = (c :: cs).takeWhile (fun x => !isCSpace x) ::
          words ((c :: cs).dropWhile (fun x => !isCSpace x)) := by
        rw [← words_dropSpace, hd, words_readWord c cs hc]
      simp only
      generalize hwd : (c :: cs).takeWhile (fun x => !isCSpace x) = w at *
      generalize hr : (c :: cs).dropWhile (fun x => !isCSpace x) = r at *
      cases r with
      | nil =>
        refine ⟨false, fun e => ?_, ?_⟩
        · rw [hw] at e; cases e
        · obtain ⟨f, rfl⟩ : ∃ f, fuel = f + 1 := ⟨fuel - 1, by omega⟩
          simp [readLoop, hw, words]
      | cons d ds =>
        have hlen2 : (d :: ds).length + 3 ≤ fuel := by
          have h1 := List.takeWhile_append_dropWhile (p := fun x => !isCSpace x) (l := c :: cs)
          rw [hwd, hr] at h1
          have h2 := congrArg List.length h1
          rw [List.length_append] at h2
          have : w ≠ [] := by rw [← hwd]; simp [hc]
          have : 0 < w.length := List.length_pos_iff.2 this
          omega
        obtain ⟨b, _, hb2⟩ := readLoop_words fuel (d :: ds) w (readToken fo st w) hlen2
        refine ⟨b, fun e => ?_, ?_⟩
        · rw [hw] at e; cases e
        · simp only [List.isEmpty_cons]
          rw [hb2]
          simp [hw]

/-- What reading a sequence of words gives. -/
def madeOf (ws : List Str) : Made (Rule F) :=
  let r := (ws.foldl (readToken fo) (0, empty fo)).2
  if isValid fo r then .ok r else .notValid

theorem isValid_false (r : Rule F) (h : fo.le0 r.score = true) : isValid fo r = false := by
  simp [isValid, h]

/-- While no second arrow was seen the score is the initial one. -/
theorem score_before : ∀ (ws : List Str) (st : Nat × Rule F),
    (ws.foldl (readToken fo) st).1 ≤ 1 → (ws.foldl (readToken fo) st).2.score = st.2.score := by
  have mono : ∀ (st : Nat × Rule F) (w : Str), st.1 ≤ (readToken fo st w).1 := by
    intro st w
    obtain ⟨n, r⟩ := st
    unfold readToken
    by_cases h : w = c!"->"
    · simp [h]
    · simp only [h, ↓reduceIte]
      match n with
      | 0 | 1 | 2 | _ + 3 => exact Nat.le_refl _
  have monoL : ∀ (ws : List Str) (st : Nat × Rule F), st.1 ≤ (ws.foldl (readToken fo) st).1 := by
    intro ws
    induction ws with
    | nil => intro st; exact Nat.le_refl _
    | cons w ws ih => intro st; exact Nat.le_trans (mono st w) (ih _)
  intro ws
  induction ws with
  | nil => intro st _; rfl
  | cons w ws ih =>
    intro st h
    rw [List.foldl_cons] at h ⊢
    rw [ih _ h]
    have h1 := Nat.le_trans (monoL ws (readToken fo st w)) h
    have h2 := Nat.le_trans (mono st w) h1
    obtain ⟨n, r⟩ := st
    unfold readToken
    by_cases hw : w = c!"->"
    · simp [hw]
    · simp only [hw, ↓reduceIte]
      match n, h2 with
      | 0, _ | 1, _ => rfl

theorem madeOf_again (h0 : fo.le0 fo.zero = true) (ws : List Str) (w : Str) :
    madeOf fo (ws ++ [w] ++ [w]) = madeOf fo (ws ++ [w]) := by
  have hsc := score_before fo (ws ++ [w]) (0, empty fo)
  simp only [madeOf]
  rw [List.foldl_append (l' := [w])]
  simp only [List.foldl_cons, List.foldl_nil]
  rw [List.foldl_append] at hsc ⊢
  simp only [List.foldl_cons, List.foldl_nil] at hsc ⊢
  generalize (ws.foldl (readToken fo) (0, empty fo)) = st at hsc ⊢
  obtain ⟨n, r⟩ := st
  unfold readToken at hsc ⊢
  by_cases hw : w = c!"->"
  · simp [hw]
  · simp only [hw, ↓reduceIte] at hsc ⊢
    match n with
    | 0 =>
      have h1 : r.score = fo.zero := hsc (by simp)
      simp only []
      rw [isValid_false, isValid_false] <;> simp [h1, h0]
    | 1 =>
      have h1 : r.score = fo.zero := hsc (by simp)
      simp only []
      rw [isValid_false, isValid_false] <;> simp [h1, h0]
    | 2 => rfl
    | _ + 3 => rfl

theorem ofLine_eq (h0 : fo.le0 fo.zero = true) (line : Str) : ofLine fo line = madeOf fo (words line) := by
  obtain ⟨b, hb1, hb2⟩ := readLoop_words fo (line.length + 3) line [] (0, empty fo) (Nat.le_refl _)
  unfold ofLine IStream.ofStr
  rw [hb2]
  cases b with
  | false => simp [madeOf]
  | true =>
    simp only [↓reduceIte]
    change madeOf fo (words line ++ [([] :: words line).getLast _]) = _
    by_cases hw : words line = []
    · simp only [hw, List.getLast_singleton, List.nil_append]
      have e1 : isValid fo (empty fo) = false := isValid_false fo _ h0
      have e2 : isValid fo (readToken fo (0, empty fo) []).2 = false :=
        isValid_false fo _ (by simp [readToken, empty, h0])
      simp [madeOf, e1, e2]
    · rw [List.getLast_cons hw]
      have := madeOf_again fo h0 (words line).dropLast ((words line).getLast hw)
      rw [List.dropLast_concat_getLast] at this
      exact this

/-! ### Sections -/

/-- Effect of the words of the section with the given number. -/
def applySec (n : Nat) (s : List Str) (r : Rule F) : Rule F :=
  match n with
  | 0 => { r with inClass := r.inClass ++ s.map InType.asOneType }
  | 1 => { r with outClass := r.outClass ++ s.map OutType.asType }
  | 2 => { r with score := match s.getLast? with | none => r.score | some w => fo.parse w }
  | _ => r

/-- Effect of all sections from the given number on. -/
def applyFrom (n : Nat) (r : Rule F) : List (List Str) → Rule F
  | [] => r
  | s :: ss => applyFrom (n + 1) (applySec fo n s r) ss

theorem splitArrow_ne (ws : List Str) : splitArrow ws ≠ [] := by
  cases ws with
  | nil => simp [splitArrow]
  | cons w ws =>
    rw [splitArrow]
    split
    · simp
    · split <;> simp

theorem applySec_nil (n : Nat) (r : Rule F) : applySec fo n [] r = r := by
  match n with
  | 0 | 1 | 2 | _ + 3 => simp [applySec]

theorem foldl_readToken : ∀ (ws : List Str) (n : Nat) (r : Rule F),
    (ws.foldl (readToken fo) (n, r)).2 = applyFrom fo n r (splitArrow ws)
  | [], n, r => by simp [splitArrow, applyFrom, applySec_nil]
  | w :: ws, n, r => by
    rw [List.foldl_cons, splitArrow]
    by_cases hw : w = c!"->"
    · rw [if_pos hw, applyFrom, applySec_nil, ← foldl_readToken ws]
      simp [readToken, hw]
    · rw [if_neg hw]
      cases hs : splitArrow ws with
      | nil => exact absurd hs (splitArrow_ne ws)
      | cons s ss =>
        simp only [applyFrom]
        have hstep : readToken fo (n, r) w = (n, applySec fo n [w] r) := by
          unfold readToken
          simp only [hw, ↓reduceIte]
          match n with
          | 0 | 1 | 2 | _ + 3 => simp [applySec]
        rw [hstep, foldl_readToken ws, hs, applyFrom]
        congr 1
        match n with
        | 0 | 1 | _ + 3 => simp [applySec]
        | 2 =>
          simp only [applySec]
          cases s with
          | nil => simp
          | cons x xs =>
            rw [List.getLast?_cons_cons]
            cases hx : (x :: xs).getLast? with
            | none => simp at hx
            | some y => simp

theorem madeOf_eq (ws : List Str) :
    madeOf fo ws = (let r := applyFrom fo 0 (empty fo) (splitArrow ws)
      if isValid fo r then .ok r else .notValid) := by
  simp only [madeOf]
  rw [foldl_readToken]

theorem applyFrom_ge3 (n : Nat) (r : Rule F) : ∀ ss : List (List Str), applyFrom fo (n + 3) r ss = r
  | [] => rfl
  | s :: ss => by
    rw [applyFrom]
    exact applyFrom_ge3 (n + 1) r ss

/-! ### Printing -/

theorem words_name (w r : Str) (hne : w ≠ []) (hw : ∀ c ∈ w, isCSpace c = false) :
    words (w ++ c!" " ++ r) = w :: words r := by
  rw [List.append_assoc, words_run w (c!" " ++ r) hne hw]
  · rfl
  · intro c cs h
    have := (List.cons.inj h).1
    subst this
    decide

theorem in_name_ok (t : InType) : t.asString ≠ [] ∧ (∀ c ∈ t.asString, isCSpace c = false) ∧
    t.asString ≠ c!"->" := by
  cases t <;> decide +kernel

theorem out_name_ok (t : OutType) : t.asString ≠ [] ∧ (∀ c ∈ t.asString, isCSpace c = false) ∧
    t.asString ≠ c!"->" := by
  cases t <;> decide +kernel

theorem words_printIn : ∀ (ts : List InType) (r : Str),
    words (printIn ts ++ r) = ts.map InType.asString ++ words r
  | [], r => rfl
  | t :: ts, r => by
    obtain ⟨h1, h2, _⟩ := in_name_ok t
    rw [printIn, List.append_assoc, words_name _ _ h1 h2, words_printIn ts r]
    rfl

theorem words_printOut : ∀ (ts : List OutType) (r : Str),
    words (printOut ts ++ r) = ts.map OutType.asString ++ words r
  | [], r => rfl
  | t :: ts, r => by
    obtain ⟨h1, h2, _⟩ := out_name_ok t
    rw [printOut, List.append_assoc, words_name _ _ h1 h2, words_printOut ts r]
    rfl

theorem splitArrow_append_arrow : ∀ (ws vs : List Str), (∀ w ∈ ws, w ≠ c!"->") →
    splitArrow (ws ++ c!"->" :: vs) = ws :: splitArrow vs
  | [], vs, _ => by simp [splitArrow]
  | w :: ws, vs, h => by
    rw [List.cons_append, splitArrow, if_neg (h w (List.mem_cons_self ..)),
      splitArrow_append_arrow ws vs (fun x hx => h x (List.mem_cons_of_mem _ hx))]

theorem words_print (r : Rule F) (hne : fo.print r.score ≠ [])
    (hsp : ∀ c ∈ fo.print r.score, isCSpace c = false) :
    words (print fo r) = r.inClass.map InType.asString ++ c!"->" ::
      (r.outClass.map OutType.asString ++ c!"->" :: [fo.print r.score]) := by
  have harrow : ∀ s : Str, words (c!"-> " ++ s) = c!"->" :: words s := by
    intro s
    exact words_name c!"->" s (by simp) (by decide)
  unfold print
  rw [List.append_assoc, List.append_assoc, List.append_assoc, words_printIn, harrow, words_printOut, harrow]
  have := words_run (fo.print r.score) [] hne hsp (by intro c cs h; cases h)
  rw [List.append_nil] at this
  rw [this]
  rfl

end Rule
end AS
