import Verif.Lemmas.GrammarLine
import Verif.Lemmas.Search
import Verif.Props.Rule
/-
The grammar loader: lines read, and the sections they define.
-/
namespace AS
variable {F : Type} (ct : CharTables) (fo : FloatOps F)

/-! ### Maps -/

theorem mapFind_mapSet {α : Type} (k k' : Str) (v : α) : ∀ m : List (Str × α),
    mapFind k' (mapSet k v m) = if k' = k then some v else mapFind k' m
  | [] => by simp [mapSet, mapFind]
  | (k0, v0) :: m => by
    rw [mapSet]
    split
    · rename_i h
      subst h
      simp only [mapFind]
      split <;> rfl
    · rename_i h
      simp only [mapFind, mapFind_mapSet k k' v m]
      by_cases h1 : k' = k0
      · subst h1
        have : ¬ k' = k := fun e => h e.symm
        simp [this]
      · simp [h1]

/-! ### Lines -/

/-- The loop over the lines that are read. -/
def loadLines : LoadState F → List Str → Except GrammarError (LoadState F)
  | st, [] => .ok st
  | st, l :: ls =>
    match loadLine ct fo { st with grammarIn := st.grammarIn ++ l } l with
    | .error e => .error e
    | .ok st => loadLines st ls

theorem joinWith_nl_cons (p q : Str) (ps : List Str) :
    joinWith ['\n'] (p :: q :: ps) = p ++ '\n' :: joinWith ['\n'] (q :: ps) := by
  simp [joinWith]

/-- What is read after the first line: the lines, and the last line again unless it is empty. -/
def withRepeat : List Str → List Str
  | [] => []
  | [l] => if l = [] then [l] else [l, l]
  | l :: l' :: ls => l :: withRepeat (l' :: ls)

theorem withRepeat_eq : ∀ (l : Str) (ls : List Str),
    withRepeat (l :: ls) = (l :: ls) ++ (if (l :: ls).getLast (by simp) = [] then [] else [(l :: ls).getLast (by simp)])
  | l, [] => by
    simp only [withRepeat, List.getLast_singleton]
    by_cases h : l = [] <;> simp [h]
  | l, l' :: ls => by
    rw [withRepeat, withRepeat_eq l' ls]
    simp [List.getLast_cons]

theorem loadLoop_lines : ∀ (ps : List Str) (p : Str) (fuel cnt : Nat) (old : Str) (st : LoadState F),
    (∀ q ∈ p :: ps, '\n' ∉ q) → ps.length + 3 ≤ fuel → 1 ≤ cnt →
    loadLoop ct fo fuel (IStream.ofStr (joinWith ['\n'] (p :: ps))) old cnt st =
      loadLines ct fo st (withRepeat (p :: ps))
  | [], p, fuel + 3, cnt, old, st, h, _, hc => by
    rw [loadLoop]
    have hf : ∀ s, (IStream.ofStr s).fail = false := fun _ => rfl
    have hg := getline_last '\n' p old (h p (List.mem_cons_self ..))
    have hcnt : ¬ cnt + 1 = 1 := by omega
    simp only [hf, Bool.false_eq_true, ↓reduceIte, joinWith, hg, hcnt]
    by_cases hp : p = []
    · subst hp
      simp only [withRepeat, ↓reduceIte, loadLines]
      cases loadLine ct fo { st with grammarIn := st.grammarIn ++ [] } [] with
      | error e => rfl
      | ok st1 => simp only; rw [loadLoop]; simp
    · have hpe : p.isEmpty = false := by simpa using hp
      simp only [withRepeat, hp, ↓reduceIte, loadLines, hpe]
      cases loadLine ct fo { st with grammarIn := st.grammarIn ++ p } p with
      | error e => rfl
      | ok st1 =>
        simp only
        rw [loadLoop, if_neg (by simp)]
        rw [getline_bad _ _ _ (by rfl)]
        have hcnt : ¬ cnt + 1 + 1 = 1 := by omega
        simp only [hcnt, ↓reduceIte]
        cases loadLine ct fo { st1 with grammarIn := st1.grammarIn ++ p } p with
        | error e => rfl
        | ok st2 => simp only; rw [loadLoop]; simp
  | q :: qs, p, fuel + 1, cnt, old, st, h, hf, hc => by
    rw [loadLoop]
    have hfl : ∀ s, (IStream.ofStr s).fail = false := fun _ => rfl
    have hg := getline_append '\n' p (joinWith ['\n'] (q :: qs)) old (h p (List.mem_cons_self ..))
    rw [← joinWith_nl_cons] at hg
    have hcnt : ¬ cnt + 1 = 1 := by omega
    simp only [hfl, Bool.false_eq_true, ↓reduceIte, hg, hcnt, withRepeat, loadLines]
    cases loadLine ct fo { st with grammarIn := st.grammarIn ++ p } p with
    | error e => rfl
    | ok st1 =>
      simp only
      exact loadLoop_lines qs q fuel (cnt + 1) p st1 (fun x hx => h x (List.mem_cons_of_mem _ hx))
        (by simp only [List.length_cons] at hf; omega) (by omega)
  | [], p, 0, cnt, old, st, _, hf, _ => by simp at hf
  | [], p, 1, cnt, old, st, _, hf, _ => by simp at hf
  | [], p, 2, cnt, old, st, _, hf, _ => by simp at hf
  | q :: qs, p, 0, cnt, old, st, _, hf, _ => by simp at hf

/-- The lines after the treatment of a byte order mark. A single line is repeated without the mark. -/
def linesAfterBom (p' p : Str) (ps : List Str) : List Str :=
  match ps with
  | [] => if p = [] then [p'] else [p', p']
  | q :: qs => p' :: withRepeat (q :: qs)

theorem linesAfterBom_same (p : Str) (ps : List Str) : linesAfterBom p p ps = withRepeat (p :: ps) := by
  cases ps <;> rfl

/-- Loading the lines, the first of which contributes `p` to the digest input although `p'` is
processed. -/
def loadFirst (p : Str) : LoadState F → List Str → Except GrammarError (LoadState F)
  | st, [] => .ok st
  | st, p' :: ls =>
    match loadLine ct fo { st with grammarIn := st.grammarIn ++ p } p' with
    | .error e => .error e
    | .ok st => loadLines ct fo st ls

theorem loadLoop_first (p : Str) (ps : List Str) (fuel : Nat) (st : LoadState F)
    (h : ∀ q ∈ p :: ps, '\n' ∉ q) (hf : ps.length + 3 ≤ fuel) :
    loadLoop ct fo fuel (IStream.ofStr (joinWith ['\n'] (p :: ps))) [] 0 st =
      match stripBom p with
      | .error e => .error e
      | .ok p' => loadFirst ct fo p st (linesAfterBom p' p ps) := by
  obtain ⟨fuel, rfl⟩ : ∃ f, fuel = f + 3 := ⟨fuel - 3, by omega⟩
  cases ps with
  | nil =>
    rw [loadLoop]
    have hfl : ∀ s, (IStream.ofStr s).fail = false := fun _ => rfl
    have hg := getline_last '\n' p [] (h p (List.mem_cons_self ..))
    simp only [hfl, Bool.false_eq_true, ↓reduceIte, joinWith, hg, Nat.zero_add]
    cases stripBom p with
    | error e => rfl
    | ok p' =>
      simp only [linesAfterBom]
      by_cases hp : p = []
      · subst hp
        simp only [↓reduceIte, loadFirst, loadLines]
        cases loadLine ct fo { st with grammarIn := st.grammarIn ++ [] } p' with
        | error e => rfl
        | ok st1 => simp only; rw [loadLoop]; simp
      · have hpe : p.isEmpty = false := by simpa using hp
        simp only [hp, ↓reduceIte, loadFirst, loadLines, hpe]
        cases loadLine ct fo { st with grammarIn := st.grammarIn ++ p } p' with
        | error e => rfl
        | ok st1 =>
          simp only
          rw [loadLoop, if_neg (by simp)]
          rw [getline_bad _ _ _ (by rfl)]
          simp only [show ¬ 1 + 1 = 1 by omega, ↓reduceIte]
          cases loadLine ct fo { st1 with grammarIn := st1.grammarIn ++ p' } p' with
          | error e => rfl
          | ok st2 => simp only; rw [loadLoop]; simp
  | cons q qs =>
    rw [loadLoop]
    have hfl : ∀ s, (IStream.ofStr s).fail = false := fun _ => rfl
    have hg := getline_append '\n' p (joinWith ['\n'] (q :: qs)) [] (h p (List.mem_cons_self ..))
    rw [← joinWith_nl_cons] at hg
    simp only [hfl, Bool.false_eq_true, ↓reduceIte, hg, Nat.zero_add, linesAfterBom]
    cases stripBom p with
    | error e => rfl
    | ok p' =>
      simp only [loadFirst]
      cases loadLine ct fo { st with grammarIn := st.grammarIn ++ p } p' with
      | error e => rfl
      | ok st1 =>
        simp only
        exact loadLoop_lines ct fo qs q (fuel + 2) 1 p' st1 (fun x hx => h x (List.mem_cons_of_mem _ hx))
          (by simp only [List.length_cons] at hf; omega) (by omega)

theorem splitLines_join : ∀ (ps : List Str) (p : Str), (∀ q ∈ p :: ps, '\n' ∉ q) →
    splitLines (joinWith ['\n'] (p :: ps)) = p :: ps := by
  have one : ∀ (p : Str), '\n' ∉ p → splitLines p = [p] := by
    intro p
    induction p with
    | nil => intro _; rfl
    | cons c cs ih =>
      intro h
      simp only [List.mem_cons, not_or] at h
      have hc : ¬ c = '\n' := fun e => h.1 e.symm
      simp [splitLines, hc, ih h.2]
  have app : ∀ (p r : Str), '\n' ∉ p → splitLines (p ++ '\n' :: r) = p :: splitLines r := by
    intro p r
    induction p with
    | nil => intro _; simp [splitLines]
    | cons c cs ih =>
      intro h
      simp only [List.mem_cons, not_or] at h
      have hc : ¬ c = '\n' := fun e => h.1 e.symm
      simp [splitLines, hc, ih h.2]
  intro ps
  induction ps with
  | nil => intro p h; exact one p (h p (List.mem_cons_self ..))
  | cons q qs ih =>
    intro p h
    rw [joinWith_nl_cons, app p _ (h p (List.mem_cons_self ..)), ih q (fun x hx => h x (List.mem_cons_of_mem _ hx))]

theorem splitLines_spec (text : Str) : ∃ p ps, splitLines text = p :: ps ∧ (∀ q ∈ p :: ps, '\n' ∉ q) ∧
    text = joinWith ['\n'] (p :: ps) := by
  obtain ⟨p, ps, h1, h2⟩ := exists_parts '\n' text
  exact ⟨p, ps, by rw [h2, splitLines_join ps p h1], h1, h2⟩

theorem unlines_eq : ∀ ls : List Str, unlines ls = joinWith ['\n'] (ls ++ [[]])
  | [] => rfl
  | [l] => by simp [unlines, joinWith]
  | l :: l' :: ls => by
    have := unlines_eq (l' :: ls)
    simp only [unlines, List.flatMap_cons, List.cons_append, joinWith_nl_cons] at this ⊢
    rw [this]; simp

/-- What happens after the lines were read. -/
def finishLoad (r : Except GrammarError (LoadState F)) : Except GrammarError (Grammar F) :=
  match r with
  | .error e => .error e
  | .ok st =>
    match updatePointers fo (loadFinish st).g with
    | .error e => .error e
    | .ok g =>
      if g.status = .CHECK_FATAL then .error (.fatal g.issues)
      else .ok { g with md5in := st.grammarIn }

theorem initialize_eq (text p : Str) (ps : List Str) (h : ∀ q ∈ p :: ps, '\n' ∉ q)
    (ht : text = joinWith ['\n'] (p :: ps)) :
    Grammar.initialize ct fo text =
      match stripBom p with
      | .error e => .error e
      | .ok p' => finishLoad fo (loadFirst ct fo p {} (linesAfterBom p' p ps)) := by
  unfold Grammar.initialize
  rw [ht, loadLoop_first ct fo p ps _ _ h (by have := joinWith_length '\n' p ps; omega)]
  cases stripBom p with
  | error e => rfl
  | ok p' => rfl

theorem loadFirst_same (p : Str) (ls : List Str) (st : LoadState F) :
    loadFirst ct fo p st (p :: ls) = loadLines ct fo st (p :: ls) := rfl

theorem except_map_ite {ε α β : Type} (f : α → β) (c : Prop) [Decidable c] (e : ε) (x : α) :
    (if c then .error e else .ok x : Except ε α).map f = if c then .error e else .ok (f x) := by
  split <;> rfl

/-- The digest input does not influence loading. -/
theorem loadLine_in (st : LoadState F) (x l : Str) :
    loadLine ct fo { st with grammarIn := x } l = (loadLine ct fo st l).map (fun s => { s with grammarIn := x }) := by
  unfold loadLine
  split
  · rfl
  · split
    · unfold loadHeader
      simp only
      split
      · rfl
      · have h : storeSection { st with grammarIn := x } = { storeSection st with grammarIn := x } := by
          unfold storeSection
          simp only
          split <;> rfl
        rw [h, except_map_ite]
    · unfold loadData
      simp only
      split
      · rfl
      · split
        · split
          · rfl
          · split <;> rfl
        · split
          · rfl
          · cases Rule.ofLine fo l <;> rfl

theorem loadLines_in : ∀ (ls : List Str) (st : LoadState F) (x : Str),
    loadLines ct fo { st with grammarIn := x } ls =
      (loadLines ct fo { st with grammarIn := [] } ls).map (fun s => { s with grammarIn := x ++ s.grammarIn })
  | [], st, x => by simp [loadLines, Except.map]
  | l :: ls, st, x => by
    rw [loadLines, loadLines]
    simp only [List.nil_append]
    rw [loadLine_in ct fo st (x ++ l), loadLine_in ct fo st l]
    cases loadLine ct fo st l with
    | error e => rfl
    | ok s =>
      simp only [Except.map]
      rw [loadLines_in ls s (x ++ l), loadLines_in ls s l]
      cases loadLines ct fo { s with grammarIn := [] } ls with
      | error e => rfl
      | ok s => simp [Except.map]

theorem loadLines_grammarIn : ∀ (ls : List Str) (st st' : LoadState F), loadLines ct fo st ls = .ok st' →
    st'.grammarIn = st.grammarIn ++ ls.flatten
  | [], st, st', h => by simp only [loadLines, Except.ok.injEq] at h; simp [h]
  | l :: ls, st, st', h => by
    rw [loadLines, loadLine_in] at h
    cases hs : loadLine ct fo st l with
    | error e => simp [hs, Except.map] at h
    | ok s =>
      simp only [hs, Except.map] at h
      have := loadLines_grammarIn ls _ st' h
      simpa using this

end AS
