import Verif.Lemmas.Trie
import Verif.Spec.Regex
/-
The pattern of a trie: how it is read and what it matches.
-/
namespace AS

/-- Enough fuel. -/
def EvSeq (s : Str) (r : Re) (s' : Str) : Prop := ∃ N, ∀ n, N ≤ n → readSeq n s = some (r, s')
/-- Enough fuel. -/
def EvAtom (s : Str) (r : Re) (s' : Str) : Prop := ∃ N, ∀ n, N ≤ n → readAtom n s = some (r, s')
/-- Enough fuel. -/
def EvAlt (s : Str) (r : Re) (s' : Str) : Prop := ∃ N, ∀ n, N ≤ n → readAlt n s = some (r, s')

/-- `x` is one atom with the matches `f`. -/
def AtomReads (x : Str) (f : Str → List Str) : Prop :=
  ∀ rest, ∃ a, EvAtom (x ++ rest) a rest ∧ ∀ s, a.run s = f s
/-- `x` is a sequence of atoms with the matches `f`. -/
def SeqReads (x : Str) (f : Str → List Str) : Prop :=
  ∀ rest r0 s', rest.head? ≠ some '?' → EvSeq rest r0 s' →
    ∃ r, EvSeq (x ++ rest) r s' ∧ ∀ s, r.run s = (f s).flatMap r0.run
/-- `x` is a list of alternatives with the matches `f`. -/
def AltReads (x : Str) (f : Str → List Str) : Prop :=
  ∀ rest, (rest = [] ∨ rest.head? = some ')') → ∃ r, EvAlt (x ++ rest) r rest ∧ ∀ s, r.run s = f s

/-- More fuel does not change what is read. -/
theorem read_mono : ∀ n,
    (∀ s x, readAlt n s = some x → readAlt (n + 1) s = some x) ∧
    (∀ s x, readSeq n s = some x → readSeq (n + 1) s = some x) ∧
    (∀ s x, readAtom n s = some x → readAtom (n + 1) s = some x)
  | 0 => by
    refine ⟨?_, ?_, ?_⟩ <;> intro s x h <;> simp [readAlt, readSeq, readAtom] at h
  | n + 1 => by
    obtain ⟨ih1, ih2, ih3⟩ := read_mono n
    refine ⟨?_, ?_, ?_⟩
    · intro s x h
      rw [readAlt] at h ⊢
      cases hs : readSeq n s with
      | none => rw [hs] at h; simp at h
      | some p =>
        rw [hs] at h
        rw [ih2 s p hs]
        obtain ⟨a, s1⟩ := p
        by_cases hb : s1.head? = some '|'
        · cases s1 with
          | nil => simp at hb
          | cons c s1 =>
            simp only [List.head?_cons, Option.some.injEq] at hb
            subst hb
            simp only at h ⊢
            cases ha : readAlt n s1 with
            | none => rw [ha] at h; simp at h
            | some q => rw [ha] at h; rw [ih1 s1 q ha]; exact h
        · split at h
          · rename_i e; cases e
          · rename_i e; cases e; simp at hb
          · rename_i e; cases e
            exact h
    · intro s x h
      rw [readSeq.eq_def] at h ⊢
      simp only at h ⊢
      cases s with
      | nil => exact h
      | cons c cs =>
        simp only at h ⊢
        split at h
        · rename_i hc; rw [if_pos hc]; exact h
        · rename_i hc
          rw [if_neg hc]
          cases hs : readAtom n (c :: cs) with
          | none => rw [hs] at h; simp at h
          | some p =>
            rw [hs] at h
            rw [ih3 _ p hs]
            obtain ⟨a, s1⟩ := p
            have hcase : (∃ s2, s1 = '?' :: s2) ∨ s1.head? ≠ some '?' := by
              cases s1 with
              | nil => right; simp
              | cons d s2 =>
                by_cases hd : d = '?'
                · subst hd; exact Or.inl ⟨s2, rfl⟩
                · right; simpa using hd
            rcases hcase with ⟨s2, rfl⟩ | hq
            · simp only at h ⊢
              cases ha : readSeq n s2 with
              | none => rw [ha] at h; simp at h
              | some q => rw [ha] at h; rw [ih2 s2 q ha]; exact h
            · split at h
              · rename_i e; cases e
              · rename_i e; cases e; simp at hq
              · rename_i e; cases e
                cases ha : readSeq n s1 with
                | none => rw [ha] at h; simp at h
                | some q => rw [ha] at h; rw [ih2 s1 q ha]; exact h
    · intro s x h
      rw [readAtom.eq_def] at h ⊢
      simp only at h ⊢
      split at h
      · exact h
      · exact h
      · exact h
      · exact h
      · rename_i s1
        cases ha : readAlt n s1 with
        | none => rw [ha] at h; simp at h
        | some q => rw [ha] at h; rw [ih1 s1 q ha]; exact h
      · exact h

theorem read_mono_le {n m : Nat} (hnm : n ≤ m) {s : Str} {x : Re × Str} (h : readAlt n s = some x) :
    readAlt m s = some x := by
  induction hnm with
  | refl => exact h
  | step _ ih => exact (read_mono _).1 s x ih

/-- A pattern is read in at most one way. -/
theorem reads_unique {p : Str} {r r' : Re} (h : Reads p r) (h' : Reads p r') : r = r' := by
  obtain ⟨n, hn⟩ := h
  obtain ⟨m, hm⟩ := h'
  have a := read_mono_le (Nat.le_max_left n m) hn
  have b := read_mono_le (Nat.le_max_right n m) hm
  rw [a] at b
  cases b
  rfl

theorem flatMap_singleton' {α : Type} (l : List α) : l.flatMap (fun x => [x]) = l := by
  induction l with
  | nil => rfl
  | cons a l ih => simp [ih]

theorem run_eps_eq : Re.eps.run = fun s => [s] := by funext s; simp [Re.run]

theorem evSeq_stop {rest : Str} (h : rest = [] ∨ rest.head? = some '|' ∨ rest.head? = some ')') :
    EvSeq rest .eps rest := by
  refine ⟨1, fun n hn => ?_⟩
  obtain ⟨m, rfl⟩ := Nat.exists_eq_add_of_le' hn
  cases rest with
  | nil => rw [readSeq]
  | cons c cs =>
    rw [readSeq]
    simp only [reduceCtorEq, List.head?_cons, Option.some.injEq, false_or] at h
    simp [h]

theorem readAtom_special (n : Nat) (c : Char) (cs : Str) (h : c = '|' ∨ c = ')' ∨ c = '?') :
    readAtom n (c :: cs) = none := by
  cases n with
  | zero => rw [readAtom]
  | succ n =>
    rcases h with rfl | rfl | rfl <;> simp [readAtom, patternSpecial]

theorem readSeq_atom {n : Nat} {s : Str} {a : Re} {s1 : Str} (h : readAtom n s = some (a, s1))
    (hq : s1.head? ≠ some '?') : readSeq (n + 1) s = (readSeq n s1).map (fun r => (.seq a r.1, r.2)) := by
  cases s with
  | nil => cases n <;> simp [readAtom] at h
  | cons c cs =>
    have hc : ¬ (c = '|' ∨ c = ')') := by
      intro hc
      rw [readAtom_special n c cs (by rcases hc with h | h <;> simp [h])] at h
      cases h
    rw [readSeq]
    simp only [if_neg hc, h]
    split
    · rename_i e; cases e
    · rename_i e; cases e; simp at hq
    · rename_i e; cases e; rfl

theorem readSeq_opt {n : Nat} {s : Str} {a : Re} {s1 : Str} (h : readAtom n s = some (a, '?' :: s1)) :
    readSeq (n + 1) s = (readSeq n s1).map (fun r => (.seq (.opt a) r.1, r.2)) := by
  cases s with
  | nil => cases n <;> simp [readAtom] at h
  | cons c cs =>
    have hc : ¬ (c = '|' ∨ c = ')') := by
      intro hc
      rw [readAtom_special n c cs (by rcases hc with h | h <;> simp [h])] at h
      cases h
    rw [readSeq]
    simp only [if_neg hc, h]

theorem seq_nil : SeqReads [] (fun s => [s]) := by
  intro rest r0 s' _ h
  exact ⟨r0, h, fun s => by simp⟩

theorem atom_seq {x : Str} {f : Str → List Str} (h : AtomReads x f) : SeqReads x f := by
  intro rest r0 s' hq ⟨N, hN⟩
  obtain ⟨a, ⟨M, hM⟩, hrun⟩ := h rest
  refine ⟨.seq a r0, ⟨N + M + 1, fun n hn => ?_⟩, fun s => by rw [Re.run, hrun]⟩
  obtain ⟨m, rfl⟩ : ∃ m, n = m + 1 := ⟨n - 1, by omega⟩
  rw [readSeq_atom (hM m (by omega)) hq, hN m (by omega)]
  rfl

theorem atom_opt {x : Str} {f : Str → List Str} (h : AtomReads x f) : SeqReads (x ++ ['?']) (fun s => f s ++ [s]) := by
  intro rest r0 s' hq ⟨N, hN⟩
  obtain ⟨a, ⟨M, hM⟩, hrun⟩ := h ('?' :: rest)
  refine ⟨.seq (.opt a) r0, ⟨N + M + 1, fun n hn => ?_⟩, fun s => by rw [Re.run, Re.run, hrun]⟩
  obtain ⟨m, rfl⟩ : ∃ m, n = m + 1 := ⟨n - 1, by omega⟩
  have e : x ++ ['?'] ++ rest = x ++ '?' :: rest := by simp
  rw [e, readSeq_opt (hM m (by omega)), hN m (by omega)]
  rfl

theorem seq_head {y : Str} {g : Str → List Str} (h : SeqReads y g) : y.head? ≠ some '?' := by
  intro hy
  obtain ⟨r, ⟨N, hN⟩, _⟩ := h [] .eps [] (by simp) (evSeq_stop (Or.inl rfl))
  cases y with
  | nil => simp at hy
  | cons c cs =>
    simp only [List.head?_cons, Option.some.injEq] at hy
    subst hy
    have := hN (N + 1) (by omega)
    rw [List.cons_append, readSeq, readAtom_special _ _ _ (Or.inr (Or.inr rfl))] at this
    simp at this

theorem seq_append {x y : Str} {f g : Str → List Str} (hx : SeqReads x f) (hy : SeqReads y g) :
    SeqReads (x ++ y) (fun s => (f s).flatMap g) := by
  intro rest r0 s' hq h
  obtain ⟨r1, e1, run1⟩ := hy rest r0 s' hq h
  have hq' : (y ++ rest).head? ≠ some '?' := by
    have := seq_head hy
    cases y with
    | nil => exact hq
    | cons c cs => simpa using this
  obtain ⟨r2, e2, run2⟩ := hx (y ++ rest) r1 s' hq' e1
  refine ⟨r2, by rw [List.append_assoc]; exact e2, fun s => ?_⟩
  rw [run2, List.flatMap_assoc]
  congr 1
  funext a
  exact run1 a

theorem seq_empty {f : Str → List Str} (h : SeqReads [] f) (s : Str) : f s = [s] := by
  obtain ⟨r, ⟨N, hN⟩, run⟩ := h [] .eps [] (by simp) (evSeq_stop (Or.inl rfl))
  have h1 := hN (N + 1) (by omega)
  rw [List.nil_append, readSeq] at h1
  cases h1
  have := run s
  rw [run_eps_eq, flatMap_singleton'] at this
  exact this.symm

theorem seq_alt {x : Str} {f : Str → List Str} (h : SeqReads x f) : AltReads x f := by
  intro rest hr
  have hq : rest.head? ≠ some '?' := by
    rcases hr with rfl | hr
    · simp
    · rw [hr]; decide
  obtain ⟨r, ⟨N, hN⟩, run⟩ := h rest .eps rest hq (evSeq_stop (by
    rcases hr with hr | hr
    · exact Or.inl hr
    · exact Or.inr (Or.inr hr)))
  refine ⟨r, ⟨N + 1, fun n hn => ?_⟩, fun s => by rw [run, run_eps_eq, flatMap_singleton']⟩
  obtain ⟨m, rfl⟩ : ∃ m, n = m + 1 := ⟨n - 1, by omega⟩
  rw [readAlt, hN m (by omega)]
  rcases hr with rfl | hr
  · rfl
  · cases rest with
    | nil => simp at hr
    | cons c cs =>
      simp only [List.head?_cons, Option.some.injEq] at hr
      subst hr; rfl

theorem alt_cons {x y : Str} {f g : Str → List Str} (hx : SeqReads x f) (hy : AltReads y g) :
    AltReads (x ++ '|' :: y) (fun s => f s ++ g s) := by
  intro rest hr
  obtain ⟨r2, ⟨M, hM⟩, run2⟩ := hy rest hr
  obtain ⟨r1, ⟨N, hN⟩, run1⟩ := hx ('|' :: (y ++ rest)) .eps _ (by simp) (evSeq_stop (Or.inr (Or.inl rfl)))
  refine ⟨.alt r1 r2, ⟨N + M + 1, fun n hn => ?_⟩, fun s => ?_⟩
  · obtain ⟨m, rfl⟩ : ∃ m, n = m + 1 := ⟨n - 1, by omega⟩
    have e : x ++ '|' :: y ++ rest = x ++ '|' :: (y ++ rest) := by simp
    rw [e, readAlt, hN m (by omega)]
    simp only
    rw [hM m (by omega)]
    rfl
  · rw [Re.run, run1, run2, run_eps_eq, flatMap_singleton']

theorem alt_group {x : Str} {f : Str → List Str} (h : AltReads x f) : AtomReads (c!"(?:" ++ x ++ c!")") f := by
  intro rest
  obtain ⟨r, ⟨N, hN⟩, run⟩ := h (')' :: rest) (Or.inr rfl)
  refine ⟨r, ⟨N + 1, fun n hn => ?_⟩, run⟩
  obtain ⟨m, rfl⟩ : ∃ m, n = m + 1 := ⟨n - 1, by omega⟩
  have e : c!"(?:" ++ x ++ c!")" ++ rest = '(' :: '?' :: ':' :: (x ++ ')' :: rest) := by simp
  rw [e, readAtom]
  rw [hN m (by omega)]
  rfl

/-- The characters `quoteMeta` handles well. -/
def Plain (c : Char) : Prop := c ≠ '^' ∧ c ≠ '{' ∧ c ≠ '}'

theorem plain_not_special {c : Char} (h : Plain c) (hq : c ∉ quoteSpecial) : c ∉ patternSpecial := by
  obtain ⟨h1, h2, h3⟩ := h
  simp only [quoteSpecial, patternSpecial, List.mem_cons, List.not_mem_nil, or_false, not_or] at hq ⊢
  simp_all

theorem escape_special {c : Char} (hq : c ∈ quoteSpecial) : escapeMeans c = false := by
  simp only [quoteSpecial, List.mem_cons, List.not_mem_nil, or_false] at hq
  rcases hq with rfl | rfl | rfl | rfl | rfl | rfl | rfl | rfl | rfl | rfl | rfl | rfl | rfl <;> decide

theorem atom_char {c : Char} (h : Plain c) : AtomReads (quoteMeta [c]) (Re.run (.one (fun d => d == c))) := by
  intro rest
  refine ⟨.one (fun d => d == c), ⟨1, fun n hn => ?_⟩, fun s => rfl⟩
  obtain ⟨m, rfl⟩ : ∃ m, n = m + 1 := ⟨n - 1, by omega⟩
  rw [quoteMeta]
  split
  · rename_i hq
    simp only [quoteMeta, List.cons_append, List.nil_append]
    rw [readAtom]
    simp [escape_special hq]
  · rename_i hq
    have hs := plain_not_special h hq
    have hs' : c ∉ patternSpecial := hs
    simp only [patternSpecial, List.mem_cons, List.not_mem_nil, or_false, not_or] at hs
    simp only [quoteMeta, List.cons_append, List.nil_append]
    rw [readAtom.eq_def]
    simp only
    split <;> simp_all

theorem readClass_chars {cs : List Char} (h : ∀ c ∈ cs, Plain c) (rest : Str) :
    readClass ((cs.map (fun c => quoteMeta [c])).flatten ++ ']' :: rest) = some (cs, rest) := by
  induction cs with
  | nil => rw [readClass.eq_def]; simp
  | cons c cs ih =>
    have ih := ih (fun x hx => h x (List.mem_cons_of_mem _ hx))
    simp only [List.map_cons, List.flatten_cons, List.append_assoc]
    have hqm : quoteMeta [c] = if c ∈ quoteSpecial then ['\\', c] else [c] := by simp [quoteMeta]
    rw [hqm]
    split
    · rename_i hq
      simp only [List.cons_append, List.nil_append]
      rw [readClass.eq_def]
      simp only [escape_special hq, ih]
      simp
    · rename_i hq
      simp only [List.cons_append, List.nil_append]
      simp only [quoteSpecial, List.mem_cons, List.not_mem_nil, or_false, not_or] at hq
      rw [readClass.eq_def]
      simp only
      rw [if_neg (by simp [hq]), if_neg (by simp [hq]), if_neg (by simp [hq]), ih]
      rfl

theorem atom_class {cs : List Char} (h : ∀ c ∈ cs, Plain c) (hne : cs ≠ []) :
    AtomReads (c!"[" ++ (cs.map (fun c => quoteMeta [c])).flatten ++ c!"]") (Re.run (.one (fun d => cs.contains d))) := by
  intro rest
  refine ⟨.one (fun d => cs.contains d), ⟨1, fun n hn => ?_⟩, fun s => rfl⟩
  obtain ⟨m, rfl⟩ : ∃ m, n = m + 1 := ⟨n - 1, by omega⟩
  have e : c!"[" ++ (cs.map (fun c => quoteMeta [c])).flatten ++ c!"]" ++ rest =
      '[' :: ((cs.map (fun c => quoteMeta [c])).flatten ++ ']' :: rest) := by simp
  have hr := readClass_chars h rest
  rw [e]
  obtain ⟨c, cs', rfl⟩ := List.exists_cons_of_ne_nil hne
  obtain ⟨d, ds, hd, hd'⟩ : ∃ d ds, ((c :: cs').map (fun c => quoteMeta [c])).flatten ++ ']' :: rest = d :: ds ∧ d ≠ '^' := by
    simp only [List.map_cons, List.flatten_cons]
    rw [quoteMeta]
    split
    · exact ⟨'\\', _, rfl, by decide⟩
    · exact ⟨c, _, rfl, (h c (List.mem_cons_self ..)).1⟩
  rw [hd] at hr ⊢
  rw [readAtom.eq_def]
  simp only
  split
  · rename_i e; cases e
  · rename_i e; cases e
  · rename_i e; cases e; exact absurd rfl hd'
  · rename_i e; cases e; rw [hr]; rfl
  · rename_i e; cases e
  · rename_i h0 _ _ _ e; cases e; simp at *

theorem run_one_char (c : Char) : Re.run (.one (fun d => d == c)) = Re.run (.one (fun d => [c].contains d)) := by
  funext s
  cases s with
  | nil => simp [Re.run]
  | cons d s => simp [Re.run]

/-- The text of the alternative for single characters. -/
def ccText (cc : List Str) : Str := if cc.length = 1 then cc.headD [] else c!"[" ++ cc.flatten ++ c!"]"

theorem atom_cc {cs : List Char} (h : ∀ c ∈ cs, Plain c) (hne : cs ≠ []) :
    AtomReads (ccText (cs.map (fun c => quoteMeta [c]))) (Re.run (.one (fun d => cs.contains d))) := by
  unfold ccText
  split
  · rename_i hl
    match cs, hl with
    | [c], _ =>
      rw [← run_one_char]
      exact atom_char (h c (List.mem_cons_self ..))
  · exact atom_class h hne

/-- Texts of alternatives and their matches. -/
inductive AltsRead : List Str → List (Str → List Str) → Prop
  | nil : AltsRead [] []
  | cons {x xs f fs} : SeqReads x f → AltsRead xs fs → AltsRead (x :: xs) (f :: fs)

theorem alts_append {xs ys fs gs} (h1 : AltsRead xs fs) (h2 : AltsRead ys gs) : AltsRead (xs ++ ys) (fs ++ gs) := by
  induction h1 with
  | nil => exact h2
  | cons h _ ih => exact .cons h ih

theorem alts_length {xs fs} (h : AltsRead xs fs) : xs.length = fs.length := by
  induction h with
  | nil => rfl
  | cons _ _ ih => simp [ih]

theorem alts_join {xs fs} (h : AltsRead xs fs) (hne : xs ≠ []) : AltReads (joinBar xs) (fun s => fs.flatMap (fun f => f s)) := by
  induction h with
  | nil => exact absurd rfl hne
  | @cons x xs f fs hx h ih =>
    cases h with
    | nil =>
      have := seq_alt hx
      simpa [joinBar] using this
    | @cons y ys g gs hy h =>
      have := alt_cons hx (ih (by simp))
      simpa [joinBar] using this

theorem seq_congr {x : Str} {f g : Str → List Str} (h : SeqReads x f) (e : ∀ s, f s = g s) : SeqReads x g := by
  have : f = g := funext e
  rw [← this]; exact h

/-- The end of `finishRegexp`. -/
def wrapAlts (cconly : Prop) [Decidable cconly] (alt : List Str) (q : Bool) : Str :=
  let result := if alt.length = 1 then alt.headD [] else c!"(?:" ++ joinBar alt ++ c!")"
  if q then (if cconly then result ++ c!"?" else c!"(?:" ++ result ++ c!")?") else result

theorem finish_wrap (alt cc : List Str) (q : Bool) : finishRegexp alt cc q =
    wrapAlts (alt.length = 0) (if cc.length > 0 then alt ++ [ccText cc] else alt) q := rfl

theorem finish_reads {alts : List Str} {fs : List (Str → List Str)} {cs : List Char} (q : Bool)
    (ha : AltsRead alts fs) (hc : ∀ c ∈ cs, Plain c) (hne : alts.length + cs.length ≠ 0) :
    SeqReads (finishRegexp alts (cs.map (fun c => quoteMeta [c])) q)
      (fun s => fs.flatMap (fun f => f s) ++ Re.run (.one (fun d => cs.contains d)) s ++ if q then [s] else []) := by
  rw [finish_wrap]
  by_cases hcs : cs = []
  · subst hcs
    have hal : alts.length ≠ 0 := by simpa using hne
    have hone : ∀ s, Re.run (.one (fun d => List.contains ([] : List Char) d)) s = [] := by
      intro s; cases s <;> simp [Re.run]
    simp only [List.map_nil, List.length_nil, Nat.lt_irrefl, if_false, gt_iff_lt, wrapAlts, hal, hone, List.append_nil]
    have hjoin := alts_join ha (by rintro rfl; simp at hal)
    have hres : SeqReads (if alts.length = 1 then alts.headD [] else c!"(?:" ++ joinBar alts ++ c!")")
        (fun s => fs.flatMap (fun f => f s)) := by
      split
      · rename_i h1
        cases ha with
        | nil => simp at h1
        | cons hx h =>
          cases h with
          | nil => simpa using hx
          | cons _ _ => simp at h1
      · exact atom_seq (alt_group hjoin)
    cases q with
    | false => simpa using hres
    | true =>
      simp only [if_true]
      have h1 := atom_opt (alt_group (seq_alt hres))
      have e : ∀ x : Str, c!"(?:" ++ x ++ c!")?" = c!"(?:" ++ x ++ c!")" ++ ['?'] := by intro x; simp
      rw [e]
      exact h1
  · have hcl : (cs.map (fun c => quoteMeta [c])).length > 0 := by
      simp only [List.length_map]
      exact List.length_pos_iff.2 hcs
    have hatom := atom_cc hc hcs
    rw [if_pos hcl, wrapAlts]
    by_cases hal : alts.length = 0
    · have hnil : alts = [] := List.length_eq_zero_iff.1 hal
      subst hnil
      cases ha
      simp only [List.length_nil, List.nil_append, List.length_cons, Nat.zero_add, if_true, List.headD_cons, List.flatMap_nil]
      cases q with
      | false => simpa using atom_seq hatom
      | true => simpa using atom_opt hatom
    · have hall := alts_append ha (.cons (atom_seq hatom) .nil)
      have hjoin := alts_join hall (by simp)
      have hlen : ¬ (alts ++ [ccText (cs.map (fun c => quoteMeta [c]))]).length = 1 := by
        simp only [List.length_append, List.length_cons, List.length_nil]
        omega
      rw [if_neg hlen]
      simp only [if_neg hal]
      have hgrp := alt_group hjoin
      have e0 : ∀ s, List.flatMap (fun f => f s) (fs ++ [Re.run (.one (fun d => cs.contains d))]) =
          fs.flatMap (fun f => f s) ++ Re.run (.one (fun d => cs.contains d)) s := by
        intro s; simp
      cases q with
      | false =>
        simp only [Bool.false_eq_true, if_false]
        exact seq_congr (atom_seq hgrp) (by intro s; simp)
      | true =>
        simp only [if_true]
        have h1 := atom_opt (alt_group (seq_alt (atom_seq hgrp)))
        have e : ∀ x : Str, c!"(?:" ++ x ++ c!")?" = c!"(?:" ++ x ++ c!")" ++ ['?'] := by intro x; simp
        rw [e]
        exact seq_congr h1 (by intro s; simp)

/-! ### The matches of a trie -/

/-- What remains after each word of the trie at the start of the text, longest word first. -/
def Trie.ends : Str → Trie → List Str
  | [], t => if t.isEnd then [[]] else []
  | c :: s, t =>
    (match t.kids.find c with
      | some child => Trie.ends s child
      | none => []) ++ if t.isEnd then [c :: s] else []

/-- The same for the words that start with a child. -/
def Kids.ends (s : Str) (k : Kids) : List Str :=
  match s with
  | [] => []
  | c :: s =>
    match k.find c with
    | some child => Trie.ends s child
    | none => []

theorem ends_kids (s : Str) (t : Trie) : t.ends s = t.kids.ends s ++ if t.isEnd then [s] else [] := by
  cases s with
  | nil => simp [Trie.ends, Kids.ends]
  | cons c s => simp [Trie.ends, Kids.ends]

mutual
theorem trie_reads : ∀ (t : Trie), t.Ok Plain → (t.isEnd = true ∨ t.kids.count ≠ 0) →
    SeqReads t.getRegexp (fun s => t.ends s)
  | .node e sz k, h, hl => by
    rw [Trie.Ok] at h
    rw [Trie.getRegexp]
    split
    · rename_i hz
      cases k with
      | nil =>
        refine seq_congr seq_nil (fun s => ?_)
        rw [ends_kids]
        cases s <;> simp [Kids.ends, Trie.kids, Trie.isEnd, Kids.find, hz.1]
      | cons c t rest => simp [Kids.count] at hz
    · rename_i hz
      have hk : k.count ≠ 0 := by
        intro h0
        rcases hl with h1 | h1
        · exact hz ⟨h1, h0⟩
        · exact h1 h0
      obtain ⟨fs, cs, a1, a2, a3, a4, a5⟩ := kids_reads k h
      rw [a2]
      have := finish_reads (e && decide (k.count > 0)) a1 a3 (by rw [a2] at a5; simp only [List.length_map] at a5; omega)
      refine seq_congr this (fun s => ?_)
      have hpos : decide (k.count > 0) = true := by simp; omega
      rw [ends_kids, a4 s, hpos]
      cases e <;> simp [Trie.kids, Trie.isEnd]
theorem kids_reads : ∀ (k : Kids), k.Ok Plain → ∃ (fs : List (Str → List Str)) (cs : List Char),
    AltsRead k.regexps.1 fs ∧ k.regexps.2 = cs.map (fun c => quoteMeta [c]) ∧ (∀ c ∈ cs, Plain c) ∧
    (∀ s, fs.flatMap (fun f => f s) ++ Re.run (.one (fun d => cs.contains d)) s = k.ends s) ∧
    k.regexps.1.length + k.regexps.2.length = k.count
  | .nil, _ => by
    refine ⟨[], [], ?_⟩
    simp only [Kids.regexps]
    refine ⟨.nil, rfl, by simp, ?_, rfl⟩
    intro s
    cases s <;> simp [Re.run, Kids.ends, Kids.find]
  | .cons c t rest, h => by
    rw [Kids.Ok] at h
    obtain ⟨hc, ht, hlive, hlt, hrest⟩ := h
    obtain ⟨fs, cs, a1, a2, a3, a4, a5⟩ := kids_reads rest hrest
    have iht := trie_reads t ht hlive
    have hnd : c ∉ rest.keys := fun hd => Nat.lt_irrefl _ (hlt c hd)
    have hself : ∀ s, rest.ends (c :: s) = [] := by
      intro s
      simp [Kids.ends, find_none_of_not_key hnd]
    have hother : ∀ d s, d ≠ c → (Kids.cons c t rest).ends (d :: s) = rest.ends (d :: s) := by
      intro d s hd
      have : ¬ c = d := fun e => hd e.symm
      simp [Kids.ends, Kids.find, this]
    have hsame : ∀ s, (Kids.cons c t rest).ends (c :: s) = t.ends s := by
      intro s
      simp [Kids.ends, Kids.find]
    rw [Kids.regexps]
    by_cases hr : t.getRegexp.length > 0
    · rw [if_pos hr]
      refine ⟨(fun s => (Re.run (.one (fun d => d == c)) s).flatMap (fun s => t.ends s)) :: fs, cs, .cons (seq_append (atom_seq (atom_char hc)) iht) a1, a2, a3, ?_, ?_⟩
      · intro s
        cases s with
        | nil => simpa [Re.run, Kids.ends] using a4 []
        | cons d s =>
          by_cases hd : d = c
          · subst hd
            have := a4 (d :: s)
            rw [hself, List.append_eq_nil_iff] at this
            rw [hsame, List.flatMap_cons, this.1, this.2]
            simp [Re.run]
          · rw [hother d s hd, ← a4]
            have : (d == c) = false := by simpa using hd
            simp [Re.run, this]
      · simp only [List.length_cons, Kids.count]; omega
    · rw [if_neg hr]
      have hnil : t.getRegexp = [] := List.length_eq_zero_iff.1 (by omega)
      rw [hnil] at iht
      have hends := seq_empty iht
      refine ⟨fs, c :: cs, a1, by simp [a2], ?_, ?_, ?_⟩
      · intro d hd
        rcases List.mem_cons.1 hd with rfl | hd
        · exact hc
        · exact a3 d hd
      · intro s
        cases s with
        | nil => simpa [Re.run, Kids.ends] using a4 []
        | cons d s =>
          by_cases hd : d = c
          · subst hd
            have := a4 (d :: s)
            rw [hself, List.append_eq_nil_iff] at this
            rw [hsame, hends, this.1]
            simp [Re.run]
          · rw [hother d s hd, ← a4]
            simp [Re.run, hd]
      · simp only [List.length_cons, Kids.count]; omega
end

/-- The matches, by the words. -/
theorem ends_eq : ∀ (s : Str) (t : Trie), t.ends s =
    ((List.range (s.length + 1)).reverse.filter (fun n => t.isWord (s.take n))).map (fun n => s.drop n)
  | [], t => by
    cases h : t.isEnd <;> simp [Trie.ends, Trie.isWord, h]
  | c :: s, t => by
    have e : List.range ((c :: s).length + 1) = 0 :: (List.range (s.length + 1)).map Nat.succ := by
      rw [List.length_cons, List.range_succ_eq_map]
    rw [e, List.reverse_cons, List.filter_append, List.map_append, Trie.ends, ← List.map_reverse, List.filter_map, List.map_map]
    congr 1
    · cases hf : t.kids.find c with
      | none =>
        have : ((fun n => t.isWord ((c :: s).take n)) ∘ Nat.succ) = fun _ => false := by
          funext n; simp [Trie.isWord, hf]
        rw [this]; simp
      | some child =>
        have : ((fun n => t.isWord ((c :: s).take n)) ∘ Nat.succ) = fun n => child.isWord (s.take n) := by
          funext n; simp [Trie.isWord, hf]
        rw [this]
        simp only
        rw [ends_eq s child]
        congr 1
    · cases h : t.isEnd <;> simp [Trie.isWord, h]

end AS
