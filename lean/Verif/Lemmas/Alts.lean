import Verif.Spec.Tokenizer
/-
Facts about the words of a phrase and about the choices of `getAltTokens`.
-/
namespace AS

/-! ### Words -/

theorem splitOn_ne_nil (d : Char) (s : Str) : splitOn d s ≠ [] := by
  cases s with
  | nil => simp [splitOn]
  | cons c s =>
    rw [splitOn]
    split
    · simp
    · split <;> simp

/-- The inner empty parts dropped, the last one kept. -/
def keepLast : List Str → List Str
  | [] => []
  | [q] => [q]
  | q :: r :: qs => if q = [] then keepLast (r :: qs) else q :: keepLast (r :: qs)

theorem keepLast_eq : ∀ (q : Str) (qs : List Str),
    keepLast (q :: qs) = (q :: qs).dropLast.filter (fun x => x ≠ []) ++ [(q :: qs).getLast (by simp)]
  | q, [] => by simp [keepLast]
  | q, r :: qs => by
    rw [keepLast, keepLast_eq r qs]
    by_cases h : q = []
    · simp [h]
    · simp [h]

theorem wordsOf_eq (s : Str) : ∃ p ps, splitOn ' ' s = p :: ps ∧ wordsOf s = p :: keepLast ps := by
  cases h : splitOn ' ' s with
  | nil => exact absurd h (splitOn_ne_nil _ _)
  | cons p ps =>
    refine ⟨p, ps, rfl, ?_⟩
    rw [wordsOf]
    cases ps with
    | nil => simp [h, keepLast]
    | cons q ps => rw [keepLast_eq]; simp [h]

theorem splitBlanks_spec : ∀ (s cur : Str),
    (∀ p ps, splitOn ' ' s = p :: ps → splitBlanks false cur s = (cur.reverse ++ p) :: keepLast ps) ∧
    splitBlanks true [] s = keepLast (splitOn ' ' s)
  | [], cur => by
    constructor
    · intro p ps h
      simp [splitOn] at h
      obtain ⟨rfl, rfl⟩ := h
      simp [splitBlanks, keepLast]
    · simp [splitBlanks, splitOn, keepLast]
  | c :: s, cur => by
    have ih := fun cur => splitBlanks_spec s cur
    obtain ⟨p0, ps0, h0⟩ := List.exists_cons_of_ne_nil (splitOn_ne_nil ' ' s)
    by_cases hc : c = ' '
    · subst hc
      constructor
      · intro p ps h
        rw [splitOn, if_pos rfl] at h
        injection h with h1 h2
        subst h1 h2
        rw [splitBlanks, if_pos rfl, if_neg (by simp), (ih []).2]
        simp
      · rw [splitBlanks, if_pos rfl, if_pos rfl, (ih []).2, splitOn, if_pos rfl, h0, keepLast]
        simp
    · constructor
      · intro p ps h
        rw [splitOn, if_neg hc, h0] at h
        simp only [List.cons.injEq] at h
        obtain ⟨rfl, rfl⟩ := h
        rw [splitBlanks, if_neg hc, (ih (c :: cur)).1 p0 ps0 h0]
        simp
      · rw [splitBlanks, if_neg hc, (ih [c]).1 p0 ps0 h0, splitOn, if_neg hc, h0]
        cases ps0 <;> simp [keepLast]

theorem splitBlanks_eq (s : Str) : splitBlanks false [] s = wordsOf s := by
  obtain ⟨p, ps, h1, h2⟩ := wordsOf_eq s
  rw [h2, (splitBlanks_spec s []).1 p ps h1]
  simp

theorem splitOn_length (d : Char) : ∀ s : Str, ((splitOn d s).length = 1 ↔ d ∉ s)
  | [] => by simp [splitOn]
  | c :: s => by
    obtain ⟨p0, ps0, h0⟩ := List.exists_cons_of_ne_nil (splitOn_ne_nil d s)
    have ih := splitOn_length d s
    rw [splitOn]
    split
    · rename_i h; subst h; simp [h0]
    · rename_i h
      rw [h0] at ih ⊢
      simp only [List.length_cons, List.mem_cons, not_or] at ih ⊢
      rw [ih]
      exact ⟨fun hd => ⟨fun e => h e.symm, hd⟩, fun hd => hd.2⟩

theorem keepLast_length : ∀ (l : List Str), l ≠ [] → 0 < (keepLast l).length
  | [], h => absurd rfl h
  | [q], _ => by simp [keepLast]
  | q :: r :: qs, _ => by
    rw [keepLast]
    split
    · exact keepLast_length _ (by simp)
    · simp

theorem wordsOf_length (s : Str) : (wordsOf s).length = 1 ↔ ' ' ∉ s := by
  obtain ⟨p, ps, h1, h2⟩ := wordsOf_eq s
  rw [h2, ← splitOn_length, h1]
  cases ps with
  | nil => simp [keepLast]
  | cons q ps =>
    have := keepLast_length (q :: ps) (by simp)
    simp only [List.length_cons]
    omega

theorem wordsOf_pos (s : Str) : 0 < (wordsOf s).length := by
  obtain ⟨p, ps, h1, h2⟩ := wordsOf_eq s
  rw [h2]; simp

/-! ### Binary numbers -/

/-- The lowest `k` bits, lowest first. -/
def bitsOf : Nat → Nat → List Bool
  | 0, _ => []
  | k + 1, i => decide (i % 2 = 1) :: bitsOf k (i / 2)

def ofBits : List Bool → Nat
  | [] => 0
  | b :: bs => (if b then 1 else 0) + 2 * ofBits bs

theorem bitsOf_length : ∀ k i, (bitsOf k i).length = k
  | 0, _ => rfl
  | k + 1, i => by simp [bitsOf, bitsOf_length k]

theorem bitsOf_ofBits : ∀ bs : List Bool, bitsOf bs.length (ofBits bs) = bs
  | [] => rfl
  | b :: bs => by
    rw [List.length_cons, bitsOf, ofBits]
    have e : ((if b then 1 else 0) + 2 * ofBits bs) / 2 = ofBits bs := by cases b <;> simp <;> omega
    rw [e, bitsOf_ofBits bs]
    cases b <;> simp <;> omega

theorem ofBits_bitsOf : ∀ k i, i < 2 ^ k → ofBits (bitsOf k i) = i
  | 0, i, h => by simp at h; simp [bitsOf, ofBits, h]
  | k + 1, i, h => by
    rw [bitsOf, ofBits, ofBits_bitsOf k (i / 2) (by rw [Nat.pow_succ] at h; omega)]
    by_cases h1 : i % 2 = 1 <;> simp [h1] <;> omega

theorem ofBits_lt : ∀ bs : List Bool, ofBits bs < 2 ^ bs.length
  | [] => by simp [ofBits]
  | b :: bs => by
    have := ofBits_lt bs
    rw [ofBits, List.length_cons, Nat.pow_succ]
    split <;> omega

theorem ofBits_pos : ∀ bs : List Bool, 0 < ofBits bs ↔ true ∈ bs
  | [] => by simp [ofBits]
  | b :: bs => by
    rw [ofBits, List.mem_cons, ← ofBits_pos bs]
    cases b <;> simp <;> omega

/-! ### The alternatives -/

namespace Tokenizer

/-- The number of multi-word tokens. -/
def multi (ts : List Token) : Nat := (ts.filter (fun t => ' ' ∈ t.text)).length

theorem multi_cons (t : Token) (ts : List Token) : multi (t :: ts) = (if ' ' ∈ t.text then 1 else 0) + multi ts := by
  simp only [multi, List.filter_cons]
  split <;> simp_all <;> omega

theorem countAlts_eq : ∀ (ts : List Token) (k : Nat), k + multi ts < 64 →
    countAlts (2 ^ k) (ts.map (fun t => (t, splitBlanks false [] t.text))) = 2 ^ (k + multi ts)
  | [], k, _ => by simp [countAlts, multi]
  | t :: ts, k, h => by
    rw [multi_cons] at h ⊢
    rw [List.map_cons, countAlts]
    simp only [splitBlanks_eq]
    have h1 := wordsOf_length t.text
    have h2 := wordsOf_pos t.text
    have ih := fun k h => countAlts_eq ts k h
    simp only [splitBlanks_eq] at ih
    by_cases hb : ' ' ∈ t.text
    · rw [if_pos hb] at h ⊢
      have : (wordsOf t.text).length > 1 := by
        have : (wordsOf t.text).length ≠ 1 := fun e => (h1.1 e) hb
        omega
      rw [if_pos this]
      have e : Token.u64 (2 ^ k * 2) = 2 ^ (k + 1) := by
        rw [Token.u64, ← Nat.pow_succ]
        exact Nat.mod_eq_of_lt (Nat.pow_lt_pow_right (by omega) (by omega))
      rw [e, ih (k + 1) (by omega)]
      congr 1; omega
    · rw [if_neg hb] at h ⊢
      have : ¬ (wordsOf t.text).length > 1 := by rw [h1.2 hb]; omega
      rw [if_neg this, ih k (by omega)]
      congr 1; omega

theorem altOne_eq (u : UTables) (l : Lexicon) (i : Nat) : ∀ (ts : List Token) (n : Nat), n + multi ts < 32 →
    altOne u l i n (ts.map (fun t => (t, splitBlanks false [] t.text))) =
      some (broken (wordToken u l) (bitsOf (multi ts) (i / 2 ^ n)) ts)
  | [], n, _ => by simp [altOne, broken]
  | t :: ts, n, h => by
    rw [multi_cons] at h ⊢
    rw [List.map_cons, altOne]
    simp only [splitBlanks_eq]
    have h1 := wordsOf_length t.text
    have ih := fun n h => altOne_eq u l i ts n h
    simp only [splitBlanks_eq] at ih
    by_cases hb : ' ' ∈ t.text
    · rw [if_pos hb] at h ⊢
      rw [if_neg (fun e => h1.1 e hb), if_neg (by omega), Nat.add_comm 1, bitsOf, broken, if_pos hb]
      simp only [List.head?_cons, Option.some.injEq, decide_eq_true_eq, List.tail_cons]
      have e : i / 2 ^ n / 2 = i / 2 ^ (n + 1) := by rw [Nat.div_div_eq_div_mul, Nat.pow_succ]
      rw [e, ih (n + 1) (by omega)]
      by_cases hbit : i / 2 ^ n % 2 = 0
      · rw [if_pos hbit, if_neg (by omega)]; rfl
      · rw [if_neg hbit, if_pos (by omega)]; rfl
    · rw [if_neg hb] at h ⊢
      rw [if_pos (h1.2 hb), broken, if_neg hb, Nat.zero_add, ih n (by omega)]
      rfl

end Tokenizer
end AS
