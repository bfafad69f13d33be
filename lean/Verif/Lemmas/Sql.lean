import Verif.Model.Sql
import Verif.Lemmas.Wrapper
/-
Lemmas about value-per-call functions.
-/
namespace AS
namespace Sql
open Wrapper
variable {F D : Type}

/-- A call that sends the next row, or frees and is done. -/
def Sends {ρ τ : Type} (call : Ctx ρ → Option (Step τ × Ctx ρ)) (conv : ρ → τ) (free : Ctx ρ → Ctx ρ) (rows : List ρ) : Prop :=
  (∀ n r f, rows[n]? = some r → call ⟨n, rows.length, some rows, f⟩ = some (.next (conv r), ⟨n + 1, rows.length, some rows, f⟩)) ∧
  (∀ f, call ⟨rows.length, rows.length, some rows, f⟩ = some (.done, free ⟨rows.length, rows.length, some rows, f⟩))

theorem fetch_sends {ρ τ : Type} {call : Ctx ρ → Option (Step τ × Ctx ρ)} {conv : ρ → τ} {free : Ctx ρ → Ctx ρ} {rows : List ρ}
    (h : Sends call conv free rows) : ∀ (k n : Nat), n ≤ rows.length →
    fetch call k ⟨n, rows.length, some rows, 0⟩ = some (((rows.drop n).take k).map conv, decide (rows.length - n < k),
      if rows.length - n < k then free ⟨rows.length, rows.length, some rows, 0⟩
      else ⟨n + k, rows.length, some rows, 0⟩)
  | 0, n, hn => by simp [fetch]
  | k + 1, n, hn => by
    rw [fetch]
    by_cases hlt : n < rows.length
    · have hg : rows[n]? = some rows[n] := List.getElem?_eq_getElem hlt
      rw [h.1 n _ 0 hg]
      simp only
      rw [fetch_sends h k (n + 1) hlt, List.drop_eq_getElem_cons hlt]
      simp only [List.take_succ_cons, List.map_cons]
      by_cases hk : rows.length - (n + 1) < k
      · rw [if_pos hk, if_pos (by omega), decide_eq_true hk, decide_eq_true (by omega : rows.length - n < k + 1)]
      · rw [if_neg hk, if_neg (by omega), decide_eq_false hk, decide_eq_false (by omega : ¬ rows.length - n < k + 1)]
        rw [Nat.add_right_comm n 1 k, Nat.add_assoc n k 1]
    · have e : n = rows.length := by omega
      subst e
      rw [h.2 0]
      simp [List.drop_length]

theorem parseTokens_bounds (i : Nat) : ∀ (ts : List Token) (j : Nat), (∀ r ∈ (parseTokens i j ts).1, r.pat = i ∧ j ≤ r.seq ∧ r.seq < j + ts.length) ∧
    (parseTokens i j ts).2 = j + ts.length
  | [], j => by simp [parseTokens]
  | t :: ts, j => by
    obtain ⟨h1, h2⟩ := parseTokens_bounds i ts (j + 1)
    simp only [parseTokens]
    refine ⟨fun r hr => ?_, by rw [h2, List.length_cons]; omega⟩
    rcases List.mem_cons.1 hr with rfl | hr
    · simp
    · obtain ⟨a, b, c⟩ := h1 r hr
      rw [List.length_cons]
      exact ⟨a, by omega, by omega⟩

theorem parseLoop_bounds : ∀ (ps : List (List Token)) (i j : Nat), ∀ r ∈ parseLoop i j ps,
    r.pat < i + ps.length ∧ r.seq < j + ps.flatten.length
  | [], _, _ => by intro r hr; cases hr
  | ts :: ps, i, j => by
    intro r hr
    obtain ⟨h1, h2⟩ := parseTokens_bounds i ts j
    rw [parseLoop] at hr
    simp only [List.length_cons, List.flatten_cons, List.length_append]
    rcases List.mem_append.1 hr with hr | hr
    · obtain ⟨a, _, b⟩ := h1 r hr
      omega
    · rw [h2] at hr
      obtain ⟨a, b⟩ := parseLoop_bounds ps (i + 1) _ r hr
      omega

/-- A row of `as_parse`. -/
def tupleOf (r : ParseRow) : ParseTuple :=
  { pat := r.pat + 1, seq := r.seq + 1, word := r.word, inclass := r.inclass, attached := r.attached }

theorem parseCall_sends {rows : List ParseRow} (hb : ∀ r ∈ rows, r.pat + 1 < 2 ^ 31 ∧ r.seq + 1 < 2 ^ 31) :
    Sends parseCall tupleOf tokensFree rows := by
  refine ⟨fun n r f hn => ?_, fun f => ?_⟩
  · have hlt : n < rows.length := by
      rcases Nat.lt_or_ge n rows.length with h | h
      · exact h
      · rw [List.getElem?_eq_none h] at hn; cases hn
    obtain ⟨h1, h2⟩ := hb r (List.mem_of_getElem? hn)
    simp only [parseCall, if_pos hlt, hn]
    rw [if_neg (by omega)]
    rfl
  · simp [parseCall]

/-- A row of `as_match` as declared. -/
def colsOf (r : MatchRow D) : List (Col D) := [.text r.tokens, .float8 r.score]

theorem matchCall_sends (rows : List (MatchRow D)) : Sends (matchCall matchColumns) colsOf mtokensFree rows := by
  refine ⟨fun n r f hn => ?_, fun f => ?_⟩
  · have hlt : n < rows.length := by
      rcases Nat.lt_or_ge n rows.length with h | h
      · exact h
      · rw [List.getElem?_eq_none h] at hn; cases hn
    simp only [matchCall, if_pos hlt, hn]
    rw [if_neg (by decide)]
    rfl
  · simp [matchCall]

end Sql
end AS
