import Verif.Spec.Token
/-
Lemmas about `Token::enumerate`: mixed radix arithmetic.
-/
namespace AS

theorem length_flatMap_const {α β : Type} (m : Nat) (f : α → List β) :
    ∀ (s : List α), (∀ x ∈ s, (f x).length = m) → (s.flatMap f).length = s.length * m
  | [], _ => by simp
  | x :: xs, h => by
    rw [List.flatMap_cons, List.length_append,
      length_flatMap_const m f xs (fun y hy => h y (List.mem_cons_of_mem _ hy)), h x (List.mem_cons_self ..),
      List.length_cons, Nat.add_mul]
    omega

theorem getElem?_flatMap_const {α β : Type} (m : Nat) (hm : 0 < m) (f : α → List β) :
    ∀ (s : List α) (k : Nat), (∀ x ∈ s, (f x).length = m) →
      (s.flatMap f)[k]? = s[k / m]?.bind (fun x => (f x)[k % m]?)
  | [], k, _ => by simp
  | x :: xs, k, h => by
    rw [List.flatMap_cons]
    have hx : (f x).length = m := h x (List.mem_cons_self ..)
    by_cases hk : k < m
    · rw [List.getElem?_append_left (by omega), Nat.div_eq_of_lt hk, Nat.mod_eq_of_lt hk]
      simp
    · rw [List.getElem?_append_right (by omega), hx,
        getElem?_flatMap_const m hm f xs _ (fun y hy => h y (List.mem_cons_of_mem _ hy))]
      have h1 : k / m = (k - m) / m + 1 := by
        rw [Nat.div_eq_sub_div hm (by omega)]
      have h2 : k % m = (k - m) % m := Nat.mod_eq_sub_mod (by omega)
      rw [h1, h2, List.getElem?_cons_succ]

theorem length_cart {α : Type} : ∀ ss : List (List α), (cart ss).length = sizeProd ss
  | [] => rfl
  | s :: ss => by
    rw [cart, length_flatMap_const (sizeProd ss)]
    · rfl
    · intro x _; rw [List.length_map, length_cart ss]

theorem mem_cart {α : Type} : ∀ (ss : List (List α)) (p : List α),
    p ∈ cart ss ↔ Picks p ss
  | [], p => by
    constructor
    · intro h
      have : p = [] := by simpa [cart] using h
      subst this; exact .nil
    · intro h; cases h; simp [cart]
  | s :: ss, p => by
    simp only [cart, List.mem_flatMap, List.mem_map]
    constructor
    · rintro ⟨x, hx, q, hq, rfl⟩
      exact .cons hx ((mem_cart ss q).1 hq)
    · intro h
      cases h with
      | cons hx hq => exact ⟨_, hx, _, (mem_cart ss _).2 hq, rfl⟩

theorem nodup_cart {α : Type} : ∀ (ss : List (List α)), (∀ s ∈ ss, s.Nodup) → (cart ss).Nodup
  | [], _ => by simp [cart]
  | s :: ss, h => by
    have ih := nodup_cart ss (fun t ht => h t (List.mem_cons_of_mem _ ht))
    have hs := h s (List.mem_cons_self ..)
    rw [cart]
    unfold List.Nodup at *
    rw [List.pairwise_flatMap]
    constructor
    · intro x _
      rw [List.pairwise_map]
      exact ih.imp (fun hne e => hne (List.cons.inj e).2)
    · refine hs.imp ?_
      intro a b hab p hp q hq
      obtain ⟨_, _, rfl⟩ := List.mem_map.1 hp
      obtain ⟨_, _, rfl⟩ := List.mem_map.1 hq
      intro e; exact hab (List.cons.inj e).1

theorem mapM_range_eq {α : Type} (g : Nat → Option α) : ∀ (l : List α) (start : Nat),
    (∀ i < l.length, g (start + i) = l[i]?) →
    (List.range' start l.length).mapM g = some l
  | [], _, _ => rfl
  | x :: xs, start, h => by
    rw [List.length_cons, List.range'_succ, List.mapM_cons]
    have h0 := h 0 (by simp)
    simp only [Nat.add_zero, List.getElem?_cons_zero] at h0
    rw [h0, mapM_range_eq g xs (start + 1)]
    · rfl
    · intro i hi
      have := h (i + 1) (by simp; omega)
      rw [List.getElem?_cons_succ] at this
      rw [← this]; congr 1; omega

theorem mapM_some_getElem? {α β : Type} (g : α → Option β) : ∀ (xs : List α) (ys : List β),
    xs.mapM g = some ys → ∀ (i : Nat) (x : α), xs[i]? = some x → ys[i]? = g x
  | [], _, _, i, x, hx => by simp at hx
  | a :: as, ys, h, i, x, hx => by
    rw [List.mapM_cons] at h
    cases hg : g a with
    | none => rw [hg] at h; cases h
    | some b =>
      rw [hg] at h
      cases hr : as.mapM g with
      | none => rw [hr] at h; cases h
      | some bs =>
        rw [hr] at h
        have hy : ys = b :: bs := by
          have : some (b :: bs) = some ys := h
          exact (Option.some.inj this).symm
        subst hy
        cases i with
        | zero =>
          simp only [List.getElem?_cons_zero, Option.some.injEq] at hx ⊢
          subst hx; exact hg.symm
        | succ i =>
          simp only [List.getElem?_cons_succ] at hx ⊢
          exact mapM_some_getElem? g as bs hr i x hx

theorem patLt_cart : ∀ (ss : List (List InType)), (∀ s ∈ ss, IsSet InType.code s) →
    (cart ss).Pairwise PatLt
  | [], _ => by simp [cart]
  | s :: ss, h => by
    have ih := patLt_cart ss (fun t ht => h t (List.mem_cons_of_mem _ ht))
    have hs := h s (List.mem_cons_self ..)
    rw [cart, List.pairwise_flatMap]
    constructor
    · intro x _
      rw [List.pairwise_map]
      exact ih.imp (fun hlt => .tail hlt)
    · refine List.Pairwise.imp ?_ hs
      intro a b hab p hp q hq
      obtain ⟨_, _, rfl⟩ := List.mem_map.1 hp
      obtain ⟨_, _, rfl⟩ := List.mem_map.1 hq
      exact .head hab

namespace Token

theorem u64_id {n : Nat} (h : n < 2 ^ 64) : u64 n = n := Nat.mod_eq_of_lt h

theorem countCombos_eq : ∀ (ts : List Token) (c : Nat),
    (c * sizeProd (ts.map inclass) < 2 ^ 64) → countCombos c ts = c * sizeProd (ts.map inclass)
  | [], c, _ => by simp [countCombos, sizeProd]
  | t :: ts, c, h => by
    simp only [countCombos, sizeProd, List.map_cons, inSize] at *
    by_cases hz : sizeProd (ts.map inclass) = 0
    · rw [countCombos_eq ts _ (by rw [hz]; simp), hz]; simp
    · have hle : c * t.inclass.length ≤ c * (t.inclass.length * sizeProd (ts.map inclass)) :=
        Nat.mul_le_mul (Nat.le_refl c) (Nat.le_mul_of_pos_right _ (Nat.pos_of_ne_zero hz))
      rw [u64_id (by omega), countCombos_eq ts _ (by rw [Nat.mul_assoc]; exact h), Nat.mul_assoc]

theorem enumOne_eq (cnt i : Nat) (hi : i * cnt < 2 ^ 64) (hc : cnt < 2 ^ 64) (hpos : 0 < cnt) :
    ∀ (ts : List Token) (num : Nat), cnt = num * sizeProd (ts.map inclass) →
      enumOne cnt i num ts = (cart (ts.map inclass))[i % sizeProd (ts.map inclass)]?
  | [], num, h => by simp [enumOne, cart, sizeProd, Nat.mod_one]
  | t :: ts, num, h => by
    simp only [List.map_cons, sizeProd] at h
    generalize hr : sizeProd (ts.map inclass) = r at h
    have hn : 0 < num := Nat.pos_of_ne_zero (fun e => by rw [e] at h; omega)
    have hl : 0 < t.inclass.length * r := Nat.pos_of_ne_zero (fun e => by rw [e] at h; omega)
    have hrp : 0 < r := Nat.pos_of_ne_zero (fun e => by rw [e] at hl; omega)
    have hlen : 0 < t.inclass.length := Nat.pos_of_ne_zero (fun e => by rw [e] at hl; omega)
    have hcnt : cnt = num * t.inclass.length * r := by rw [h, Nat.mul_assoc]
    have hle : num * t.inclass.length ≤ cnt := by rw [hcnt]; exact Nat.le_mul_of_pos_right _ hrp
    have hnum : u64 (num * t.inclass.length) = num * t.inclass.length := u64_id (by omega)
    have hprod : u64 (i * (num * t.inclass.length)) = i * (num * t.inclass.length) :=
      u64_id (Nat.lt_of_le_of_lt (Nat.mul_le_mul (Nat.le_refl i) hle) hi)
    have hdiv : i * (num * t.inclass.length) / cnt = i / r := by
      rw [hcnt, Nat.mul_comm i]
      exact Nat.mul_div_mul_left _ _ (Nat.mul_pos hn hlen)
    have ih := enumOne_eq cnt i hi hc hpos ts (num * t.inclass.length) (by rw [hr, hcnt])
    simp only [enumOne, inSize]
    rw [hnum, hprod, hdiv, ih, hr]
    simp only [List.map_cons, cart, sizeProd]
    rw [hr, getElem?_flatMap_const r hrp _ _ _ (by intro x _; rw [List.length_map, length_cart, hr])]
    have hk1 : i % (t.inclass.length * r) / r = i / r % t.inclass.length := by
      rw [Nat.mul_comm, Nat.mod_mul_right_div_self]
    have hk2 : i % (t.inclass.length * r) % r = i % r := Nat.mod_mul_left_mod ..
    rw [hk1, hk2]
    cases t.inclass[i / r % t.inclass.length]? with
    | none => rfl
    | some x =>
      simp only [Option.bind_some, List.getElem?_map]
      cases (cart (ts.map inclass))[i % r]? <;> rfl

theorem enumerate_eq (ts : List Token) (h : sizeProd (ts.map inclass) < 2 ^ 32) :
    enumerate ts = some (cart (ts.map inclass)) := by
  have hc : countCombos 1 ts = sizeProd (ts.map inclass) := by
    rw [countCombos_eq ts 1 (by rw [Nat.one_mul]; omega), Nat.one_mul]
  simp only [enumerate, hc]
  rw [← length_cart, List.range_eq_range']
  refine mapM_range_eq _ _ 0 ?_
  intro i hi
  rw [length_cart] at *
  have h2 : i * sizeProd (ts.map inclass) < 2 ^ 64 := by
    calc i * sizeProd (ts.map inclass) ≤ 2 ^ 32 * sizeProd (ts.map inclass) :=
          Nat.mul_le_mul (by omega) (Nat.le_refl _)
      _ < 2 ^ 32 * 2 ^ 32 := Nat.mul_lt_mul_of_pos_left h (by decide)
      _ = 2 ^ 64 := by decide
  rw [Nat.zero_add, enumOne_eq _ i h2 (by omega) (by omega) ts 1 (by rw [Nat.one_mul]),
    Nat.mod_eq_of_lt hi]

end Token
end AS
