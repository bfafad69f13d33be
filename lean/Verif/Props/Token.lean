import Verif.Lemmas.Token
/-
Properties C06 and C07: enumerating the class combinations of a token list.
-/
namespace AS.Props

/-- A token with the given classes; used in examples and witnesses. -/
def tokenWith (cs : List InType) : Token := { inclass := cs }

/-! ## C06 -/

/-- The enumeration runs without undefined behaviour and is the lexicographic product. -/
theorem C06_enumerate_is_product (ts : List Token) (h : sizeProd (ts.map (·.inclass)) < 2 ^ 32) :
    Token.enumerate ts = some (cart (ts.map (·.inclass))) := Token.enumerate_eq ts h

example : sizeProd ([tokenWith [.NUMBER, .WORD], tokenWith [.TYPE, .CITY, .PROV]].map (·.inclass)) < 2 ^ 32 ∧
    Token.enumerate [tokenWith [.NUMBER, .WORD], tokenWith [.TYPE, .CITY, .PROV]] =
      some [[.NUMBER, .TYPE], [.NUMBER, .CITY], [.NUMBER, .PROV], [.WORD, .TYPE], [.WORD, .CITY], [.WORD, .PROV]] := by
  decide

/-- A pattern is enumerated iff it picks one class of each token; there are as many as the product
of the class counts, and they come strictly increasing in lexicographic order, so none twice. -/
theorem C06_enumerate_exact (ts : List Token) (h : sizeProd (ts.map (·.inclass)) < 2 ^ 32)
    (hset : ∀ t ∈ ts, IsSet InType.code t.inclass) :
    ∃ ps, Token.enumerate ts = some ps ∧ (∀ p, p ∈ ps ↔ Picks p (ts.map (·.inclass))) ∧
      ps.length = sizeProd (ts.map (·.inclass)) ∧ ps.Pairwise PatLt ∧ ps.Nodup := by
  have hset' : ∀ s ∈ ts.map (·.inclass), IsSet InType.code s := by
    intro s hs
    obtain ⟨t, ht, rfl⟩ := List.mem_map.1 hs
    exact hset t ht
  refine ⟨_, Token.enumerate_eq ts h, fun p => mem_cart _ p, length_cart _, patLt_cart _ hset', ?_⟩
  refine nodup_cart _ (fun s hs => (hset' s hs).imp ?_)
  intro a b hab e
  rw [e] at hab; omega

example : (∀ t ∈ [tokenWith [.NUMBER, .WORD], tokenWith [.TYPE, .CITY, .PROV]], IsSet InType.code t.inclass) := by
  intro t ht
  simp only [List.mem_cons, List.not_mem_nil, or_false] at ht
  rcases ht with rfl | rfl <;> simp [tokenWith, IsSet, InType.code]

/-! ## C07 -/

/-- 64 tokens with two classes each: 2^64 combinations exist, none is enumerated. -/
theorem C07_overflow_empty :
    sizeProd ((List.replicate 64 (tokenWith [.NUMBER, .WORD])).map (·.inclass)) = 2 ^ 64 ∧
    Token.enumerate (List.replicate 64 (tokenWith [.NUMBER, .WORD])) = some [] := by
  refine ⟨by decide +kernel, ?_⟩
  have h : Token.countCombos 1 (List.replicate 64 (tokenWith [.NUMBER, .WORD])) = 0 := by decide +kernel
  simp only [Token.enumerate, h]
  rfl

/-- Already between 2^32 and 2^64 combinations the machine arithmetic picks wrong classes: for 21
tokens with three classes each the enumeration is not the lexicographic product. -/
theorem C07_overflow_wrong :
    sizeProd ((List.replicate 21 (tokenWith [.NUMBER, .WORD, .TYPE])).map (·.inclass)) < 2 ^ 34 ∧
    Token.enumerate (List.replicate 21 (tokenWith [.NUMBER, .WORD, .TYPE])) ≠
      some (cart ((List.replicate 21 (tokenWith [.NUMBER, .WORD, .TYPE])).map (·.inclass))) := by
  refine ⟨by decide +kernel, fun h => ?_⟩
  have hc : Token.countCombos 1 (List.replicate 21 (tokenWith [.NUMBER, .WORD, .TYPE])) = 3 ^ 21 := by
    decide +kernel
  simp only [Token.enumerate, hc] at h
  have h1 := mapM_some_getElem? _ _ _ h (3 ^ 21 - 1) (3 ^ 21 - 1) (by simp)
  have hlast : ∀ n : Nat, (cart ((List.replicate n (tokenWith [.NUMBER, .WORD, .TYPE])).map (·.inclass)))[3 ^ n - 1]?
      = some (List.replicate n .TYPE) := by
    intro n
    induction n with
    | zero => rfl
    | succ n ih =>
      rw [List.replicate_succ, List.map_cons, cart]
      have hp : 0 < 3 ^ n := Nat.pow_pos (by decide)
      have hlen : sizeProd ((List.replicate n (tokenWith [InType.NUMBER, .WORD, .TYPE])).map (·.inclass)) = 3 ^ n := by
        clear ih hp
        induction n with
        | zero => rfl
        | succ n ih => rw [List.replicate_succ, List.map_cons, sizeProd, ih, Nat.pow_succ, Nat.mul_comm]; rfl
      rw [getElem?_flatMap_const (3 ^ n) hp _ _ _ (by intro x _; rw [List.length_map, length_cart, hlen])]
      have e1 : (3 ^ (n + 1) - 1) / 3 ^ n = 2 := by
        have : 3 ^ (n + 1) - 1 = (3 ^ n - 1) + 2 * 3 ^ n := by rw [Nat.pow_succ]; omega
        rw [this, Nat.add_mul_div_right _ _ hp, Nat.div_eq_of_lt (by omega)]
      have e2 : (3 ^ (n + 1) - 1) % 3 ^ n = 3 ^ n - 1 := by
        have : 3 ^ (n + 1) - 1 = (3 ^ n - 1) + 2 * 3 ^ n := by rw [Nat.pow_succ]; omega
        rw [this, Nat.add_mul_mod_self_right, Nat.mod_eq_of_lt (by omega)]
      rw [e1, e2]
      have : (tokenWith [InType.NUMBER, .WORD, .TYPE]).inclass[2]? = some .TYPE := rfl
      rw [this, Option.bind_some, List.getElem?_map, ih]
      rfl
  rw [hlast 21] at h1
  revert h1
  decide +kernel

/-- Below 2^32 the number of patterns is exact. -/
theorem C07_exact_below (ts : List Token) (h : sizeProd (ts.map (·.inclass)) < 2 ^ 32) :
    ∃ ps, Token.enumerate ts = some ps ∧ ps.length = sizeProd (ts.map (·.inclass)) :=
  ⟨_, Token.enumerate_eq ts h, length_cart _⟩

example : sizeProd ((List.replicate 31 (tokenWith [.NUMBER, .WORD])).map (·.inclass)) < 2 ^ 32 := by
  decide +kernel

end AS.Props
