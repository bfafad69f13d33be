import Verif.Lemmas.Trie
/-
Tries with the same words have the same pattern.
-/
namespace AS

/-- The words below a child. -/
def Kids.has (k : Kids) (c : Char) (w : Str) : Bool := ((k.find c).map (·.isWord w)).getD false

theorem find_lt {P : Char → Prop} {c d : Char} {t : Trie} {rest : Kids} (h : (Kids.cons d t rest).Ok P) (hc : c.toNat < d.toNat) :
    (Kids.cons d t rest).find c = none := by
  refine find_none_of_not_key fun hm => ?_
  rw [Kids.Ok] at h
  rcases List.mem_cons.1 hm with e | hm
  · rw [e] at hc; omega
  · have := h.2.2.2.1 c hm; omega

theorem has_live {P : Char → Prop} {d : Char} {t : Trie} {rest : Kids} (h : (Kids.cons d t rest).Ok P) :
    ∃ w, (Kids.cons d t rest).has d w = true := by
  rw [Kids.Ok] at h
  obtain ⟨w, hw⟩ := isPrefix_iff.live t h.2.1 h.2.2.1
  exact ⟨w, by simpa [Kids.has, Kids.find] using hw⟩

mutual
theorem regexp_canon {P : Char → Prop} : ∀ (t t' : Trie), t.Ok P → t'.Ok P → (∀ w, t.isWord w = t'.isWord w) →
    t.getRegexp = t'.getRegexp
  | .node e s k, .node e' s' k', h, h', hw => by
    rw [Trie.Ok] at h h'
    obtain ⟨h1, h2⟩ := regexps_canon k k' h h' (fun c w => by
      have := hw (c :: w)
      simp only [Trie.isWord, Trie.kids] at this
      unfold Kids.has
      cases h1 : k.find c <;> cases h2 : k'.find c <;> simp_all)
    have he : e = e' := hw []
    rw [Trie.getRegexp, Trie.getRegexp, h1, h2, he]
theorem regexps_canon {P : Char → Prop} : ∀ (k k' : Kids), k.Ok P → k'.Ok P → (∀ c w, k.has c w = k'.has c w) →
    k.regexps = k'.regexps ∧ k.count = k'.count
  | .nil, .nil, _, _, _ => ⟨rfl, rfl⟩
  | .nil, .cons d t rest, _, h', hw => by
    obtain ⟨w, h⟩ := has_live h'
    rw [← hw] at h
    cases h
  | .cons c t rest, .nil, h, _, hw => by
    obtain ⟨w, h⟩ := has_live h
    rw [hw] at h
    cases h
  | .cons c t rest, .cons d t' rest', h, h', hw => by
    have ecd : c = d := by
      obtain ⟨w, hl⟩ := has_live h
      obtain ⟨w', hl'⟩ := has_live h'
      by_cases h1 : c.toNat < d.toNat
      · rw [hw] at hl
        unfold Kids.has at hl
        rw [find_lt h' h1] at hl
        cases hl
      · by_cases h2 : d.toNat < c.toNat
        · rw [← hw] at hl'
          unfold Kids.has at hl'
          rw [find_lt h h2] at hl'
          cases hl'
        · exact char_toNat_inj (by omega)
    subst ecd
    rw [Kids.Ok] at h h'
    have ht : ∀ w, t.isWord w = t'.isWord w := fun w => by simpa [Kids.has, Kids.find] using hw c w
    have hr : ∀ x w, rest.has x w = rest'.has x w := by
      intro x w
      by_cases e : x = c
      · subst e
        have n1 : rest.find x = none := find_none_of_not_key fun hm => Nat.lt_irrefl _ (h.2.2.2.1 x hm)
        have n2 : rest'.find x = none := find_none_of_not_key fun hm => Nat.lt_irrefl _ (h'.2.2.2.1 x hm)
        simp [Kids.has, n1, n2]
      · have := hw x w
        simpa [Kids.has, Kids.find, Ne.symm e] using this
    have h1 := regexp_canon t t' h.2.1 h'.2.1 ht
    obtain ⟨h2, h3⟩ := regexps_canon rest rest' h.2.2.2.2 h'.2.2.2.2 hr
    rw [Kids.regexps, Kids.regexps, Kids.count, Kids.count, h1, h2, h3]
    exact ⟨rfl, rfl⟩
end

/-- The pattern depends on the set of words only. -/
theorem pattern_canon {words words' : List Str} (h : ∀ w, w ≠ [] → (w ∈ words ↔ w ∈ words')) :
    (trieOf words).getRegexp = (trieOf words').getRegexp := by
  obtain ⟨h1, _, h2, _⟩ := trieOf_spec (P := fun _ => True) words (fun _ _ _ _ => trivial)
  obtain ⟨h1', _, h2', _⟩ := trieOf_spec (P := fun _ => True) words' (fun _ _ _ _ => trivial)
  refine regexp_canon _ _ h1 h1' fun w => ?_
  have : (trieOf words).isWord w = true ↔ (trieOf words').isWord w = true := by
    rw [h2, h2']
    constructor
    · rintro ⟨h0, hm⟩; exact ⟨h0, (h w h0).1 hm⟩
    · rintro ⟨h0, hm⟩; exact ⟨h0, (h w h0).2 hm⟩
  cases e1 : (trieOf words).isWord w <;> cases e2 : (trieOf words').isWord w <;> simp_all

/-- Children that are all ends without children. -/
theorem flat_kids {P : Char → Prop} : ∀ (k : Kids), k.Ok P → (∀ c w, k.has c w = true → w = []) →
    k.regexps = ([], k.keys.map (fun c => quoteMeta [c])) ∧ ∀ c, c ∈ k.keys ↔ k.has c [] = true
  | .nil, _, _ => ⟨rfl, fun c => by simp [Kids.keys, Kids.has, Kids.find]⟩
  | .cons d t rest, h, hw => by
    have hrest : ∀ c, c ≠ d → ∀ w, (Kids.cons d t rest).has c w = rest.has c w := fun c e w => by
      simp [Kids.has, Kids.find, Ne.symm e]
    have hself : ∀ w, (Kids.cons d t rest).has d w = t.isWord w := fun w => by simp [Kids.has, Kids.find]
    rw [Kids.Ok] at h
    have hd : rest.find d = none := find_none_of_not_key fun hm => Nat.lt_irrefl _ (h.2.2.2.1 d hm)
    obtain ⟨h1, h2⟩ := flat_kids rest h.2.2.2.2 (fun c w hc => by
      by_cases e : c = d
      · subst e; simp [Kids.has, hd] at hc
      · exact hw c w (by rw [hrest c e]; exact hc))
    have hend : t.isEnd = true := by
      obtain ⟨w, hl⟩ := isPrefix_iff.live t h.2.1 h.2.2.1
      have := hw d w (by rw [hself]; exact hl)
      subst this
      exact hl
    have hkids : t.kids = .nil := by
      cases t with
      | node e s k =>
        cases k with
        | nil => rfl
        | cons x t' rest' =>
          have hk := h.2.1
          rw [Trie.Ok, Kids.Ok] at hk
          obtain ⟨w, hl⟩ := isPrefix_iff.live t' hk.2.1 hk.2.2.1
          have := hw d (x :: w) (by rw [hself]; simpa [Trie.isWord, Trie.kids, Kids.find] using hl)
          cases this
    have hre : t.getRegexp = [] := by
      cases t with
      | node e s k =>
        cases hkids
        cases hend
        simp [Trie.getRegexp, Kids.count]
    refine ⟨?_, fun c => ?_⟩
    · rw [Kids.regexps, hre, h1]
      rfl
    · rw [Kids.keys, List.mem_cons]
      by_cases e : c = d
      · subst e
        rw [hself]
        exact ⟨fun _ => by cases t; exact hend, fun _ => Or.inl rfl⟩
      · rw [hrest c e, ← h2]
        exact ⟨fun h => h.resolve_left e, Or.inr⟩

end AS
