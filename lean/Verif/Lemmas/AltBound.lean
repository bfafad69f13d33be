import Verif.Lemmas.Agree
import Verif.Lemmas.Split
import Verif.Props.TokenText
import Verif.Spec.AltBound
/-
How many tokens can have a blank in their text, and what becomes of more than 31 of them.
-/
namespace AS
open Tokenizer

theorem blanksIn_append (a b : Str) : blanksIn (a ++ b) = blanksIn a + blanksIn b := by
  simp [blanksIn]

theorem blanksIn_flatten : ∀ ps : List Str, blanksIn ps.flatten = (ps.map blanksIn).sum
  | [] => rfl
  | p :: ps => by rw [List.flatten_cons, blanksIn_append, blanksIn_flatten ps]; rfl

theorem blanksIn_pos {s : Str} {c : Char} (h : c ∈ s) (hc : c ∈ blankChars) : 0 < blanksIn s := by
  unfold blanksIn
  rw [List.length_pos_iff]
  exact List.ne_nil_of_mem (List.mem_filter.2 ⟨h, by simpa using hc⟩)

theorem blanksIn_zero {s : Str} (h : blanksIn s = 0) : ∀ c ∈ s, c ∉ blankChars := fun _ hc hb =>
  absurd (blanksIn_pos hc hb) (by omega)

theorem blanksIn_firstComma : ∀ s : Str, blanksIn (firstComma s) = blanksIn s
  | [] => rfl
  | c :: s => by
    rw [firstComma]
    split
    · next h => subst h; rfl
    · have := blanksIn_firstComma s
      unfold blanksIn at this ⊢
      simp only [List.filter_cons]
      split <;> simp [this]

/-- At most so many blanks, and at least one allowed. -/
theorem closed_blanks (n : Nat) : TextClosed (fun s => blanksIn s ≤ n + 1) where
  nil := by simp [blanksIn]
  blank := by have : blanksIn c!" " = 1 := by decide
              omega
  sub a b c h := by rw [blanksIn_append, blanksIn_append] at h; omega
  comma s h := by rw [blanksIn_firstComma]; exact h

theorem tokenOf_text {P : Char → Prop} (hdot : P '.') (u : UTables) (l : Lexicon) {s : Str} (h : AllOf P s) :
    AllOf P (wordToken u l s).text := (wordToken_of hdot u l h).1

theorem wordToken_blanks (u : UTables) (l : Lexicon) (s : Str) : blanksIn (wordToken u l s).text ≤ blanksIn s := by
  rcases Nat.eq_zero_or_pos (blanksIn s) with h | h
  · have := tokenOf_text (P := fun c => c ∉ blankChars) (by decide) u l (blanksIn_zero h)
    have e : blanksIn (wordToken u l s).text = 0 := by
      unfold blanksIn
      rw [List.length_eq_zero_iff, List.filter_eq_nil_iff]
      intro c hc
      simpa using this c hc
    omega
  · obtain ⟨n, hn⟩ : ∃ n, blanksIn s = n + 1 := ⟨blanksIn s - 1, by omega⟩
    have := AS.wordToken_text (closed_blanks n) u l (s := s) (by rw [hn]; exact Nat.le_refl _)
    omega

theorem multi_append (a b : List Token) : multi (a ++ b) = multi a + multi b := by simp [multi]

theorem multi_flatMap {α : Type} (f : α → List Token) (g : α → Nat) : ∀ (L : List α), (∀ x ∈ L, multi (f x) ≤ g x) →
    multi (L.flatMap f) ≤ (L.map g).sum
  | [], _ => by simp [multi]
  | x :: L, h => by
    rw [List.flatMap_cons, multi_append, List.map_cons, List.sum_cons]
    have h1 := h x List.mem_cons_self
    have h2 := multi_flatMap f g L (fun y hy => h y (List.mem_cons_of_mem _ hy))
    omega

theorem multi_one {t : Token} {n : Nat} (h : ' ' ∈ t.text → 0 < n) : multi [t] ≤ n := by
  rw [multi_cons]
  split
  · have := h ‹_›; simp [multi]; omega
  · simp [multi]

theorem multi_pieces (u : UTables) (l : Lexicon) (ps : List Str) : multi (ps.map (wordToken u l)) ≤ blanksIn ps.flatten := by
  rw [blanksIn_flatten]
  have e : ps.map (wordToken u l) = ps.flatMap (fun p => [wordToken u l p]) := by
    rw [List.map_eq_flatMap]
  rw [e]
  refine multi_flatMap _ _ ps (fun p _ => multi_one (fun h => ?_))
  have := blanksIn_pos h (by decide)
  have := wordToken_blanks u l p
  omega

theorem splitToken_multi (u : UTables) (l : Lexicon) (x : LexRe) (t : Token) :
    multi (splitToken u l x t) ≤ blanksIn t.text := by
  rw [splitToken]
  simp only
  split
  · have : multi ((mixedPieces u t.text).map (wordToken u l)) = 0 := by
      unfold multi
      rw [List.length_eq_zero_iff, List.filter_eq_nil_iff]
      intro t' ht'
      obtain ⟨p, hp, rfl⟩ := List.mem_map.1 ht'
      have hp := (wordsOf_parts hp).1
      have := tokenOf_text (P := fun c => c ≠ ' ') (by decide) u l (s := p) (fun c hc e => hp (e ▸ hc))
      simp only [decide_eq_true_eq]
      exact fun h => this _ h rfl
    omega
  · refine Nat.le_trans (multi_pieces u l _) ?_
    rcases attachedPieces_ok (prefix_cut u x t.text) (suffix_cut x t.text) with h | ⟨h, _⟩
    · rw [h]; simp [blanksIn]
    · rw [h]; exact Nat.le_refl _

theorem sep_multi (u : UTables) (l : Lexicon) (s : Str) :
    multi [l.classify u ((Token.ofText s).trim 3) .PUNCT] ≤ blanksIn s := by
  refine multi_one (fun h => ?_)
  rcases Nat.eq_zero_or_pos (blanksIn s) with h0 | h0
  · exfalso
    have h1 := ofText_of (P := fun c => c ∉ blankChars) (blanksIn_zero h0)
    obtain ⟨v, hv, hc⟩ := Props.C72_trim (Token.ofText s) 3
    have h2 : AllOf (fun c => c ∉ blankChars) v := by
      rcases hc with ⟨_, rfl⟩ | ⟨hne, hall, _⟩ | ⟨a, b, e, _⟩
      · intro c hc; cases hc
      · obtain ⟨c, hc⟩ := List.exists_mem_of_ne_nil _ hne
        exact absurd (hall c hc) (h1.1 c hc)
      · intro c hc
        exact h1.1 c (by rw [e]; simp [hc])
    have h3 := classify_of (P := fun c => c ∉ blankChars) (by decide) u l (t := (Token.ofText s).trim 3)
      (by rw [hv]; exact ⟨h2, h1.2⟩) .PUNCT
    exact h3.1 _ h (by decide)
  · exact h0

theorem round_multi (u : UTables) (l : Lexicon) (x : LexRe) (r : Round) :
    multi (roundTokens u l x r) ≤ blanksIn r.text := by
  rw [roundTokens, multi_append]
  have hw : multi (if r.word ≠ [] then
      if (wordToken u l r.word).inlex then [wordToken u l r.word]
      else
        if (splitToken u l x (wordToken u l r.word)).length > 0 then splitToken u l x (wordToken u l r.word)
        else [wordToken u l r.word]
    else []) ≤ blanksIn r.word := by
    have hb := wordToken_blanks u l r.word
    have one : multi [wordToken u l r.word] ≤ blanksIn r.word := multi_one (fun h => by
      have := blanksIn_pos h (by decide); omega)
    split
    · split
      · exact one
      · split
        · exact Nat.le_trans (splitToken_multi u l x _) hb
        · exact one
    · simp [multi]
  have hs : multi (if r.sep ≠ [] then [l.classify u ((Token.ofText r.sep).trim 3) .PUNCT] else []) ≤ blanksIn r.sep := by
    split
    · exact sep_multi u l r.sep
    · simp [multi]
  unfold Round.text
  simp only [blanksIn_append] at hw hs ⊢
  omega

theorem multi_filter (f : List InType) : ∀ ts : List Token, multi (applyFilter f ts) ≤ multi ts
  | [] => Nat.le_refl _
  | t :: ts => by
    have := multi_filter f ts
    rw [applyFilter]
    split
    · rw [multi_cons, multi_cons]; omega
    · rw [multi_cons]; omega

theorem countAlts_le : ∀ (ts : List Token) (k : Nat), 64 ≤ k + multi ts → k < 64 →
    countAlts (2 ^ k) (ts.map (fun t => (t, splitBlanks false [] t.text))) = 0
  | [], k, h, hk => by simp [multi] at h; omega
  | t :: ts, k, h, hk => by
    rw [multi_cons] at h
    rw [List.map_cons, countAlts]
    simp only [splitBlanks_eq]
    have h1 := wordsOf_length t.text
    have h2 := wordsOf_pos t.text
    have ih := countAlts_le ts
    simp only [splitBlanks_eq] at ih
    by_cases hb : ' ' ∈ t.text
    · rw [if_pos hb] at h
      have : (wordsOf t.text).length > 1 := by
        have : (wordsOf t.text).length ≠ 1 := fun e => (h1.1 e) hb
        omega
      rw [if_pos this]
      by_cases h63 : k = 63
      · subst h63
        have : Token.u64 (2 ^ 63 * 2) = 0 := by decide
        rw [this]
        generalize ts.map (fun t => (t, wordsOf t.text)) = as
        clear ih h
        induction as with
        | nil => rfl
        | cons a as ih =>
          rw [countAlts]
          split
          · exact ih
          · exact ih
      · have e : Token.u64 (2 ^ k * 2) = 2 ^ (k + 1) := by
          rw [Token.u64, ← Nat.pow_succ]
          exact Nat.mod_eq_of_lt (Nat.pow_lt_pow_right (by omega) (by omega))
        rw [e]
        exact ih (k + 1) (by omega) (by omega)
    · rw [if_neg hb] at h
      have : ¬ (wordsOf t.text).length > 1 := by rw [h1.2 hb]; omega
      rw [if_neg this]
      exact ih k (by omega) hk

theorem altOne_none (u : UTables) (l : Lexicon) (i : Nat) : ∀ (ts : List Token) (n : Nat), 32 ≤ n + multi ts → n < 32 →
    altOne u l i n (ts.map (fun t => (t, splitBlanks false [] t.text))) = none
  | [], n, h, hn => by simp [multi] at h; omega
  | t :: ts, n, h, hn => by
    rw [multi_cons] at h
    rw [List.map_cons, altOne]
    simp only [splitBlanks_eq]
    have h1 := wordsOf_length t.text
    have ih := altOne_none u l i ts
    simp only [splitBlanks_eq] at ih
    by_cases hb : ' ' ∈ t.text
    · rw [if_pos hb] at h
      rw [if_neg (fun e => h1.1 e hb)]
      split
      · rfl
      · rw [ih (n + 1) (by omega) (by omega)]
        simp
    · rw [if_neg hb] at h
      rw [if_pos (h1.2 hb), ih n (by omega) hn]
      rfl

/-- With 32 or more it is undefined. -/
theorem altTokens_none (u : UTables) (l : Lexicon) (ts : List Token) (h : 32 ≤ multi ts) : getAltTokens u l ts = none := by
  rw [getAltTokens]
  by_cases h64 : multi ts < 64
  · have e := countAlts_eq ts 0 (by omega)
    rw [Nat.pow_zero, Nat.zero_add] at e
    rw [e]
    have hp : 2 ^ 32 ≤ 2 ^ multi ts := Nat.pow_le_pow_right (by omega) h
    rw [if_neg (by omega), if_neg (by omega)]
    obtain ⟨k, hk⟩ : ∃ k, 2 ^ multi ts - 1 = k + 1 := ⟨2 ^ multi ts - 2, by omega⟩
    rw [hk, List.range'_succ, List.mapM_cons, altOne_none u l 1 ts 0 (by omega) (by omega)]
    rfl
  · have e := countAlts_le ts 0 (by omega) (by omega)
    rw [Nat.pow_zero] at e
    rw [e, if_neg (by omega), if_pos rfl]

end AS
