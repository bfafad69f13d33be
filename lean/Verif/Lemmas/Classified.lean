import Verif.Lemmas.Chars
import Verif.Props.Classify
import Verif.Props.TokenText
import Verif.Spec.Archive
/-
Every token of a token list was made by `classify`.
-/
namespace AS
open Tokenizer
variable {F D : Type}

/-- Made by `classify` from a token without class. -/
def FromClassify (u : UTables) (l : Lexicon) (t : Token) : Prop :=
  ∃ t0 d, t0.inclass = [] ∧ (d = .WORD ∨ d = .PUNCT) ∧ t = l.classify u t0 d

theorem ofText_inclass {s : Str} (h : AllOf (· ≠ '\t') s) : (Token.ofText s).inclass = [] := by
  have hs : splitOn '\t' s = [s] := splitOn_join '\t' [] s (by simpa using fun hm => h _ hm rfl)
  rw [Props.C72_token_text]
  unfold tokenOf tokenFields
  rw [hs]
  rfl

theorem wordToken_fc (u : UTables) (l : Lexicon) {s : Str} (h : AllOf (· ≠ '\t') s) : FromClassify u l (wordToken u l s) :=
  ⟨_, _, ofText_inclass h, Or.inl rfl, rfl⟩

theorem splitToken_fc (u : UTables) (l : Lexicon) (x : LexRe) {t : Token} (h : AllOf (· ≠ '\t') t.text) :
    ∀ t' ∈ splitToken u l x t, FromClassify u l t' := by
  intro t' ht'
  unfold splitToken at ht'
  simp only at ht'
  split at ht'
  · obtain ⟨w, hw, rfl⟩ := List.mem_map.1 ht'
    exact wordToken_fc u l (mixed_of (by decide) u h w hw)
  · obtain ⟨w, hw, rfl⟩ := List.mem_map.1 ht'
    have h1 := groups_of h ((prefix_cut u x t.text).imp id And.left)
    have h2 := groups_of h ((suffix_cut x t.text).imp id And.left)
    exact wordToken_fc u l (attached_of h h1.1 h1.2 h2.1 h2.2 w hw)

theorem trim_inclass (t : Token) (n : Int) : (t.trim n).inclass = t.inclass := by
  unfold Token.trim
  split <;> rfl

theorem roundTokens_fc (u : UTables) (l : Lexicon) (x : LexRe) {r : Round} (h : AllOf (· ≠ '\t') r.text) :
    ∀ t ∈ roundTokens u l x r, FromClassify u l t := by
  have hw : AllOf (· ≠ '\t') r.word := h.sub (fun c hc => by
    unfold Round.text; exact List.mem_append_left _ (List.mem_append_right _ hc))
  have hs : AllOf (· ≠ '\t') r.sep := h.sub (fun c hc => by unfold Round.text; exact List.mem_append_right _ hc)
  intro t ht
  unfold roundTokens at ht
  rcases List.mem_append.1 ht with ht | ht
  · split at ht
    · simp only at ht
      split at ht
      · rw [List.mem_singleton.1 ht]; exact wordToken_fc u l hw
      · split at ht
        · exact splitToken_fc u l x (wordToken_of (by decide) u l hw).1 t ht
        · rw [List.mem_singleton.1 ht]; exact wordToken_fc u l hw
    · cases ht
  · split at ht
    · rw [List.mem_singleton.1 ht]
      exact ⟨_, _, by rw [trim_inclass]; exact ofText_inclass hs, Or.inr rfl, rfl⟩
    · cases ht

theorem getTokens_fc {icu : Icu} {u : UTables} {l : Lexicon} {x : LexRe} {f : List InType} {str : Str}
    (h : AllOf (· ≠ '\t') (prepare icu l str)) {ts : List Token}
    (ht : getTokens icu u l x f str = some ts) : ∀ t ∈ ts, FromClassify u l t := by
  obtain ⟨qs, last, h1, h2⟩ := getTokens_spec icu u l x f str
  rw [ht] at h2
  injection h2 with h2
  intro t hm
  rw [h2] at hm
  obtain ⟨r, hr, hr'⟩ := List.mem_flatMap.1 (applyFilter_sub _ _ _ hm)
  refine roundTokens_fc u l x (h.sub (fun c hc => ?_)) t hr'
  rw [h1.text]
  exact List.mem_append_left _ (List.mem_flatMap.2 ⟨r, hr, hc⟩)

theorem altOne_fc (u : UTables) (l : Lexicon) (i : Nat) : ∀ (ts : List Token) (n : Nat) (r : List Token),
    (∀ t ∈ ts, FromClassify u l t ∧ AllOf (· ≠ '\t') t.text) →
    altOne u l i n (ts.map (fun t => (t, splitBlanks false [] t.text))) = some r → ∀ t ∈ r, FromClassify u l t
  | [], n, r, _, h => by
    simp only [List.map_nil, altOne, Option.some.injEq] at h
    subst h; intro t ht; cases ht
  | t :: ts, n, r, hall, h => by
    have ht := hall t (List.mem_cons_self ..)
    have hts := fun x hx => hall x (List.mem_cons_of_mem _ hx)
    have keep : ∀ m, (altOne u l i m (ts.map (fun t => (t, splitBlanks false [] t.text)))).map (t :: ·) = some r →
        ∀ t ∈ r, FromClassify u l t := by
      intro m h
      obtain ⟨r', hr', rfl⟩ := Option.map_eq_some_iff.1 h
      intro x hx
      rcases List.mem_cons.1 hx with rfl | hx
      · exact ht.1
      · exact altOne_fc u l i ts m r' hts hr' x hx
    rw [List.map_cons, altOne] at h
    split at h
    · exact keep _ h
    · split at h
      · cases h
      · split at h
        · exact keep _ h
        · obtain ⟨r', hr', rfl⟩ := Option.map_eq_some_iff.1 h
          intro x hx
          rcases List.mem_append.1 hx with hx | hx
          · obtain ⟨w, hw, rfl⟩ := List.mem_map.1 hx
            exact wordToken_fc u l (wordsOf_of ht.2 w hw)
          · exact altOne_fc u l i ts _ r' hts hr' x hx

theorem getAltTokens_fc {u : UTables} {l : Lexicon} {ts : List Token}
    (h : ∀ t ∈ ts, FromClassify u l t ∧ AllOf (· ≠ '\t') t.text)
    {alts : List (List Token)} (ha : getAltTokens u l ts = some alts) : ∀ a ∈ alts, ∀ t ∈ a, FromClassify u l t := by
  unfold getAltTokens at ha
  simp only at ha
  split at ha
  · injection ha with ha; subst ha; intro a h; cases h
  · split at ha
    · cases ha
    · intro a hm
      obtain ⟨i, _, e⟩ := mapM_some ha a hm
      exact altOne_fc u l i ts 0 a h e

/-- All token lists of an address without tabs. -/
theorem phrasesOf_fc {env : Wrapper.Env F D} (hk : IcuKeeps env.icu '\t') {l : Lexicon} {locale filter address : Str}
    (hn : '\t' ∉ address) {phrases : List (List Token)}
    (hp : Wrapper.phrasesOf env l locale filter address = .ok phrases) :
    ∀ phrase ∈ phrases, ∀ t ∈ phrase, FromClassify env.u l t := by
  have hprep : AllOf (· ≠ '\t') (env.icu.upper l.locale (env.icu.norm (env.icu.upper locale (env.icu.norm address)))) := by
    rintro _ hc rfl
    exact hk.upper _ _ (hk.norm _ (hk.upper _ _ (hk.norm _ hn))) hc
  unfold Wrapper.phrasesOf at hp
  simp only at hp
  split at hp
  · cases hp
  · next ts hts =>
    split at hp
    · cases hp
    · next alts halts =>
      injection hp with hp
      subst hp
      have h1 := getTokens_fc hprep hts
      have h2 := getTokens_of (P := (· ≠ '\t')) (by decide) (by decide) hprep hts
      intro phrase hm
      rcases List.mem_cons.1 hm with rfl | hm
      · exact h1
      · exact getAltTokens_fc (fun t ht => ⟨h1 t ht, (h2 t ht).1⟩) halts phrase hm

end AS
