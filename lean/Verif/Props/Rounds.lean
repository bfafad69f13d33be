import Verif.Props.Split
import Verif.Props.Tokenizer
/-
Property C11: the tokens made from the words and separators.
-/
namespace AS.Props
open AS AS.Tokenizer

theorem ofText_plain {s : Str} (h : '\t' ∉ s) : Token.ofText s = { text := s } := by
  have e : (IStream.ofStr s).getline '\t' [] = _ := getline_last '\t' s [] h
  rw [Token.ofText]
  simp only [e]
  split
  · rw [getline_bad _ _ _ rfl, getline_bad _ _ _ rfl, getline_bad _ _ _ rfl, getline_bad _ _ _ rfl, getline_bad _ _ _ rfl]
    rfl
  · rw [getline_bad _ _ _ rfl, getline_bad _ _ _ rfl, getline_bad _ _ _ rfl, getline_bad _ _ _ rfl]
    rfl

theorem isTrimmed_iff (c : Char) : Token.isTrimmed c = true ↔ c ∈ blankChars := by
  simp [Token.isTrimmed, blankChars, or_assoc]
  grind

theorem dropWhile_parts {α : Type} (p : α → Bool) : ∀ s : List α, ∃ a, s = a ++ s.dropWhile p ∧ (∀ c ∈ a, p c = true) ∧
    (s.dropWhile p = [] ∨ ∃ c, (s.dropWhile p).head? = some c ∧ p c = false)
  | [] => ⟨[], rfl, by simp, Or.inl rfl⟩
  | c :: s => by
    by_cases h : p c = true
    · obtain ⟨a, h1, h2, h3⟩ := dropWhile_parts p s
      rw [List.dropWhile_cons_of_pos h]
      refine ⟨c :: a, by rw [List.cons_append, ← h1], fun d hd => ?_, h3⟩
      rcases List.mem_cons.1 hd with rfl | hd
      · exact h
      · exact h2 d hd
    · rw [List.dropWhile_cons_of_neg h]
      exact ⟨[], rfl, by simp, Or.inr ⟨c, rfl, by simpa using h⟩⟩

theorem trim_trimmed {s : Str} (hs : s ≠ []) : ∃ v, (({ text := s } : Token).trim 3) = { text := v } ∧ Trimmed s v := by
  have hlen : 0 < s.length := List.length_pos_iff.2 hs
  obtain ⟨a, h1, h2, h3⟩ := dropWhile_parts Token.isTrimmed s
  obtain ⟨b, g1, g2, g3⟩ := dropWhile_parts Token.isTrimmed (s.dropWhile Token.isTrimmed).reverse
  have e : (({ text := s } : Token).trim 3) = { text := if ((s.dropWhile Token.isTrimmed).reverse.dropWhile Token.isTrimmed).reverse.length = 0
      then c!" " else ((s.dropWhile Token.isTrimmed).reverse.dropWhile Token.isTrimmed).reverse } := by
    unfold Token.trim
    simp [hlen]
  refine ⟨_, e, ?_⟩
  by_cases hz : ((s.dropWhile Token.isTrimmed).reverse.dropWhile Token.isTrimmed) = []
  · rw [if_pos (by rw [hz]; rfl)]
    left
    refine ⟨fun c hc => ?_, rfl⟩
    rw [← isTrimmed_iff]
    rw [hz, List.append_nil] at g1
    rw [h1] at hc
    rcases List.mem_append.1 hc with hc | hc
    · exact h2 c hc
    · exact g2 c (by rw [← g1]; exact List.mem_reverse.2 hc)
  · rw [if_neg (by simpa using hz)]
    right
    have hd : s.dropWhile Token.isTrimmed = ((s.dropWhile Token.isTrimmed).reverse.dropWhile Token.isTrimmed).reverse ++ b.reverse := by
      have := congrArg List.reverse g1
      rwa [List.reverse_reverse, List.reverse_append] at this
    refine ⟨a, b.reverse, by rw [List.append_assoc, ← hd]; exact h1, fun c hc => ?_, ?_, ?_⟩
    · rw [← isTrimmed_iff]
      rcases List.mem_append.1 hc with hc | hc
      · exact h2 c hc
      · exact g2 c (List.mem_reverse.1 hc)
    · rcases h3 with h3 | ⟨c, h3, h4⟩
      · rw [h3] at hz; exact absurd rfl hz
      · refine ⟨c, ?_, fun hb => by rw [(isTrimmed_iff c).2 hb] at h4; cases h4⟩
        rw [hd] at h3
        obtain ⟨y, ys, hy⟩ := List.exists_cons_of_ne_nil
          (show ((s.dropWhile Token.isTrimmed).reverse.dropWhile Token.isTrimmed).reverse ≠ [] by simpa using hz)
        rw [hy] at h3 ⊢
        exact h3
    · rcases g3 with g3 | ⟨c, g3, g4⟩
      · exact absurd g3 hz
      · exact ⟨c, by rw [List.getLast?_reverse]; exact g3, fun hb => by rw [(isTrimmed_iff c).2 hb] at g4; cases g4⟩

theorem classify_inlex (u : UTables) (l : Lexicon) (w : Str) (d : InType) :
    (l.classify u { text := w } d).inlex = true ↔ Listed l w := by
  constructor
  · intro h
    refine Classical.byContradiction fun hn => ?_
    have : ∀ e ∈ l.find w, e.type = [] := fun e he => Classical.byContradiction fun h => hn ⟨e, he, h⟩
    rw [(C13_by_shape u l { text := w } d rfl this).2] at h
    cases h
  · rintro ⟨e, he, ht⟩
    obtain ⟨c, cs, hc⟩ := List.exists_cons_of_ne_nil ht
    rw [(C13_in_lexicon u l { text := w } d ⟨c, Or.inr ⟨e, he, by rw [hc]; exact List.mem_cons_self ..⟩⟩).2]

theorem roundTokens_gives (u : UTables) (l : Lexicon) (x : LexRe) (r : Round) :
    Gives u l r.word r.sep (roundTokens u l x r) := by
  have hword : ∀ {w : Str}, '\t' ∉ w → wordToken u l w = l.classify u { text := w } .WORD := by
    intro w h
    rw [wordToken, ofText_plain h]
  unfold roundTokens
  refine ⟨_, _, rfl, ?_, ?_, ?_, ?_, ?_⟩
  · intro h; rw [if_neg (fun hn => hn h)]
  · intro hw ht hl
    rw [if_pos hw]
    simp only
    rw [hword ht, if_pos ((classify_inlex ..).2 hl)]
  · intro hw ht hb
    rw [if_pos hw]
    simp only
    rw [hword ht]
    by_cases hl : Listed l r.word
    · rw [if_pos ((classify_inlex ..).2 hl)]
      refine ⟨[r.word], by simp, by simpa using hw, Or.inl (by simp), rfl⟩
    · rw [if_neg (fun h => hl ((classify_inlex ..).1 h))]
      have htext := C13_text u l { text := r.word } .WORD
      have hsame : SameButComma r.word (l.classify u { text := r.word } .WORD).text := by
        rcases htext with h | ⟨_, _, _, a, b, _, h1, h2⟩
        · exact Or.inl h
        · exact Or.inr ⟨a, b, h1, h2⟩
      have hmem : ∀ c ∈ (l.classify u { text := r.word } .WORD).text, c ∈ r.word ∨ c = '.' := by
        rcases hsame with h | ⟨a, b, h1, h2⟩
        · rw [h]; exact fun c hc => Or.inl hc
        · rw [h2, h1]
          intro c hc
          simp only [List.mem_append, List.mem_singleton] at hc ⊢
          rcases hc with (hc | hc) | hc
          · exact Or.inl (Or.inl (Or.inl hc))
          · exact Or.inr hc
          · exact Or.inl (Or.inr hc)
      have hne : (l.classify u { text := r.word } .WORD).text ≠ [] := by
        rcases hsame with h | ⟨a, b, h1, h2⟩
        · rw [h]; exact hw
        · rw [h2]; simp
      have hnb : ' ' ∉ (l.classify u { text := r.word } .WORD).text := fun h =>
        (hmem _ h).elim hb (fun h => by cases h)
      obtain ⟨pieces, h1, h2⟩ := C09_reassemble u l x _ hne hnb
      rcases h2 with rfl | ⟨h2, h3⟩
      · rw [h1]
        refine ⟨[r.word], by simp, by simpa using hw, Or.inl (by simp), rfl⟩
      · have hp0 : pieces ≠ [] := by
          rintro rfl
          exact hne h2.symm
        rw [h1, if_pos (by rw [List.length_map]; exact List.length_pos_iff.2 hp0)]
        refine ⟨pieces, hp0, h3, by rw [h2]; exact hsame, List.map_congr_left fun p hp => hword fun h => ?_⟩
        rcases hmem _ (by rw [← h2]; exact List.mem_flatten.2 ⟨p, hp, h⟩) with h | h
        · exact ht h
        · cases h
  · intro h; rw [if_neg (fun hn => hn h)]
  · intro hs ht
    rw [if_pos hs, ofText_plain ht]
    obtain ⟨v, h1, h2⟩ := trim_trimmed hs
    exact ⟨v, h2, by rw [h1]⟩

/-- The tokens are those the words and the separators of the rounds give, in order, less the filtered ones; the rounds
account for a beginning of the text in upper case. -/
theorem C11_tokens (icu : Icu) (u : UTables) (l : Lexicon) (x : LexRe) (filter : List InType) (str : Str) :
    ∃ (rs : List (Round × List Token)) (dropped : Str),
      getTokens icu u l x filter str = some (applyFilter filter (rs.flatMap (·.2))) ∧
      icu.upper l.locale (icu.norm str) = rs.flatMap (fun r => r.1.skipped ++ r.1.blanks ++ r.1.word ++ r.1.sep) ++ dropped ∧
      (∀ r ∈ rs, Gives u l r.1.word r.1.sep r.2 ∧ r.1.word ++ r.1.sep ++ r.1.skipped ++ r.1.blanks ≠ [] ∧
        (∀ c ∈ r.1.blanks, u.isSpace c = true) ∧
        (r.1.skipped = [] ∨ ∃ c, r.1.skipped.getLast? = some c ∧ lineSeparator c = true) ∧
        (IsSeparator u r.1.sep ∨ (r.1.sep = [] ∧ dropped = [] ∧ rs.getLast? = some r))) := by
  obtain ⟨rs, dropped, h1, h2, h3⟩ := C11_consecutive icu u l x filter str
  refine ⟨rs.map (fun r => (r, roundTokens u l x r)), dropped, ?_, ?_, ?_⟩
  · rw [h1, List.flatMap_map]
  · rw [h2, List.flatMap_map]; rfl
  · intro p hp
    obtain ⟨r, hr, rfl⟩ := List.mem_map.1 hp
    obtain ⟨g1, g2, g3, g4⟩ := h3 r hr
    refine ⟨roundTokens_gives u l x r, fun h => g1 ?_, g2, g3, g4.imp id (fun ⟨e1, e2, e3⟩ => ⟨e1, e2, ?_⟩)⟩
    · simp only [List.append_eq_nil_iff] at h
      simp [Round.text, h]
    · rw [List.getLast?_map, e3]; rfl

example : ∃ rs : List (Round × List Token),
    rs.map (fun r => (r.1.word, r.1.sep, r.2.map (·.text))) =
      [(c!"12", c!"  ", [c!"12", c!" "]), (c!"1,5", c!" - ", [c!"1.5", c!"-"]), (c!"HAUPTSTR", [], [c!"HAUPT", c!"STR"])] ∧
    ∀ r ∈ rs, r.1.word ≠ [] ∧ '\t' ∉ r.1.word ∧ ' ' ∉ r.1.word ∧ '\t' ∉ r.1.sep ∧
      r.2 = roundTokens asciiU attLexicon attRe r.1 :=
  ⟨[(⟨[], [], c!"12", c!"  "⟩, roundTokens asciiU attLexicon attRe ⟨[], [], c!"12", c!"  "⟩),
    (⟨[], [], c!"1,5", c!" - "⟩, roundTokens asciiU attLexicon attRe ⟨[], [], c!"1,5", c!" - "⟩),
    (⟨[], [], c!"HAUPTSTR", []⟩, roundTokens asciiU attLexicon attRe ⟨[], [], c!"HAUPTSTR", []⟩)], by decide +kernel, by
    intro r hr
    simp only [List.mem_cons, List.not_mem_nil, or_false] at hr
    rcases hr with rfl | rfl | rfl
    · exact ⟨by decide, by decide, by decide, by decide, rfl⟩
    · exact ⟨by decide, by decide, by decide, by decide, rfl⟩
    · exact ⟨by decide, by decide, by decide, by decide, rfl⟩⟩

end AS.Props
