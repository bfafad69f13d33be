import Verif.Lemmas.Split
import Verif.Props.Classify
import Verif.Props.Tokenizer
/-
Property C09: splitting attached words and mixed letters and digits.
-/
namespace AS.Props
open AS.Tokenizer

/-- Whatever the lexicon, a token without blanks is left alone or split into non-empty pieces that put
together give its text. -/
theorem C09_reassemble (u : UTables) (l : Lexicon) (x : LexRe) (t : Token) (h0 : t.text ≠ []) (hb : ' ' ∉ t.text) :
    ∃ pieces : List Str, splitToken u l x t = pieces.map (wordToken u l) ∧
      (pieces = [] ∨ (pieces.flatten = t.text ∧ ∀ p ∈ pieces, p ≠ [])) := by
  rw [splitToken]
  by_cases hm : t.isInClass .MIXED = true
  · rw [if_pos hm]
    exact ⟨_, rfl, Or.inr (mixedPieces_ok u h0 hb)⟩
  · rw [if_neg hm]
    exact ⟨_, rfl, attachedPieces_ok (prefix_cut u x t.text) (suffix_cut x t.text)⟩

theorem ofText_text {s : Str} (h : '\t' ∉ s) : (Token.ofText s).text = s := by
  have e : (IStream.ofStr s).getline '\t' [] = _ := getline_last '\t' s [] h
  rw [Token.ofText]
  simp only [e]
  split
  · rw [getline_bad _ _ _ rfl]
  · rfl

/-- A piece becomes a token with that text, unless it has a tab or is a decimal with a comma. -/
theorem wordToken_text (u : UTables) (l : Lexicon) {s : Str} (h : '\t' ∉ s) (hc : ',' ∉ s) :
    (wordToken u l s).text = s := by
  rw [wordToken]
  rcases C13_text u l (Token.ofText s) .WORD with e | ⟨_, _, _, a, b, _, e, _⟩
  · rw [e, ofText_text h]
  · rw [ofText_text h] at e
    exact absurd (by rw [e]; simp) hc

/-- So the texts of the new tokens, put together, are the text of the old one. -/
theorem C09_texts (u : UTables) (l : Lexicon) (x : LexRe) (t : Token) (h0 : t.text ≠ [])
    (hb : ∀ c ∈ t.text, c ≠ ' ' ∧ c ≠ '\t' ∧ c ≠ ',') :
    splitToken u l x t = [] ∨
    (((splitToken u l x t).map (·.text)).flatten = t.text ∧ ∀ p ∈ splitToken u l x t, p.text ≠ []) := by
  obtain ⟨pieces, e, h⟩ := C09_reassemble u l x t h0 (fun h => (hb _ h).1 rfl)
  rw [e]
  rcases h with rfl | ⟨h1, h2⟩
  · exact Or.inl rfl
  · right
    have htext : ∀ p ∈ pieces, (wordToken u l p).text = p := by
      intro p hp
      have hsub : ∀ c ∈ p, c ∈ t.text := fun c hc => by rw [← h1]; exact List.mem_flatten.2 ⟨p, hp, hc⟩
      exact wordToken_text u l (fun h => (hb _ (hsub _ h)).2.1 rfl) (fun h => (hb _ (hsub _ h)).2.2 rfl)
    constructor
    · rw [List.map_map, ← h1]
      congr 1
      conv => rhs; rw [← List.map_id pieces]
      exact List.map_congr_left htext
    · intro q hq
      rw [List.mem_map] at hq
      obtain ⟨p, hp, rfl⟩ := hq
      rw [htext p hp]; exact h2 p hp

/-- Where a token is split: by the longest prefix-attached word and the shortest suffix-attached word;
with both, by the prefix if they touch, in three if there is something between them, by the suffix if
they overlap; and not at all with neither. -/
theorem C09_attached (u : UTables) (l : Lexicon) (x : LexRe) (t : Token) (hl : PlainLexicon u l) (hx : x.For u l)
    (hm : InType.MIXED ∉ t.inclass) :
    (NoPrefix u (prefixWords l) t.text → NoSuffix (suffixWords l) t.text → splitToken u l x t = []) ∧
    (∀ a b, LongestPrefix u (prefixWords l) t.text a b → NoSuffix (suffixWords l) t.text →
      splitToken u l x t = [a, b].map (wordToken u l)) ∧
    (∀ c d, NoPrefix u (prefixWords l) t.text → ShortestSuffix (suffixWords l) t.text c d →
      splitToken u l x t = [c, d].map (wordToken u l)) ∧
    (∀ a b c d, LongestPrefix u (prefixWords l) t.text a b → ShortestSuffix (suffixWords l) t.text c d →
      (b = d → splitToken u l x t = [a, b].map (wordToken u l)) ∧
      (∀ m, m ≠ [] → t.text = a ++ m ++ d → splitToken u l x t = [a, m, d].map (wordToken u l)) ∧
      (t.text.length < a.length + d.length → splitToken u l x t = [c, d].map (wordToken u l))) := by
  have plain : ∀ p : LexEntry → Bool, ∀ w ∈ Lexicon.attachedWords p l.lex, ∀ c ∈ w, c ∉ unescaped := by
    intro p w hw c hc
    rw [mem_attachedWords, List.mem_map] at hw
    obtain ⟨e, he, rfl⟩ := hw
    exact (hl _ (List.mem_map.2 ⟨e, (List.mem_filter.1 he).1, rfl⟩) c hc).1
  have hpre := prefix_groups (u := u) (plain LexEntry.isPrefixAttached) hx.2.1 t.text
  have hsuf := suffix_groups (plain LexEntry.isSuffixAttached) hx.2.2 t.text
  have mp : ∀ w, w ∈ Lexicon.attachedWords LexEntry.isPrefixAttached l.lex ↔ w ∈ prefixWords l :=
    fun w => mem_attachedWords _ _ w
  have ms : ∀ w, w ∈ Lexicon.attachedWords LexEntry.isSuffixAttached l.lex ↔ w ∈ suffixWords l :=
    fun w => mem_attachedWords _ _ w
  simp only [NoPrefix, LongestPrefix, mp] at hpre
  simp only [NoSuffix, ShortestSuffix, ms] at hsuf
  rw [← NoPrefix, ← LongestPrefix] at hpre
  rw [← NoSuffix, ← ShortestSuffix] at hsuf
  have hsplit : splitToken u l x t = (attachedPieces t.text (groups (prefixRx u x) t.text).1
      (groups (prefixRx u x) t.text).2 (groups (suffixRx x) t.text).1 (groups (suffixRx x) t.text).2).map (wordToken u l) := by
    rw [splitToken, if_neg (by simpa [Token.isInClass] using hm)]
  generalize groups (prefixRx u x) t.text = g at hpre hsplit
  generalize groups (suffixRx x) t.text = k at hsuf hsplit
  -- the longest prefix and the shortest suffix are unique
  have up : ∀ a b, LongestPrefix u (prefixWords l) t.text a b → g = (a, b) := by
    intro a b h
    rcases hpre with ⟨hn, _⟩ | h'
    · exact absurd ⟨a, b, h.1⟩ hn
    · have hlen := Nat.le_antisymm (h.2 _ _ h'.1) (h'.2 _ _ h.1)
      obtain ⟨e1, e2⟩ := List.append_inj (h'.1.1.symm.trans h.1.1) hlen
      obtain ⟨g1, g2⟩ := g
      simp only at e1 e2; rw [e1, e2]
  have us : ∀ c d, ShortestSuffix (suffixWords l) t.text c d → k = (c, d) := by
    intro c d h
    rcases hsuf with ⟨hn, _⟩ | h'
    · exact absurd ⟨c, d, h.1⟩ hn
    · have hlen := Nat.le_antisymm (h'.2 _ _ h.1) (h.2 _ _ h'.1)
      obtain ⟨e1, e2⟩ := List.append_inj' (h'.1.1.symm.trans h.1.1) hlen
      obtain ⟨k1, k2⟩ := k
      simp only at e1 e2; rw [e1, e2]
  have np : NoPrefix u (prefixWords l) t.text → g = ([], []) := by
    intro hn
    rcases hpre with ⟨_, h⟩ | h
    · exact h
    · exact absurd ⟨_, _, h.1⟩ hn
  have ns : NoSuffix (suffixWords l) t.text → k.2 = [] := by
    intro hn
    rcases hsuf with ⟨_, h⟩ | h
    · exact h
    · exact absurd ⟨_, _, h.1⟩ hn
  have b0 : byteLen ([] : Str) = 0 := rfl
  refine ⟨?_, ?_, ?_, ?_⟩
  · intro h1 h2
    rw [hsplit, np h1, ns h2, attachedPieces]
    simp [b0]
  · intro a b h1 h2
    rw [hsplit, up a b h1, ns h2, attachedPieces, if_pos ((byteLen_pos a).2 h1.1.2.2.1), if_pos (Or.inl b0)]
  · intro c d h1 h2
    rw [hsplit, np h1, us c d h2, attachedPieces, if_neg (by simp [b0]), if_pos ((byteLen_pos d).2 h2.1.2.2.2)]
  · intro a b c d h1 h2
    have ha := (byteLen_pos a).2 h1.1.2.2.1
    have hd := (byteLen_pos d).2 h2.1.2.2.2
    have lab : byteLen t.text = byteLen a + byteLen b := by rw [h1.1.1, byteLen_append]
    rw [hsplit, up a b h1, us c d h2, attachedPieces, if_pos ha]
    simp only []
    refine ⟨?_, ?_, ?_⟩
    · intro e
      rw [if_pos (Or.inr (by rw [e]))]
    · intro m hm0 e
      have hmp := (byteLen_pos m).2 hm0
      have le : byteLen t.text = byteLen a + byteLen m + byteLen d := by rw [e, byteLen_append, byteLen_append]
      rw [if_neg (by omega), if_pos ⟨hd, by omega⟩]
      have : (t.text.drop a.length).take (t.text.length - a.length - d.length) = m := by
        rw [e]; simp
      rw [this]
    · intro hlen
      have key : byteLen t.text < byteLen a + byteLen d := by
        rcases cuts (h1.1.1.symm.trans h2.1.1) with ⟨m, e1, e2⟩ | ⟨m, e1, e2⟩
        · have h3 := congrArg List.length h2.1.1
          have h4 := congrArg List.length e1
          simp only [List.length_append] at h3 h4
          omega
        · have hm0 : m ≠ [] := by
            rintro rfl
            have h3 := congrArg List.length h1.1.1
            rw [List.nil_append] at e2
            rw [e2] at hlen
            simp only [List.length_append] at h3
            omega
          have hmp := (byteLen_pos m).2 hm0
          have : byteLen d = byteLen m + byteLen b := by rw [e2, byteLen_append]
          omega
      rw [if_neg (by omega), if_neg (by omega), if_pos ⟨hd, by omega⟩]

/-- One of these cases always applies. -/
theorem C09_cases (u : UTables) (l : Lexicon) (x : LexRe) (s : Str) (hl : PlainLexicon u l) (hx : x.For u l) :
    (NoPrefix u (prefixWords l) s ∨ ∃ a b, LongestPrefix u (prefixWords l) s a b) ∧
    (NoSuffix (suffixWords l) s ∨ ∃ c d, ShortestSuffix (suffixWords l) s c d) := by
  have plain : ∀ p : LexEntry → Bool, ∀ w ∈ Lexicon.attachedWords p l.lex, ∀ c ∈ w, c ∉ unescaped := by
    intro p w hw c hc
    rw [mem_attachedWords, List.mem_map] at hw
    obtain ⟨e, he, rfl⟩ := hw
    exact (hl _ (List.mem_map.2 ⟨e, (List.mem_filter.1 he).1, rfl⟩) c hc).1
  have hpre := prefix_groups (u := u) (plain LexEntry.isPrefixAttached) hx.2.1 s
  have hsuf := suffix_groups (plain LexEntry.isSuffixAttached) hx.2.2 s
  have mp : ∀ w, w ∈ Lexicon.attachedWords LexEntry.isPrefixAttached l.lex ↔ w ∈ prefixWords l :=
    fun w => mem_attachedWords _ _ w
  have ms : ∀ w, w ∈ Lexicon.attachedWords LexEntry.isSuffixAttached l.lex ↔ w ∈ suffixWords l :=
    fun w => mem_attachedWords _ _ w
  simp only [NoPrefix, LongestPrefix, mp] at hpre
  simp only [NoSuffix, ShortestSuffix, ms] at hsuf
  exact ⟨hpre.imp (·.1) (fun h => ⟨_, _, h⟩), hsuf.imp (·.1) (fun h => ⟨_, _, h⟩)⟩

/-- A word that mixes letters and digits is split between digits and one final letter, or between one
initial letter and digits, and is otherwise one piece. -/
theorem C09_mixed (u : UTables) (l : Lexicon) (x : LexRe) (t : Token) (hm : InType.MIXED ∈ t.inclass)
    (hw : ∀ c ∈ t.text, u.isWord c = true) :
    (∀ ds c, t.text = ds ++ [c] → RunOf u.digit ds → u.alpha c = true ∨ u.letter c = true →
      splitToken u l x t = [ds, [c]].map (wordToken u l)) ∧
    (∀ c ds, t.text = [c] ++ ds → RunOf u.digit ds → u.alpha c = true ∨ u.letter c = true →
      splitToken u l x t = [[c], ds].map (wordToken u l)) ∧
    ((¬ ∃ ds c, (t.text = ds ++ [c] ∨ t.text = [c] ++ ds) ∧ RunOf u.digit ds ∧
        (u.alpha c = true ∨ u.letter c = true)) → splitToken u l x t = [wordToken u l t.text]) := by
  have hs : splitToken u l x t = (mixedPieces u t.text).map (wordToken u l) := by
    rw [splitToken, if_pos (by simpa [Token.isInClass] using hm)]
  have hL : ∀ c, isLetter u c = true ↔ u.alpha c = true ∨ u.letter c = true := by
    intro c; rw [isLetter, Bool.or_eq_true]
  obtain ⟨h1, h2, h3⟩ := mixedPieces_eq u hw
  refine ⟨?_, ?_, ?_⟩
  · intro ds c e hd hc
    rw [hs, h1 ds c e hd ((hL c).2 hc)]
  · intro c ds e hd hc
    rw [hs, h2 c ds e hd ((hL c).2 hc)]
  · intro hno
    rw [hs, h3 (fun ⟨ds, c, e, hd, hc⟩ => hno ⟨ds, c, Or.inl e, hd, (hL c).1 hc⟩)
      (fun ⟨c, ds, e, hd, hc⟩ => hno ⟨ds, c, Or.inr e, hd, (hL c).1 hc⟩)]
    rfl

/-! ### Examples -/

/-- Attached words that touch, leave something between them, or overlap. -/
def attLexicon : Lexicon :=
  { lex := [(c!"HAUPT", [⟨c!"HAUPT", [], [.WORD], [.ATT_PRE]⟩]),
            (c!"HAUPTST", [⟨c!"HAUPTST", [], [.WORD], [.DET_PRE, .ATT_PRE]⟩]),
            (c!"STR", [⟨c!"STR", [], [.TYPE], [.ATT_SUF]⟩])] }

def attRe : LexRe :=
  { all := readOf ((trieOf (attLexicon.lex.map (·.1))).getRegexp.map asciiU.canon)
    pre := readOf (trieOf (Lexicon.attachedWords LexEntry.isPrefixAttached attLexicon.lex)).getRegexp
    suf := readOf (trieOf (Lexicon.attachedWords LexEntry.isSuffixAttached attLexicon.lex)).getRegexp }

theorem attRe_for : attRe.For asciiU attLexicon :=
  ⟨reads_readOf (by decide +kernel), reads_readOf (by decide +kernel), reads_readOf (by decide +kernel)⟩

theorem attPlain : PlainLexicon asciiU attLexicon := by unfold PlainLexicon; decide +kernel

example : PlainLexicon asciiU attLexicon ∧ attRe.For asciiU attLexicon ∧
    prefixWords attLexicon = [c!"HAUPT", c!"HAUPTST"] ∧ suffixWords attLexicon = [c!"STR"] ∧
    (splitToken asciiU attLexicon attRe { text := c!"HAUPTMANN" }).map (·.text) = [c!"HAUPT", c!"MANN"] ∧
    (splitToken asciiU attLexicon attRe { text := c!"GOETHESTR" }).map (·.text) = [c!"GOETHE", c!"STR"] ∧
    (splitToken asciiU attLexicon attRe { text := c!"HAUPTSTR" }).map (·.text) = [c!"HAUPT", c!"STR"] ∧
    (splitToken asciiU attLexicon attRe { text := c!"HAUPTMANNSTR" }).map (·.text) = [c!"HAUPT", c!"MANN", c!"STR"] ∧
    (splitToken asciiU attLexicon attRe { text := c!"GOETHE" }).map (·.text) = [] :=
  ⟨attPlain, attRe_for, by decide +kernel, by decide +kernel, by decide +kernel, by decide +kernel, by decide +kernel,
    by decide +kernel, by decide +kernel⟩

/-- `HAUPTST` and `STR` overlap in `HAUPTSTR`: the longest prefix is `HAUPTST`. -/
example : LongestPrefix asciiU (prefixWords attLexicon) c!"HAUPTSTR" c!"HAUPTST" c!"R" := by
  refine ⟨by decide +kernel, ?_⟩
  rintro a' b' ⟨_, h, _⟩
  have : ∀ w ∈ prefixWords attLexicon, w.length ≤ 7 := by decide +kernel
  exact this a' h

example : ShortestSuffix (suffixWords attLexicon) c!"HAUPTSTR" c!"HAUPT" c!"STR" := by
  refine ⟨by decide +kernel, ?_⟩
  rintro c' d' ⟨_, h, _⟩
  have : ∀ w ∈ suffixWords attLexicon, 3 ≤ w.length := by decide +kernel
  exact this d' h

example : (∀ c ∈ c!"500W", asciiU.isWord c = true) ∧ RunOf asciiU.digit c!"500" ∧ asciiU.alpha 'W' = true ∧
    (splitToken asciiU {} attRe { text := c!"500W", inclass := [.MIXED] }).map (·.text) = [c!"500", c!"W"] ∧
    (splitToken asciiU {} attRe { text := c!"N123", inclass := [.MIXED] }).map (·.text) = [c!"N", c!"123"] ∧
    (splitToken asciiU {} attRe { text := c!"K1A", inclass := [.MIXED] }).map (·.text) = [c!"K1A"] := by
  unfold RunOf; decide +kernel

end AS.Props
