import Verif.Lemmas.Choice
import Verif.Props.Rounds
/-
C70: how an address is split.
-/
namespace AS.Props
open Tokenizer

/-! ## C70 -/

/-- Every address splits in exactly one way into best readings, and its tokens are those of the words and separators of
that split, less the filtered ones. -/
theorem C70_split (icu : Icu) (u : UTables) (l : Lexicon) (x : LexRe) (filter : List InType) (str : Str)
    (hl : PlainLexicon u l) (hx : x.For u l) :
    ∃ (rs : List Round) (dropped : Str) (toks : List (List Token)),
      SplitsInto u (lexWords l) (icu.upper l.locale (icu.norm str)) rs dropped ∧
      (∀ rs' dropped', SplitsInto u (lexWords l) (icu.upper l.locale (icu.norm str)) rs' dropped' →
        rs' = rs ∧ dropped' = dropped) ∧
      getTokens icu u l x filter str = some (applyFilter filter toks.flatten) ∧
      toks.length = rs.length ∧
      ∀ (i : Nat) (r : Round) (ts : List Token), rs[i]? = some r → toks[i]? = some ts → Gives u l r.word r.sep ts := by
  obtain ⟨qs, last, h, e⟩ := getTokens_spec icu u l x filter str
  have hs := rounds_splits hl hx h
  refine ⟨qs, last, qs.map (roundTokens u l x), hs, fun _ _ h' => splitsInto_unique h' hs, ?_, by simp, ?_⟩
  · rw [e, List.flatMap_def]
  · intro i r ts hr ht
    rw [List.getElem?_map, hr] at ht
    simp only [Option.map_some, Option.some.injEq] at ht
    subst ht
    exact roundTokens_gives u l x r

/-- Where text is read, if after the blanks taken there stands a phrase of the lexicon, with a separator or the end of the
line behind it, then the token is a phrase of the lexicon, and none that could be read is longer. -/
theorem C70_longest_phrase (u : UTables) (words : List Str) (before s b w p r : Str)
    (h : BestAt u words before s b w p r) (w' p' r' : Str) (htext : s = b ++ w' ++ p' ++ r')
    (hdash : (w' ++ p' ++ r').head? ≠ some '—') (hphrase : w' ≠ []) (hword : w'.map u.canon ∈ words)
    (hsep : IsSeparator u p' ∨ (p' = [] ∧ LineEnd (before ++ b ++ w') r')) :
    w.map u.canon ∈ words ∧ w'.length ≤ w.length := by
  obtain ⟨k, h1, h2⟩ := h
  have hbest := h2 b .phrase w' p' r' ⟨h1.start, htext, h1.blanks, hdash, Or.inl ⟨hphrase, hword⟩, hsep⟩
  simp only [NotWorse, Nat.lt_irrefl, false_or, true_and] at hbest
  have hk : k = .phrase := by
    cases k <;> first | rfl | (simp [Kind.rank] at hbest)
  subst hk
  have hk := h1.kind
  simp only [Kind.Is, IsPhrase] at hk
  have hlen : w'.length ≤ w.length := by omega
  refine ⟨?_, hlen⟩
  rcases hk with hk | hk
  · exact hk.2
  · obtain ⟨_, rfl⟩ := hk
    have := List.length_pos_iff.2 hphrase
    simp at hlen
    exact absurd hlen hphrase

/-- A number followed by a separator or the end of the line is one token, unless a phrase of the lexicon or a decimal can be
read at its place. -/
theorem C70_whole_number (u : UTables) (words : List Str) (before s b w p r : Str)
    (h : BestAt u words before s b w p r) (w' p' r' : Str) (htext : s = b ++ w' ++ p' ++ r')
    (hdash : (w' ++ p' ++ r').head? ≠ some '—') (hnum : RunOf (fun c => u.digit (u.fold c)) w')
    (hsep : IsSeparator u p' ∨ (p' = [] ∧ LineEnd (before ++ b ++ w') r')) :
    IsPhrase u words w ∨
    (∃ a y c, w = a ++ [y] ++ c ∧ RunOf (fun c => u.digit (u.fold c)) a ∧ (y = '/' ∨ y = ',' ∨ y = '.') ∧
      RunOf (fun c => u.digit (u.fold c)) c) ∨
    (RunOf (fun c => u.digit (u.fold c)) w ∧ w' <+: w) := by
  obtain ⟨k, h1, h2⟩ := h
  have hbest := h2 b .number w' p' r' ⟨h1.start, htext, h1.blanks, hdash, hnum, hsep⟩
  simp only [NotWorse, Nat.lt_irrefl, false_or, true_and] at hbest
  have hk := h1.kind
  cases k with
  | phrase => exact Or.inl hk
  | decimal => exact Or.inr (Or.inl hk)
  | number =>
    refine Or.inr (Or.inr ⟨hk, ?_⟩)
    have e := h1.text.symm.trans htext
    simp only [List.append_assoc] at e
    have e := List.append_cancel_left e
    have hlen : w'.length ≤ w.length := by simp only [Nat.lt_irrefl, false_or, true_and] at hbest; omega
    exact List.prefix_of_prefix_length_le ⟨_, e.symm⟩ ⟨_, rfl⟩ hlen
  | word => simp [Kind.rank] at hbest
  | letters => simp [Kind.rank] at hbest
  | mixed => simp [Kind.rank] at hbest

/-! ### Examples -/

example : PlainLexicon asciiU townLexicon ∧ townRe.For asciiU townLexicon := ⟨townPlain, townRe_for⟩

/-- A best reading, from a match. -/
theorem best_of_run {before s w p r : Str}
    (h : ((tokenRx asciiU townRe).run ⟨before.reverse, s, []⟩).head?.map (fun m => (m.cap 1, m.cap 2, m.rest)) = some (w, p, r))
    (hs : s = w ++ p ++ r) : BestAt asciiU (lexWords townLexicon) before s [] w p r := by
  cases hm : ((tokenRx asciiU townRe).run ⟨before.reverse, s, []⟩).head? with
  | none => rw [hm] at h; cases h
  | some m =>
    rw [hm] at h
    simp only [Option.map_some, Option.some.injEq, Prod.mk.injEq] at h
    obtain ⟨rfl, rfl, rfl⟩ := h
    obtain ⟨b, hb⟩ := head_tokenRx townPlain townRe_for hm
    have : b = [] := by
      obtain ⟨_, hb', _⟩ := hb
      have e := congrArg List.length (hb'.text.symm.trans hs)
      simp only [List.length_append] at e
      exact List.eq_nil_of_length_eq_zero (by omega)
    subst this
    exact hb

/-- A phrase of two words, of which the first could be a token by itself. -/
example : BestAt asciiU (lexWords townLexicon) [] c!"NEW YORK STR" [] c!"NEW YORK" c!" " c!"STR" ∧
    c!"NEW YORK STR" = [] ++ c!"NEW YORK" ++ c!" " ++ c!"STR" ∧ c!"NEW YORK".map asciiU.canon ∈ lexWords townLexicon ∧
    IsSeparator asciiU c!" " ∧
    ReadAt asciiU (lexWords townLexicon) [] c!"NEW YORK STR" [] .word c!"NEW" c!" " c!"YORK STR" :=
  ⟨best_of_run (by decide +kernel) rfl, rfl, by decide +kernel, Or.inl ⟨by decide, by decide +kernel⟩,
    ⟨Or.inl rfl, rfl, by simp, by decide, ⟨⟨by decide, by decide +kernel⟩, ⟨by simp, _, rfl, by decide +kernel⟩,
      ⟨by rintro c h; cases h; decide +kernel, _, rfl, by decide +kernel⟩⟩, Or.inl (Or.inl ⟨by decide, by decide +kernel⟩)⟩⟩

/-- A number, of which the first digits could be a token if a separator followed. -/
example : BestAt asciiU (lexWords townLexicon) [] c!"123-5" [] c!"123" c!"-" c!"5" ∧
    c!"123-5" = [] ++ c!"123" ++ c!"-" ++ c!"5" ∧ RunOf (fun c => asciiU.digit (asciiU.fold c)) c!"123" ∧
    IsSeparator asciiU c!"-" :=
  ⟨best_of_run (by decide +kernel) rfl, rfl, ⟨by decide, by decide +kernel⟩, Or.inl ⟨by decide, by decide +kernel⟩⟩

end AS.Props
