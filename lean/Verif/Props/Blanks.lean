import Verif.Lemmas.Blanks
import Verif.Props.Agree
import Verif.Props.Choice
/-
C71: case of an address, and blanks around it.
-/
namespace AS.Props
open AS AS.Tokenizer AS.Wrapper
variable {F D : Type}

theorem tokens_split {icu : Icu} {u : UTables} {l : Lexicon} {x : LexRe} (hl : PlainLexicon u l) (hx : x.For u l)
    {str : Str} {rs : List Round} {last : Str} (filter : List InType)
    (h : SplitsInto u (lexWords l) (icu.upper l.locale (icu.norm str)) rs last) :
    getTokens icu u l x filter str = some (applyFilter filter (rs.flatMap (roundTokens u l x))) := by
  obtain ⟨qs, last', h', e⟩ := getTokens_spec icu u l x filter str
  rw [e, (splitsInto_unique (rounds_splits hl hx h') h).1]

theorem dropWhile_all {α : Type} {p : α → Bool} : ∀ {s : List α}, (∀ c ∈ s, p c = true) → s.dropWhile p = []
  | [], _ => rfl
  | c :: s, h => by
    rw [List.dropWhile_cons_of_pos (h c (List.mem_cons_self ..))]
    exact dropWhile_all fun d hd => h d (List.mem_cons_of_mem _ hd)

theorem trim_blanks {p b : Str} (hp : p ≠ []) (hb : ∀ c ∈ b, c = ' ') :
    (({ text := p ++ b } : Token).trim 3) = ({ text := p } : Token).trim 3 := by
  have ht : ∀ c ∈ b, Token.isTrimmed c = true := fun c hc => by rw [hb c hc]; decide
  have ht' : ∀ c ∈ b.reverse, Token.isTrimmed c = true := fun c hc => ht c (List.mem_reverse.1 hc)
  have h1 : 0 < p.length := List.length_pos_iff.2 hp
  have h2 : 0 < (p ++ b).length := by rw [List.length_append]; omega
  have e : (((p ++ b).dropWhile Token.isTrimmed).reverse.dropWhile Token.isTrimmed) =
      ((p.dropWhile Token.isTrimmed).reverse.dropWhile Token.isTrimmed) := by
    rw [List.dropWhile_append]
    split
    · next h =>
      have h : p.dropWhile Token.isTrimmed = [] := by simpa using h
      rw [h, dropWhile_all ht]
    · rw [List.reverse_append, List.dropWhile_append, dropWhile_all ht']
      rfl
  have key : ∀ s : Str, 0 < s.length → (({ text := s } : Token).trim 3) =
      { text := if ((s.dropWhile Token.isTrimmed).reverse.dropWhile Token.isTrimmed).reverse.length = 0 then c!" "
        else ((s.dropWhile Token.isTrimmed).reverse.dropWhile Token.isTrimmed).reverse } := by
    intro s h
    unfold Token.trim
    simp [h]
  rw [key _ h1, key _ h2, e]

theorem sep_mem {u : UTables} {words : List Str} {s last : Str} {rs : List Round} (h : SplitsInto u words s rs last) :
    ∀ r ∈ rs, ∀ c ∈ r.sep, c ∈ s := by
  induction h with
  | stop => intro r hr; cases hr
  | @round a t b w p r last rs _ _ hb _ ih =>
    obtain ⟨k, hb, _⟩ := hb
    intro q hq c hc
    rw [hb.text]
    rcases List.mem_cons.1 hq with rfl | hq
    · simp only [List.mem_append]; simp only at hc; simp [hc]
    · have := ih q hq c hc; simp [this]

theorem applyFilter_append (f : List InType) : ∀ a b : List Token, applyFilter f (a ++ b) = applyFilter f a ++ applyFilter f b
  | [], _ => rfl
  | t :: a, b => by
    rw [List.cons_append, applyFilter, applyFilter, applyFilter_append f a b]
    split <;> rfl

/-! ## C71 -/

/-- Blanks before the prepared text of an address change no token, if no word of the lexicon begins with a blank. -/
theorem C71_leading_tokens (icu : Icu) (u : UTables) (l : Lexicon) (x : LexRe) (filter : List InType) (str str' b : Str)
    (hl : PlainLexicon u l) (hx : x.For u l) (hw : NoBlankFirst u (lexWords l)) (hb : ∀ c ∈ b, u.isSpace c = true)
    (htext : icu.upper l.locale (icu.norm str') = b ++ icu.upper l.locale (icu.norm str)) :
    getTokens icu u l x filter str' = getTokens icu u l x filter str := by
  obtain ⟨rs, last, h, e⟩ := getTokens_spec icu u l x filter str
  obtain ⟨rs', last', h', hp⟩ := splits_leading hw hb (rounds_splits hl hx h)
  rw [e]
  rw [show prepare icu l str = icu.upper l.locale (icu.norm str) from rfl, ← htext] at h'
  rw [tokens_split hl hx filter h', roundTokens_parts u l x hp]

/-- Spaces behind the prepared text of an address add at most one token, that of a single space, if no word of the lexicon
ends with a blank (and the text has no tabs). -/
theorem C71_trailing_tokens (icu : Icu) (u : UTables) (l : Lexicon) (x : LexRe) (filter : List InType) (str str' b : Str)
    (hl : PlainLexicon u l) (hx : x.For u l) (hw : NoBlankLast u (lexWords l)) (hb : ∀ c ∈ b, c = ' ')
    (htab : '\t' ∉ icu.upper l.locale (icu.norm str))
    (htext : icu.upper l.locale (icu.norm str') = icu.upper l.locale (icu.norm str) ++ b) :
    ∃ ts, getTokens icu u l x filter str = some ts ∧
      (getTokens icu u l x filter str' = some ts ∨
      getTokens icu u l x filter str' = some (ts ++ applyFilter filter [l.classify u { text := c!" " } .PUNCT])) := by
  obtain ⟨rs, last, h, e⟩ := getTokens_spec icu u l x filter str
  have hs := rounds_splits hl hx h
  obtain ⟨rs', last', h', hp⟩ := splits_trailing hw hb hs
  refine ⟨_, e, ?_⟩
  rw [show prepare icu l str = icu.upper l.locale (icu.norm str) from rfl, ← htext] at h'
  rw [tokens_split hl hx filter h']
  rcases hp with rfl | ⟨pre, r, rfl, rfl⟩
  · exact Or.inl rfl
  by_cases hb0 : b = []
  · left; rw [hb0]; simp
  have hsep : '\t' ∉ r.sep := fun hc => htab (sep_mem hs r (by simp) _ hc)
  have hsepb : '\t' ∉ r.sep ++ b := by
    intro hc
    rcases List.mem_append.1 hc with hc | hc
    · exact hsep hc
    · exact absurd (hb _ hc) (by decide)
  have htabb : '\t' ∉ b := fun hc => hsepb (List.mem_append_right _ hc)
  by_cases h0 : r.sep = []
  · right
    have key : roundTokens u l x { r with sep := r.sep ++ b } =
        roundTokens u l x r ++ [l.classify u { text := c!" " } .PUNCT] := by
      unfold roundTokens
      have ht : (({ text := b } : Token).trim 3) = { text := c!" " } := by
        have hb1 : b.dropWhile Token.isTrimmed = [] :=
          dropWhile_all fun c hc => by rw [hb c hc]; decide
        have : 0 < b.length := List.length_pos_iff.2 hb0
        unfold Token.trim
        simp [this, hb1]
      simp only [h0, List.nil_append, ne_eq, hb0, not_false_eq_true, if_true, not_true_eq_false, if_false]
      rw [ofText_plain htabb, ht]
      simp
    rw [List.flatMap_append, List.flatMap_append, List.flatMap_singleton, List.flatMap_singleton, key, ← List.append_assoc,
      applyFilter_append]
  · left
    have key : roundTokens u l x { r with sep := r.sep ++ b } = roundTokens u l x r := by
      unfold roundTokens
      simp only
      rw [ofText_plain hsepb, ofText_plain hsep, trim_blanks h0 hb,
        if_pos (show r.sep ++ b ≠ [] by simp [h0]), if_pos h0]
    rw [List.flatMap_append, List.flatMap_append, List.flatMap_singleton, List.flatMap_singleton, key]

/-- Results are the same if the tokens are. -/
theorem same_of_tokens {env : Env F D} {text : Str} {address address' locale filter : Str}
    (h : ∀ l, loadLexicon env text = .ok l →
      getTokens env.icu env.u l (lexRe env l) (InType.asType filter) (env.icu.upper locale (env.icu.norm address')) =
      getTokens env.icu env.u l (lexRe env l) (InType.asType filter) (env.icu.upper locale (env.icu.norm address)))
    (grammar : Str) :
    stdStandardize env address' grammar text locale filter = stdStandardize env address grammar text locale filter ∧
    stdParseAddress env address' text locale filter = stdParseAddress env address text locale filter ∧
    stdMatchAddress env address' grammar text locale filter = stdMatchAddress env address grammar text locale filter := by
  unfold stdStandardize stdParseAddress stdMatchAddress
  cases hl : loadLexicon env text with
  | undefined => exact ⟨rfl, rfl, rfl⟩
  | throws m => exact ⟨rfl, rfl, rfl⟩
  | ok l =>
    have hp : phrasesOf env l locale filter address' = phrasesOf env l locale filter address := by
      unfold phrasesOf
      simp only [h l hl]
    simp only
    unfold standardizeAddr parseAddr matchAddr
    rw [hp]
    exact ⟨rfl, rfl, rfl⟩

/-- Only the normal form of an address in upper case matters: addresses that differ in case only have the same results. -/
theorem C71_case (env : Env F D) (address address' grammar lexicon locale filter : Str)
    (h : env.icu.upper locale (env.icu.norm address') = env.icu.upper locale (env.icu.norm address)) :
    stdStandardize env address' grammar lexicon locale filter = stdStandardize env address grammar lexicon locale filter ∧
    stdParseAddress env address' lexicon locale filter = stdParseAddress env address lexicon locale filter ∧
    stdMatchAddress env address' grammar lexicon locale filter = stdMatchAddress env address grammar lexicon locale filter :=
  same_of_tokens (fun _ _ => by rw [h]) grammar

/-- Blanks before an address do not change its results, if no word of the lexicon begins with a blank. -/
theorem C71_leading_blanks (env : Env F D) (hread : ReadsPatterns env) (text h : Str) (es : List LexEntry)
    (ha : env.archive text = .notArchive) (ht : LexText env.icu text h es)
    (hp : ∀ e ∈ es, ∀ c ∈ e.word, c ∉ unescaped ∧ env.u.canon c = c)
    (hw : NoBlankFirst env.u (es.map (·.word))) (address address' grammar locale filter b : Str)
    (hb : ∀ c ∈ b, env.u.isSpace c = true)
    (htext : textFor env locale (headerLocale h) address' = b ++ textFor env locale (headerLocale h) address) :
    stdStandardize env address' grammar text locale filter = stdStandardize env address grammar text locale filter ∧
    stdParseAddress env address' text locale filter = stdParseAddress env address text locale filter ∧
    stdMatchAddress env address' grammar text locale filter = stdMatchAddress env address grammar text locale filter := by
  refine same_of_tokens (fun l hl => ?_) grammar
  obtain ⟨l', h1, h2, H, C⟩ := loadLexicon_text ha ht
  rw [hl] at h1; cases h1
  have hpl : PlainLexicon env.u l := plain_of H hp
  have hkey : ∀ w, w ∈ lexWords l ↔ w ∈ es.map (·.word) := fun w => by
    unfold lexWords; rw [H.key_iff]; simp only [mem_heldIns, List.mem_map]
  refine C71_leading_tokens _ _ _ _ _ _ _ b hpl (lexRe_for hread hpl C) ?_ hb (by rw [h2]; exact htext)
  obtain ⟨w, hw1, hw2⟩ := hw.some_word
  exact ⟨⟨w, (hkey w).2 hw1, hw2⟩, fun w hw' => hw.first w ((hkey w).1 hw')⟩

/-- Spaces behind an address do not change its results, if no word of the lexicon begins or ends with a blank (or is one)
and spaces are filtered out. -/
theorem C71_trailing_blanks (env : Env F D) (hread : ReadsPatterns env) (text h : Str) (es : List LexEntry)
    (ha : env.archive text = .notArchive) (ht : LexText env.icu text h es)
    (hp : ∀ e ∈ es, ∀ c ∈ e.word, c ∉ unescaped ∧ env.u.canon c = c)
    (hw : NoBlankLast env.u (es.map (·.word))) (address address' grammar locale filter b : Str)
    (hspace : .SPACE ∈ InType.asType filter)
    (hb : ∀ c ∈ b, c = ' ') (htab : '\t' ∉ textFor env locale (headerLocale h) address)
    (htext : textFor env locale (headerLocale h) address' = textFor env locale (headerLocale h) address ++ b) :
    stdStandardize env address' grammar text locale filter = stdStandardize env address grammar text locale filter ∧
    stdParseAddress env address' text locale filter = stdParseAddress env address text locale filter ∧
    stdMatchAddress env address' grammar text locale filter = stdMatchAddress env address grammar text locale filter := by
  refine same_of_tokens (fun l hl => ?_) grammar
  obtain ⟨l', h1, h2, H, C⟩ := loadLexicon_text ha ht
  rw [hl] at h1; cases h1
  have hpl : PlainLexicon env.u l := plain_of H hp
  have hkey : ∀ w, w ∈ lexWords l ↔ w ∈ es.map (·.word) := fun w => by
    unfold lexWords; rw [H.key_iff]; simp only [mem_heldIns, List.mem_map]
  have hw' : NoBlankLast env.u (lexWords l) := by
    obtain ⟨w, hw1, hw2⟩ := hw.some_word
    exact ⟨⟨w, (hkey w).2 hw1, hw2⟩, fun w hw' => hw.last w ((hkey w).1 hw')⟩
  obtain ⟨ts, e1, e2⟩ := C71_trailing_tokens env.icu env.u l (lexRe env l) (InType.asType filter)
    (env.icu.upper locale (env.icu.norm address)) (env.icu.upper locale (env.icu.norm address')) b hpl (lexRe_for hread hpl C) hw' hb
    (by rw [h2]; exact htab) (by rw [h2]; exact htext)
  rcases e2 with e2 | e2
  · rw [e1, e2]
  · rw [e1, e2]
    have hcan : env.u.canon ' ' = ' ' := env.u.canon_ascii _ (by decide) (by decide)
    have hsp : env.u.isSpace ' ' = true := blank_space _
    have hnone : ∀ e ∈ l.find c!" ", e.type = [] := by
      intro e he
      rw [H.find] at he
      have he := List.mem_filter.1 he
      have hm := (mem_heldIns es e).1 he.1
      have hwd : e.word = c!" " := by simpa using he.2
      have := hw.last e.word (List.mem_map.2 ⟨e, hm, rfl⟩) ' ' (by rw [hwd, hcan]; rfl)
      rw [hsp] at this; cases this
    have hcls := (C13_by_shape env.u l { text := c!" " } .PUNCT rfl hnone).1
    have hsw : env.u.isWord ' ' = false := env.u.space_not_word _ hsp
    have hd : env.u.digit ' ' = false := by
      rw [Bool.eq_false_iff]; intro h'; have := env.u.digit_word _ h'; rw [hsw] at this; cases this
    have hin : InType.SPACE ∈ (l.classify env.u { text := c!" " } .PUNCT).inclass := by
      rw [hcls]
      have n1 : ¬ IsDecimal env.u c!" " := by
        rintro ⟨a, x, b, e, h1, _, h2⟩
        have := congrArg List.length e
        have := List.length_pos_iff.2 h1.1
        simp at *
        omega
      have n2 : ¬ IsFraction env.u c!" " := by
        rintro ⟨a, b, e, h1, h2⟩
        have := congrArg List.length e
        have := List.length_pos_iff.2 h1.1
        simp at *
        omega
      have n3 : ¬ IsPostHead env.u c!" " := by
        rintro ⟨a, b, c, e, h1, _, h2, _⟩
        have := congrArg List.length e
        simp at this
        omega
      have n4 : ¬ IsPostTail env.u c!" " := by
        rintro ⟨x, y, z, e, _⟩
        cases e
      simp [shapes, FirstShape, n1, n2, n3, n4, RunOf, hd, hsw, hsp]
    have hin2 : ∀ f : List InType, InType.SPACE ∈ f → (l.classify env.u { text := c!" " } .PUNCT).isInAnyClass f = true := by
      intro f hf
      induction f with
      | nil => cases hf
      | cons c cs ih =>
        rw [Token.isInAnyClass]
        split
        · rfl
        · next hc =>
          rcases List.mem_cons.1 hf with rfl | hf
          · exact absurd (List.contains_iff_mem.2 hin) hc
          · exact ih hf
    rw [applyFilter, hin2 _ hspace]
    simp [applyFilter]

/-! ### Examples -/

theorem ascii_blank {c d : Char} (h : d = asciiU.canon c) (hd : asciiU.isSpace d = false) : asciiU.isSpace c = false := by
  rw [Bool.eq_false_iff]
  intro hc
  have : asciiU.isSpace (asciiU.canon c) = true := by
    simp only [asciiU, isCSpace, isSep, Bool.or_eq_true, decide_eq_true_eq] at hc
    rcases hc with (((((rfl | rfl) | rfl) | rfl) | rfl) | rfl) | (((((rfl | rfl) | rfl) | rfl) | rfl) | rfl) <;> decide
  rw [← h, hd] at this
  cases this

theorem town_first : NoBlankFirst asciiU (lexWords townLexicon) := by
  refine ⟨⟨c!"STR", by decide +kernel, by decide⟩, fun w hw c hc => ?_⟩
  have key : ∀ w ∈ lexWords townLexicon, ∀ d ∈ w.head?, asciiU.isSpace d = false := by decide +kernel
  exact ascii_blank rfl (key w hw _ hc)

theorem town_last : NoBlankLast asciiU (lexWords townLexicon) := by
  refine ⟨⟨c!"STR", by decide +kernel, by decide⟩, fun w hw c hc => ?_⟩
  have key : ∀ w ∈ lexWords townLexicon, ∀ d ∈ w.getLast?, asciiU.isSpace d = false := by decide +kernel
  exact ascii_blank rfl (key w hw _ hc)

/-- A tab, a line break and two spaces before an address; spaces behind it. -/
example : PlainLexicon asciiU townLexicon ∧ townRe.For asciiU townLexicon ∧ NoBlankFirst asciiU (lexWords townLexicon) ∧
    NoBlankLast asciiU (lexWords townLexicon) ∧
    (∀ c ∈ c!"\t\n  ", asciiU.isSpace c = true) ∧ '\t' ∉ asciiIcu.upper townLexicon.locale (asciiIcu.norm c!"12 new york") ∧
    asciiIcu.upper townLexicon.locale (asciiIcu.norm c!"\t\n  12 new york") =
      c!"\t\n  " ++ asciiIcu.upper townLexicon.locale (asciiIcu.norm c!"12 new york") ∧
    asciiIcu.upper townLexicon.locale (asciiIcu.norm c!"12 new york  ") =
      asciiIcu.upper townLexicon.locale (asciiIcu.norm c!"12 new york") ++ c!"  " :=
  ⟨townPlain, townRe_for, town_first, town_last, by decide +kernel, by decide +kernel, by decide +kernel, by decide +kernel⟩

/-- The token of the space is added, or not, as there is none or a separator at the end. -/
example : (getTokens asciiIcu asciiU townLexicon townRe [] c!"12").map (·.map (·.text)) = some [c!"12"] ∧
    (getTokens asciiIcu asciiU townLexicon townRe [] c!"12  ").map (·.map (·.text)) = some [c!"12", c!" "] ∧
    (getTokens asciiIcu asciiU townLexicon townRe [] c!"12,").map (·.map (·.text)) = some [c!"12", c!","] ∧
    (getTokens asciiIcu asciiU townLexicon townRe [] c!"12,  ").map (·.map (·.text)) = some [c!"12", c!","] := by
  decide +kernel

/-- Lexicons may also have words that begin with a blank; then a blank before an address matters. -/
example : ∃ (l : Lexicon) (x : LexRe), PlainLexicon asciiU l ∧ x.For asciiU l ∧
    (getTokens asciiIcu asciiU l x [] c!"~").map (·.map (·.text)) = some [] ∧
    (getTokens asciiIcu asciiU l x [] c!" ~").map (·.map (·.text)) = some [c!" ~"] := by
  refine ⟨{ lex := [(c!" ~", [⟨c!" ~", c!"~", [.WORD], []⟩])] },
    ⟨readOf ((trieOf [c!" ~"]).getRegexp.map asciiU.canon), readOf (trieOf []).getRegexp, readOf (trieOf []).getRegexp⟩,
    by unfold PlainLexicon; decide +kernel, ⟨reads_readOf (by decide +kernel), reads_readOf (by decide +kernel),
      reads_readOf (by decide +kernel)⟩, by decide +kernel, by decide +kernel⟩

/-- The same address in lower and in upper case. -/
example : exEnv.icu.upper c!"en" (exEnv.icu.norm c!"12 New York") = exEnv.icu.upper c!"en" (exEnv.icu.norm c!"12 NEW YORK") := by
  decide +kernel

/-- The text of a lexicon, with blanks before and behind an address. -/
example : ReadsPatterns readingEnv ∧ LexText readingEnv.icu townText c!"LEXICON:\tT\tENG\ten\t2" [eNY, eStr] ∧
    readingEnv.archive townText = .notArchive ∧
    (∀ e ∈ [eNY, eStr], ∀ c ∈ e.word, c ∉ unescaped ∧ readingEnv.u.canon c = c) ∧
    NoBlankFirst readingEnv.u ([eNY, eStr].map (·.word)) ∧ NoBlankLast readingEnv.u ([eNY, eStr].map (·.word)) ∧
    .SPACE ∈ InType.asType c!"SPACE,PUNCT" ∧ (∀ c ∈ c!"\t ", readingEnv.u.isSpace c = true) ∧
    '\t' ∉ textFor readingEnv c!"en" (headerLocale c!"LEXICON:\tT\tENG\ten\t2") c!"12 new york str" ∧
    textFor readingEnv c!"en" (headerLocale c!"LEXICON:\tT\tENG\ten\t2") c!"\t 12 new york str" =
      c!"\t " ++ textFor readingEnv c!"en" (headerLocale c!"LEXICON:\tT\tENG\ten\t2") c!"12 new york str" ∧
    textFor readingEnv c!"en" (headerLocale c!"LEXICON:\tT\tENG\ten\t2") c!"12 new york str  " =
      textFor readingEnv c!"en" (headerLocale c!"LEXICON:\tT\tENG\ten\t2") c!"12 new york str" ++ c!"  " := by
  refine ⟨readingEnv_reads, townText_means, rfl, ?_, ⟨⟨c!"STR", by decide, by decide⟩, fun w hw c hc => ?_⟩,
    ⟨⟨c!"STR", by decide, by decide⟩, fun w hw c hc => ?_⟩, by decide +kernel, ?_, ?_, rfl, rfl⟩
  · show ∀ e ∈ [eNY, eStr], ∀ c ∈ e.word, c ∉ unescaped ∧ asciiU.canon c = c
    decide +kernel
  · have key : ∀ w ∈ [eNY, eStr].map (·.word), ∀ d ∈ w.head?, asciiU.isSpace d = false := by decide +kernel
    exact ascii_blank rfl (key w hw _ hc)
  · have key : ∀ w ∈ [eNY, eStr].map (·.word), ∀ d ∈ w.getLast?, asciiU.isSpace d = false := by decide +kernel
    exact ascii_blank rfl (key w hw _ hc)
  · show ∀ c ∈ c!"\t ", asciiU.isSpace c = true
    decide +kernel
  · show '\t' ∉ c!"12 NEW YORK STR"
    decide

end AS.Props
