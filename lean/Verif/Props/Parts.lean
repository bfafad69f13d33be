import Verif.Lemmas.Parts
import Verif.Props.Blanks
/-
C92: addresses in parts.
-/
namespace AS.Props
open AS AS.Tokenizer AS.Wrapper
variable {F D : Type}

theorem trim_mark {q : Char} {bl : Str} (hq : Token.isTrimmed q = false) (hb : ∀ c ∈ bl, c = ' ') :
    (({ text := q :: bl } : Token).trim 3) = { text := [q] } := by
  rw [show q :: bl = [q] ++ bl from rfl, trim_blanks (by simp) hb]
  unfold Token.trim
  simp [hq]

theorem mark_trimmed {u : UTables} {words : List Str} {q : Char} (hq : Divider u words q) : Token.isTrimmed q = false := by
  rw [Bool.eq_false_iff]
  intro h
  have : u.isSpace q = true := u.cspace_space q (by
    simp only [Token.isTrimmed, Bool.or_eq_true, decide_eq_true_eq] at h
    rcases h with ((((rfl | rfl) | rfl) | rfl) | rfl) | rfl <;> decide)
  rw [hq.notSpace] at this; cases this

theorem roundTokens_mark {u : UTables} {l : Lexicon} {x : LexRe} {words : List Str} {q : Char} (hq : Divider u words q)
    {bl : Str} (hb : ∀ c ∈ bl, c = ' ') {r : Round} (hr : r.sep = []) :
    roundTokens u l x { r with sep := q :: bl } = roundTokens u l x r ++ [l.classify u { text := [q] } .PUNCT] := by
  have htab : '\t' ∉ q :: bl := by
    intro hc
    rcases List.mem_cons.1 hc with hc | hc
    · have := mark_trimmed hq; rw [← hc] at this; revert this; decide
    · exact absurd (hb _ hc) (by decide)
  unfold roundTokens
  simp only [hr, ne_eq, reduceCtorEq, not_false_eq_true, if_true, not_true_eq_false, if_false]
  rw [ofText_plain htab, trim_mark (mark_trimmed hq) hb]
  simp

/-! ## C92 -/

/-- The tokens of an address in parts are those of the parts and that of the mark; if the tokenizer gives up in the first
part, they are those of the first part only. -/
theorem C92_tokens (icu : Icu) (u : UTables) (l : Lexicon) (x : LexRe) (filter : List InType) (str strA strB bl : Str)
    (q : Char) (hl : PlainLexicon u l) (hx : x.For u l) (hne : ∃ w ∈ lexWords l, w ≠ []) (hq : Divider u (lexWords l) q)
    (hp : InParts u (icu.upper l.locale (icu.norm strA)) q bl (icu.upper l.locale (icu.norm strB)))
    (htext : icu.upper l.locale (icu.norm str) =
      icu.upper l.locale (icu.norm strA) ++ q :: (bl ++ icu.upper l.locale (icu.norm strB))) :
    ∃ ta tb, getTokens icu u l x filter strA = some ta ∧ getTokens icu u l x filter strB = some tb ∧
      (WhollyRead u (lexWords l) (icu.upper l.locale (icu.norm strA)) →
        getTokens icu u l x filter str = some (ta ++ applyFilter filter [l.classify u { text := [q] } .PUNCT] ++ tb)) ∧
      (¬ WhollyRead u (lexWords l) (icu.upper l.locale (icu.norm strA)) → getTokens icu u l x filter str = some ta) := by
  obtain ⟨ra, la, h1, e1⟩ := getTokens_spec icu u l x filter strA
  obtain ⟨rb, lb, h2, e2⟩ := getTokens_spec icu u l x filter strB
  have h1 := rounds_splits hl hx h1
  have h2 := rounds_splits hl hx h2
  rw [show prepare icu l strA = icu.upper l.locale (icu.norm strA) from rfl] at h1
  rw [show prepare icu l strB = icu.upper l.locale (icu.norm strB) from rfl] at h2
  obtain ⟨s1, s2⟩ := splits_parts hne hq hp h1
  refine ⟨_, _, e1, e2, fun hw => ?_, fun hw => ?_⟩
  · obtain ⟨rs, hw⟩ := hw
    have hla := (splitsInto_unique h1 hw).2
    obtain ⟨pre, r, rfl, hr, s2⟩ := s2 hla
    have s := s2 _ _ h2
    rw [← htext] at s
    rw [tokens_split hl hx filter s]
    simp only [List.flatMap_append, List.flatMap_cons, List.flatMap_nil, List.append_nil, roundTokens_mark hq hp.spaces hr,
      applyFilter_append, List.append_assoc]
  · have s := s1 (fun h0 => hw ⟨ra, h0 ▸ h1⟩)
    rw [← htext] at s
    rw [tokens_split hl hx filter s]

theorem anyClass_of_mem {t : Token} {c : InType} (hc : c ∈ t.inclass) : ∀ {f : List InType}, c ∈ f → t.isInAnyClass f = true
  | [], hf => by cases hf
  | d :: f, hf => by
    rw [Token.isInAnyClass]
    split
    · rfl
    · next hd =>
      rcases List.mem_cons.1 hf with rfl | hf
      · exact absurd (List.contains_iff_mem.2 hc) hd
      · exact anyClass_of_mem hc hf

theorem mark_gone {u : UTables} {l : Lexicon} (hl : PlainLexicon u l) {q : Char} (hq : Divider u (lexWords l) q)
    (hfind : ∀ w, w ∉ lexWords l → l.find w = []) {filter : List InType} (hf : MarkFiltered u filter q) :
    applyFilter filter [l.classify u { text := [q] } .PUNCT] = [] := by
  obtain ⟨c, hc, hs⟩ := hf
  have hno : [q] ∉ lexWords l := by
    intro h
    have h1 := hq.absent _ h
    rw [((hl _ h) q (by simp)).2] at h1
    simp at h1
  have := ((C13_by_shape u l { text := [q] } .PUNCT rfl (by rw [hfind _ hno]; simp)).1 c).2 hs
  rw [applyFilter, anyClass_of_mem this hc]
  rfl

/-- What a lexicon text gives for an address in parts. -/
theorem parts_std {env : Env F D} (hread : ReadsPatterns env) {text h : Str} {es : List LexEntry}
    (ha : env.archive text = .notArchive) (ht : LexText env.icu text h es)
    (hp : ∀ e ∈ es, ∀ c ∈ e.word, c ∉ unescaped ∧ env.u.canon c = c) (hne : ∃ e ∈ es, e.word ≠ []) {l : Lexicon}
    (hl : loadLexicon env text = .ok l) {q : Char} (hq : Divider env.u (es.map (·.word)) q) {address addrA addrB locale filter bl : Str}
    (hparts : InParts env.u (textFor env locale (headerLocale h) addrA) q bl (textFor env locale (headerLocale h) addrB))
    (htext : textFor env locale (headerLocale h) address =
      textFor env locale (headerLocale h) addrA ++ q :: (bl ++ textFor env locale (headerLocale h) addrB)) :
    ∃ ta tb, getTokens env.icu env.u l (lexRe env l) (InType.asType filter) (env.icu.upper locale (env.icu.norm addrA)) = some ta ∧
      getTokens env.icu env.u l (lexRe env l) (InType.asType filter) (env.icu.upper locale (env.icu.norm addrB)) = some tb ∧
      (WhollyRead env.u (es.map (·.word)) (textFor env locale (headerLocale h) addrA) →
        getTokens env.icu env.u l (lexRe env l) (InType.asType filter) (env.icu.upper locale (env.icu.norm address)) =
          some (ta ++ applyFilter (InType.asType filter) [l.classify env.u { text := [q] } .PUNCT] ++ tb)) ∧
      (¬ WhollyRead env.u (es.map (·.word)) (textFor env locale (headerLocale h) addrA) →
        getTokens env.icu env.u l (lexRe env l) (InType.asType filter) (env.icu.upper locale (env.icu.norm address)) = some ta) ∧
      (MarkFiltered env.u (InType.asType filter) q →
        applyFilter (InType.asType filter) [l.classify env.u { text := [q] } .PUNCT] = []) := by
  obtain ⟨l', h1, h2, H, C⟩ := loadLexicon_text ha ht
  rw [hl] at h1; cases h1
  have hpl : PlainLexicon env.u l := plain_of H hp
  have hkey : ∀ w, w ∈ lexWords l ↔ w ∈ es.map (·.word) := fun w => by
    unfold lexWords; rw [H.key_iff]; simp only [mem_heldIns, List.mem_map]
  have hq' : Divider env.u (lexWords l) q :=
    ⟨hq.sep, hq.notWord, hq.notSpace, hq.fold, hq.noDash, fun w hw => hq.absent w ((hkey w).1 hw)⟩
  have hne' : ∃ w ∈ lexWords l, w ≠ [] := by
    obtain ⟨e, he, hw⟩ := hne
    exact ⟨e.word, (hkey _).2 (List.mem_map.2 ⟨e, he, rfl⟩), hw⟩
  have hread' : ∀ s, WhollyRead env.u (lexWords l) s ↔ WhollyRead env.u (es.map (·.word)) s := fun s =>
    ⟨fun ⟨rs, h⟩ => ⟨rs, splits_words hkey h⟩, fun ⟨rs, h⟩ => ⟨rs, splits_words (fun w => (hkey w).symm) h⟩⟩
  obtain ⟨ta, tb, e1, e2, e3, e4⟩ := C92_tokens env.icu env.u l (lexRe env l) (InType.asType filter)
    (env.icu.upper locale (env.icu.norm address)) (env.icu.upper locale (env.icu.norm addrA))
    (env.icu.upper locale (env.icu.norm addrB)) bl q hpl (lexRe_for hread hpl C) hne' hq' (by rw [h2]; exact hparts)
    (by rw [h2]; exact htext)
  rw [h2] at e3 e4
  refine ⟨ta, tb, e1, e2, fun h => e3 ((hread' _).2 h), fun h => e4 (fun h' => h ((hread' _).1 h')), ?_⟩
  refine mark_gone hpl hq' (fun w hw => ?_)
  rw [H.find]
  refine List.filter_eq_nil_iff.2 fun e he => ?_
  simp only [decide_eq_true_eq]
  rintro rfl
  exact hw ((hkey _).2 (List.mem_map.2 ⟨e, (mem_heldIns es e).1 he, rfl⟩))

/-- A mark at the end of an address, and spaces behind it, do not change its results, if no word of the lexicon has the mark
and the filter removes it. -/
theorem C92_last_mark (env : Env F D) (hread : ReadsPatterns env) (text h : Str) (es : List LexEntry)
    (ha : env.archive text = .notArchive) (ht : LexText env.icu text h es)
    (hp : ∀ e ∈ es, ∀ c ∈ e.word, c ∉ unescaped ∧ env.u.canon c = c) (hne : ∃ e ∈ es, e.word ≠ [])
    (q : Char) (hq : Divider env.u (es.map (·.word)) q) (address address' grammar locale filter bl : Str)
    (hf : MarkFiltered env.u (InType.asType filter) q)
    (hparts : InParts env.u (textFor env locale (headerLocale h) address) q bl [])
    (hempty : textFor env locale (headerLocale h) [] = [])
    (htext : textFor env locale (headerLocale h) address' = textFor env locale (headerLocale h) address ++ q :: bl) :
    stdStandardize env address' grammar text locale filter = stdStandardize env address grammar text locale filter ∧
    stdParseAddress env address' text locale filter = stdParseAddress env address text locale filter ∧
    stdMatchAddress env address' grammar text locale filter = stdMatchAddress env address grammar text locale filter := by
  refine same_of_tokens (fun l hl => ?_) grammar
  obtain ⟨ta, tb, e1, e2, e3, e4, e5⟩ := parts_std (address := address') (addrA := address) (addrB := []) (locale := locale)
    (bl := bl) (filter := filter) hread ha ht hp hne hl hq
    (by rw [hempty]; exact hparts) (by rw [hempty, List.append_nil]; exact htext)
  have e6 := e5 hf
  have htb : tb = [] := by
    obtain ⟨qs, last', h', e⟩ := getTokens_spec env.icu env.u l (lexRe env l) (InType.asType filter)
      (env.icu.upper locale (env.icu.norm []))
    obtain ⟨l', h1, h2, H, C⟩ := loadLexicon_text ha ht
    rw [hl] at h1; cases h1
    have hpl : PlainLexicon env.u l := plain_of H hp
    have h'' := rounds_splits hpl (lexRe_for hread hpl C) h'
    rw [show prepare env.icu l (env.icu.upper locale (env.icu.norm [])) = textFor env locale l.locale [] from rfl, h2,
      hempty] at h''
    rw [(splitsInto_nil h'').1] at e
    rw [e2] at e
    cases e
    rfl
  rw [e1]
  by_cases hw : WhollyRead env.u (es.map (·.word)) (textFor env locale (headerLocale h) address)
  · rw [e3 hw, e6, htb]; simp
  · rw [e4 hw]

/-- Which of the marks that the filter removes stands between two parts, and how many spaces follow it, does not matter, if
no word of the lexicon has one of them. -/
theorem C92_which_mark (env : Env F D) (hread : ReadsPatterns env) (text h : Str) (es : List LexEntry)
    (ha : env.archive text = .notArchive) (ht : LexText env.icu text h es)
    (hp : ∀ e ∈ es, ∀ c ∈ e.word, c ∉ unescaped ∧ env.u.canon c = c) (hne : ∃ e ∈ es, e.word ≠ [])
    (q q' : Char) (hq : Divider env.u (es.map (·.word)) q) (hq' : Divider env.u (es.map (·.word)) q')
    (address address' addrA addrB grammar locale filter bl bl' : Str)
    (hf : q = q' ∨ (MarkFiltered env.u (InType.asType filter) q ∧ MarkFiltered env.u (InType.asType filter) q'))
    (hparts : InParts env.u (textFor env locale (headerLocale h) addrA) q bl (textFor env locale (headerLocale h) addrB))
    (hparts' : InParts env.u (textFor env locale (headerLocale h) addrA) q' bl' (textFor env locale (headerLocale h) addrB))
    (htext : textFor env locale (headerLocale h) address =
      textFor env locale (headerLocale h) addrA ++ q :: (bl ++ textFor env locale (headerLocale h) addrB))
    (htext' : textFor env locale (headerLocale h) address' =
      textFor env locale (headerLocale h) addrA ++ q' :: (bl' ++ textFor env locale (headerLocale h) addrB)) :
    stdStandardize env address' grammar text locale filter = stdStandardize env address grammar text locale filter ∧
    stdParseAddress env address' text locale filter = stdParseAddress env address text locale filter ∧
    stdMatchAddress env address' grammar text locale filter = stdMatchAddress env address grammar text locale filter := by
  refine same_of_tokens (fun l hl => ?_) grammar
  obtain ⟨ta, tb, e1, e2, e3, e4, e5⟩ := parts_std (filter := filter) hread ha ht hp hne hl hq hparts htext
  obtain ⟨ta', tb', e1', e2', e3', e4', e5'⟩ := parts_std (filter := filter) hread ha ht hp hne hl hq' hparts' htext'
  rw [e1] at e1'; cases e1'
  rw [e2] at e2'; cases e2'
  by_cases hw : WhollyRead env.u (es.map (·.word)) (textFor env locale (headerLocale h) addrA)
  · rw [e3 hw, e3' hw]
    rcases hf with rfl | ⟨hf, hf'⟩
    · rfl
    · rw [e5 hf, e5' hf']
  · rw [e4 hw, e4' hw]

/-- If the tokenizer gives up in the first part, the second has no effect. -/
theorem C92_unread (env : Env F D) (hread : ReadsPatterns env) (text h : Str) (es : List LexEntry)
    (ha : env.archive text = .notArchive) (ht : LexText env.icu text h es)
    (hp : ∀ e ∈ es, ∀ c ∈ e.word, c ∉ unescaped ∧ env.u.canon c = c) (hne : ∃ e ∈ es, e.word ≠ [])
    (q : Char) (hq : Divider env.u (es.map (·.word)) q) (address addrA addrB grammar locale filter bl : Str)
    (hparts : InParts env.u (textFor env locale (headerLocale h) addrA) q bl (textFor env locale (headerLocale h) addrB))
    (htext : textFor env locale (headerLocale h) address =
      textFor env locale (headerLocale h) addrA ++ q :: (bl ++ textFor env locale (headerLocale h) addrB))
    (hun : ¬ WhollyRead env.u (es.map (·.word)) (textFor env locale (headerLocale h) addrA)) :
    stdStandardize env address grammar text locale filter = stdStandardize env addrA grammar text locale filter ∧
    stdParseAddress env address text locale filter = stdParseAddress env addrA text locale filter ∧
    stdMatchAddress env address grammar text locale filter = stdMatchAddress env addrA grammar text locale filter := by
  refine same_of_tokens (fun l hl => ?_) grammar
  obtain ⟨ta, tb, e1, e2, e3, e4, e5⟩ := parts_std (filter := filter) hread ha ht hp hne hl hq hparts htext
  rw [e1, e4 hun]

theorem firstRows_of {env : Env F D} {l : Lexicon} {locale filter address : Str} {rows : List ParseRow} {ts : List Token}
    (hrows : parseAddr env l locale filter address = some ⟨some rows, none⟩)
    (ht : getTokens env.icu env.u l (lexRe env l) (InType.asType filter) (env.icu.upper locale (env.icu.norm address)) = some ts) :
    firstRows rows = ts.map (fun t => (upToNul t.text, upToNul (InType.setAsString t.inclass), upToNul (Attach.setAsString t.attached))) := by
  unfold parseAddr phrasesOf at hrows
  simp only [ht] at hrows
  cases ha : getAltTokens env.u l ts with
  | none => rw [ha] at hrows; cases hrows
  | some alts =>
    rw [ha] at hrows
    simp only [parseAddrWith] at hrows
    split at hrows
    · cases hrows
    · split at hrows
      · cases hrows
      · cases hrows
        have key : ∀ (rs : List ParseRow), firstRows rs =
            ((rs.map (fun r => (r.pat, r.word, r.inclass, r.attached))).filter (fun r => r.1 = 0)).map (·.2) := by
          intro rs
          rw [List.filter_map, List.map_map]
          rfl
        have hzero : ∀ (ps : List (List Token)) (i : Nat), 0 < i →
            ((ps.zipIdx i).flatMap (fun p => p.1.map (fun t =>
              (p.2, upToNul t.text, upToNul (InType.setAsString t.inclass), upToNul (Attach.setAsString t.attached))))).filter
              (fun r => r.1 = 0) = [] := by
          intro ps i hi
          rw [List.filter_eq_nil_iff]
          intro r hr
          obtain ⟨p, hp, hr⟩ := List.mem_flatMap.1 hr
          obtain ⟨t, _, rfl⟩ := List.mem_map.1 hr
          have := List.le_snd_of_mem_zipIdx hp
          simp only [decide_eq_true_eq]
          omega
        rw [key, parseLoop_rows, List.zipIdx_cons, List.flatMap_cons, List.filter_append, hzero _ _ (by omega),
          List.append_nil, List.filter_eq_self.2 (by intro r hr; obtain ⟨t, _, rfl⟩ := List.mem_map.1 hr; rfl), List.map_map]
        rfl

/-- The first alternative of an address in parts is that of the first part followed by that of the second, if no word of the
lexicon has the mark, the filter removes it, and the tokenizer does not give up in the first part. -/
theorem C92_parse (env : Env F D) (hread : ReadsPatterns env) (text h : Str) (es : List LexEntry)
    (ha : env.archive text = .notArchive) (ht : LexText env.icu text h es)
    (hp : ∀ e ∈ es, ∀ c ∈ e.word, c ∉ unescaped ∧ env.u.canon c = c) (hne : ∃ e ∈ es, e.word ≠ [])
    (q : Char) (hq : Divider env.u (es.map (·.word)) q) (address addrA addrB locale filter bl : Str)
    (hf : MarkFiltered env.u (InType.asType filter) q)
    (hparts : InParts env.u (textFor env locale (headerLocale h) addrA) q bl (textFor env locale (headerLocale h) addrB))
    (htext : textFor env locale (headerLocale h) address =
      textFor env locale (headerLocale h) addrA ++ q :: (bl ++ textFor env locale (headerLocale h) addrB))
    (hw : WhollyRead env.u (es.map (·.word)) (textFor env locale (headerLocale h) addrA))
    (rows rowsA rowsB : List ParseRow)
    (hr : stdParseAddress env address text locale filter = some ⟨some rows, none⟩)
    (hrA : stdParseAddress env addrA text locale filter = some ⟨some rowsA, none⟩)
    (hrB : stdParseAddress env addrB text locale filter = some ⟨some rowsB, none⟩) :
    firstRows rows = firstRows rowsA ++ firstRows rowsB := by
  obtain ⟨l, h1, _⟩ := loadLexicon_text ha ht
  obtain ⟨ta, tb, e1, e2, e3, e4, e5⟩ := parts_std (filter := filter) hread ha ht hp hne h1 hq hparts htext
  unfold stdParseAddress at hr hrA hrB
  simp only [h1] at hr hrA hrB
  rw [firstRows_of hr (e3 hw), firstRows_of hrA e1, firstRows_of hrB e2, e5 hf]
  simp

/-! ### Examples -/

theorem whollyRead_iff {u : UTables} {l : Lexicon} {x : LexRe} (hl : PlainLexicon u l) (hx : x.For u l) {s rest : Str}
    (h : (rounds (tokenRx u x) (s.length + 1) s).map (·.2) = some rest) : WhollyRead u (lexWords l) s ↔ rest = [] := by
  obtain ⟨rs', rest', qs, h1, h2, _⟩ := rounds_spec u x _ s (Nat.le_refl _)
  rw [h1] at h; cases h
  have h2 := rounds_splits hl hx h2
  exact ⟨fun ⟨_, h⟩ => (splitsInto_unique h2 h).2, fun e => ⟨qs, e ▸ h2⟩⟩

theorem ascii_divider {words : List Str} {q : Char} (hs : SepChar asciiU q) (hd : q ≠ '—' ∧ asciiU.isWord q = false ∧
    asciiU.isSpace q = false ∧ asciiU.fold q = q) (h : ∀ w ∈ words, asciiU.canon q ∉ w) : Divider asciiU words q :=
  ⟨hs, hd.2.1, hd.2.2.1, hd.2.2.2, hd.1, h⟩

theorem town_comma : Divider asciiU (lexWords townLexicon) ',' :=
  ascii_divider (Or.inr (Or.inr (Or.inr (Or.inr (Or.inl (by decide)))))) (by decide) (by decide +kernel)

theorem town_parts : InParts asciiU c!"12 NEW YORK" ',' c!"  " c!"STR" :=
  ⟨⟨'K', by decide, by unfold SepChar; decide⟩, by decide, by intro c hc; cases hc; unfold SepChar; decide, by decide,
    by intro _ h; cases h⟩

theorem town_read : WhollyRead asciiU (lexWords townLexicon) c!"12 NEW YORK" :=
  (whollyRead_iff townPlain townRe_for (rest := []) (by decide +kernel)).2 rfl

theorem town_unread : ¬ WhollyRead asciiU (lexWords townLexicon) c!"12 ~STR" := fun h =>
  absurd ((whollyRead_iff townPlain townRe_for (rest := c!"~STR") (by decide +kernel)).1 h) (by decide)

theorem comma_filtered : MarkFiltered asciiU (InType.asType c!"SPACE,PUNCT") ',' := by
  refine ⟨.PUNCT, by decide +kernel, ?_⟩
  have n1 : ¬ IsDecimal asciiU c!"," := by
    rintro ⟨a, x, b, e, h1, _, h2⟩
    have := congrArg List.length e
    have := List.length_pos_iff.2 h1.1
    simp at *
    omega
  have n2 : ¬ IsFraction asciiU c!"," := by
    rintro ⟨a, b, e, h1, h2⟩
    have := congrArg List.length e
    have := List.length_pos_iff.2 h1.1
    simp at *
    omega
  have n3 : ¬ IsPostHead asciiU c!"," := by
    rintro ⟨a, b, c, e, h1, _, h2, _⟩
    have := congrArg List.length e
    simp at this
    omega
  have n4 : ¬ IsPostTail asciiU c!"," := by
    rintro ⟨x, y, z, e, _⟩
    cases e
  have d : asciiU.digit ',' = false ∧ asciiU.isWord ',' = false ∧ asciiU.isSpace ',' = false ∧ asciiU.punct ',' = true := by decide
  simp [shapes, FirstShape, n1, n2, n3, n4, RunOf, d]

/-- An address in two parts, divided by a comma and two spaces. -/
example : PlainLexicon asciiU townLexicon ∧ townRe.For asciiU townLexicon ∧ (∃ w ∈ lexWords townLexicon, w ≠ []) ∧
    Divider asciiU (lexWords townLexicon) ',' ∧
    InParts asciiU (asciiIcu.upper townLexicon.locale (asciiIcu.norm c!"12 new york")) ',' c!"  "
      (asciiIcu.upper townLexicon.locale (asciiIcu.norm c!"str")) ∧
    asciiIcu.upper townLexicon.locale (asciiIcu.norm c!"12 new york,  str") =
      asciiIcu.upper townLexicon.locale (asciiIcu.norm c!"12 new york") ++ ',' :: (c!"  " ++
        asciiIcu.upper townLexicon.locale (asciiIcu.norm c!"str")) ∧
    WhollyRead asciiU (lexWords townLexicon) (asciiIcu.upper townLexicon.locale (asciiIcu.norm c!"12 new york")) ∧
    ¬ WhollyRead asciiU (lexWords townLexicon) (asciiIcu.upper townLexicon.locale (asciiIcu.norm c!"12 ~str")) :=
  ⟨townPlain, townRe_for, ⟨c!"STR", by decide +kernel, by decide⟩, town_comma, town_parts, rfl, town_read, town_unread⟩

/-- The tokens of such addresses; the halves of a decimal are no parts. -/
example : (getTokens asciiIcu asciiU townLexicon townRe [] c!"12 new york,  str").map (·.map (·.text)) =
      some [c!"12", c!" ", c!"NEW YORK", c!",", c!"STR"] ∧
    (getTokens asciiIcu asciiU townLexicon townRe [] c!"12 ~str, new york").map (·.map (·.text)) = some [c!"12", c!" "] ∧
    (getTokens asciiIcu asciiU townLexicon townRe [] c!"str 12,5").map (·.map (·.text)) = some [c!"STR", c!" ", c!"12.5"] := by
  decide +kernel

/-- Lexicons may also have words with the mark; then it does not divide. -/
example : ∃ (l : Lexicon) (x : LexRe), PlainLexicon asciiU l ∧ x.For asciiU l ∧
    (getTokens asciiIcu asciiU l x [] c!"a,b").map (·.map (·.text)) = some [c!"A,B"] ∧
    (getTokens asciiIcu asciiU l x [] c!"a;b").map (·.map (·.text)) = some [c!"A", c!";", c!"B"] := by
  refine ⟨{ lex := [(c!"A,B", [⟨c!"A,B", c!"AB", [.WORD], []⟩])] },
    ⟨readOf ((trieOf [c!"A,B"]).getRegexp.map asciiU.canon), readOf (trieOf []).getRegexp, readOf (trieOf []).getRegexp⟩,
    by unfold PlainLexicon; decide +kernel, ⟨reads_readOf (by decide +kernel), reads_readOf (by decide +kernel),
      reads_readOf (by decide +kernel)⟩, by decide +kernel, by decide +kernel⟩

theorem town_words {q : Char} (h : Divider asciiU (lexWords townLexicon) q) : Divider asciiU ([eNY, eStr].map (·.word)) q :=
  ⟨h.sep, h.notWord, h.notSpace, h.fold, h.noDash, fun w hw => h.absent w (by revert w; decide +kernel)⟩

def shortLexicon : Lexicon := { lex := [(c!"NEW YORK", [eNY]), (c!"STR", [eStr])] }

def shortRe : LexRe :=
  ⟨readOf ((trieOf [c!"NEW YORK", c!"STR"]).getRegexp.map asciiU.canon), readOf (trieOf []).getRegexp, readOf (trieOf []).getRegexp⟩

theorem short_iff {s rest : Str} (h : (rounds (tokenRx asciiU shortRe) (s.length + 1) s).map (·.2) = some rest) :
    WhollyRead asciiU ([eNY, eStr].map (·.word)) s ↔ rest = [] :=
  whollyRead_iff (l := shortLexicon) (x := shortRe) (by unfold PlainLexicon; decide +kernel)
    ⟨reads_readOf (by decide +kernel), reads_readOf (by decide +kernel), reads_readOf (by decide +kernel)⟩ h

theorem town_semicolon : Divider asciiU (lexWords townLexicon) ';' :=
  ascii_divider (Or.inr (Or.inr (Or.inr (Or.inr (Or.inl (by decide)))))) (by decide) (by decide +kernel)

/-- The text of a lexicon; a comma at the end of an address, and a comma or semicolon within. -/
example : ReadsPatterns readingEnv ∧ LexText readingEnv.icu townText c!"LEXICON:\tT\tENG\ten\t2" [eNY, eStr] ∧
    readingEnv.archive townText = .notArchive ∧
    (∀ e ∈ [eNY, eStr], ∀ c ∈ e.word, c ∉ unescaped ∧ readingEnv.u.canon c = c) ∧ (∃ e ∈ [eNY, eStr], e.word ≠ []) ∧
    Divider readingEnv.u ([eNY, eStr].map (·.word)) ',' ∧ Divider readingEnv.u ([eNY, eStr].map (·.word)) ';' ∧
    MarkFiltered readingEnv.u (InType.asType c!"SPACE,PUNCT") ',' ∧
    InParts readingEnv.u (textFor readingEnv c!"en" (headerLocale c!"LEXICON:\tT\tENG\ten\t2") c!"12 new york") ',' c!"  "
      (textFor readingEnv c!"en" (headerLocale c!"LEXICON:\tT\tENG\ten\t2") c!"str") ∧
    textFor readingEnv c!"en" (headerLocale c!"LEXICON:\tT\tENG\ten\t2") [] = [] ∧
    textFor readingEnv c!"en" (headerLocale c!"LEXICON:\tT\tENG\ten\t2") c!"12 new york, str" =
      textFor readingEnv c!"en" (headerLocale c!"LEXICON:\tT\tENG\ten\t2") c!"12 new york" ++ ',' :: (c!" " ++
        textFor readingEnv c!"en" (headerLocale c!"LEXICON:\tT\tENG\ten\t2") c!"str") ∧
    WhollyRead readingEnv.u ([eNY, eStr].map (·.word))
      (textFor readingEnv c!"en" (headerLocale c!"LEXICON:\tT\tENG\ten\t2") c!"12 new york") ∧
    ¬ WhollyRead readingEnv.u ([eNY, eStr].map (·.word))
      (textFor readingEnv c!"en" (headerLocale c!"LEXICON:\tT\tENG\ten\t2") c!"12 ~str") := by
  refine ⟨readingEnv_reads, townText_means, rfl, ?_, by decide, town_words town_comma, town_words town_semicolon, comma_filtered,
    town_parts, rfl, rfl, ?_, ?_⟩
  · show ∀ e ∈ [eNY, eStr], ∀ c ∈ e.word, c ∉ unescaped ∧ asciiU.canon c = c
    decide +kernel
  · exact (short_iff (s := c!"12 NEW YORK") (rest := []) (by decide +kernel)).2 rfl
  · exact fun h => absurd ((short_iff (s := c!"12 ~STR") (rest := c!"~STR") (by decide +kernel)).1 h) (by decide)

def shortEnv : Env Rat Rat := { exEnv with compile := fun _ _ _ => shortRe }

theorem for_unique {u : UTables} {l : Lexicon} {x y : LexRe} (hx : x.For u l) (hy : y.For u l) : x = y := by
  obtain ⟨a, b, c⟩ := x
  obtain ⟨a', b', c'⟩ := y
  have e1 := reads_unique hx.1 hy.1
  have e2 := reads_unique hx.2.1 hy.2.1
  have e3 := reads_unique hx.2.2 hy.2.2
  simp only at e1 e2 e3
  rw [e1, e2, e3]

theorem reading_short (address locale filter : Str) :
    stdParseAddress readingEnv address townText locale filter = stdParseAddress shortEnv address townText locale filter := by
  obtain ⟨l, h1, h2, H, C⟩ := loadLexicon_text (env := readingEnv) (text := townText) rfl townText_means
  have hpl : PlainLexicon asciiU l := plain_of H (by decide +kernel)
  have hs : (lexRe shortEnv l).For asciiU l := by
    have h3 : loadLexicon shortEnv townText = .ok l := h1
    have : outcomeIs (loadLexicon shortEnv townText) (fun l => l.lex = shortLexicon.lex) = true := by decide +kernel
    obtain ⟨l', h4, h5⟩ := of_outcomeIs this
    rw [h3] at h4; cases h4
    have h5 : l.lex = shortLexicon.lex := by simpa using h5
    have : shortRe.For asciiU shortLexicon :=
      ⟨reads_readOf (by decide +kernel), reads_readOf (by decide +kernel), reads_readOf (by decide +kernel)⟩
    unfold LexRe.For at this ⊢
    rw [h5]
    exact this
  have hx := for_unique (lexRe_for readingEnv_reads hpl C) hs
  have h1' : loadLexicon shortEnv townText = .ok l := h1
  unfold stdParseAddress
  rw [h1, h1']
  simp only
  unfold parseAddr phrasesOf
  rw [hx]
  rfl

/-- The rows of an address in parts, and of its parts. -/
example : (∃ rows, stdParseAddress readingEnv c!"12 new york, str" townText c!"en" c!"SPACE,PUNCT" = some ⟨some rows, none⟩ ∧
      firstRows rows = [(c!"12", c!"NUMBER", c!""), (c!"NEW YORK", c!"CITY", c!""), (c!"STR", c!"TYPE", c!"")]) ∧
    (∃ rows, stdParseAddress readingEnv c!"12 new york" townText c!"en" c!"SPACE,PUNCT" = some ⟨some rows, none⟩) ∧
    (∃ rows, stdParseAddress readingEnv c!"str" townText c!"en" c!"SPACE,PUNCT" = some ⟨some rows, none⟩) := by
  simp only [reading_short]
  have key : ∀ {o : Option (Ret (List ParseRow))} (p : List ParseRow → Bool),
      (match o with | some ⟨some rows, none⟩ => p rows | _ => false) = true → ∃ rows, o = some ⟨some rows, none⟩ ∧ p rows = true := by
    intro o p h
    split at h
    · exact ⟨_, rfl, h⟩
    · cases h
  refine ⟨?_, ?_, ?_⟩
  · obtain ⟨rows, h, e⟩ := key (o := stdParseAddress shortEnv c!"12 new york, str" townText c!"en" c!"SPACE,PUNCT")
      (fun rows => firstRows rows =
      [(c!"12", c!"NUMBER", c!""), (c!"NEW YORK", c!"CITY", c!""), (c!"STR", c!"TYPE", c!"")]) (by decide +kernel)
    exact ⟨rows, h, by simpa using e⟩
  · obtain ⟨rows, h, _⟩ := key (o := stdParseAddress shortEnv c!"12 new york" townText c!"en" c!"SPACE,PUNCT")
      (fun _ => true) (by decide +kernel)
    exact ⟨rows, h⟩
  · obtain ⟨rows, h, _⟩ := key (o := stdParseAddress shortEnv c!"str" townText c!"en" c!"SPACE,PUNCT")
      (fun _ => true) (by decide +kernel)
    exact ⟨rows, h⟩

end AS.Props
