import Verif.Lemmas.Agree
import Verif.Props.Compiled
import Verif.Spec.Agree
/-
Properties C67 to C69: what of a lexicon matters for an address.
-/
namespace AS.Props
open AS AS.Tokenizer AS.Wrapper
variable {F D : Type}

/-- A lexicon that was loaded. -/
theorem loaded {icu : Icu} (name : Str) {text h : Str} {es : List LexEntry} (ht : LexText icu text h es) :
    ∃ l, Lexicon.initialize icu name text = .ok l ∧ l.locale = headerLocale h ∧
      Lexicon.Holds l (held (es.map LexOp.ins)) ∧ Lexicon.CacheOk l := by
  obtain ⟨p, ps, p', body, h1, h2, h3, h4, h5, h6⟩ := ht
  obtain ⟨inp, hh⟩ := (Lexicon.hasHeader_iff p' ps p h body).1 h3
  refine ⟨_, (Lexicon.load_ok icu name text _).2 ⟨p, ps, p', body, h, inp, es, h1, h2, hh, h4, h5, h6, rfl⟩, ?_⟩
  obtain ⟨_, _, k3⟩ := Lexicon.inserts_keep es { name, lang := headerLang h, locale := headerLocale h }
  have H := Lexicon.inserts_holds es (Lexicon.holds_empty name (headerLang h) (headerLocale h) [] [] [] [])
  have C := Lexicon.inserts_cacheOk es (l := { name, lang := headerLang h, locale := headerLocale h })
    ⟨Or.inl rfl, Or.inl rfl, Or.inl rfl⟩
  refine ⟨k3, ?_, C.re, C.pre, C.suf⟩
  rw [Lexicon.held_ins]
  exact ⟨H.sorted, H.ne, H.find, H.nodup⟩

theorem loadLexicon_text {env : Env F D} {text h : Str} {es : List LexEntry} (ha : env.archive text = .notArchive)
    (ht : LexText env.icu text h es) : ∃ l, loadLexicon env text = .ok l ∧ l.locale = headerLocale h ∧
      Lexicon.Holds l (held (es.map LexOp.ins)) ∧ Lexicon.CacheOk l := by
  obtain ⟨l, h1, h2⟩ := loaded c!"query-lex" ht
  exact ⟨l, by rw [loadLexicon, ha]; simp only; rw [h1], h2⟩

theorem held_filter (p : LexEntry → Bool) (es : List LexEntry) :
    (held (es.map LexOp.ins)).filter p = held ((es.filter p).map LexOp.ins) := by
  rw [Lexicon.held_ins, Lexicon.held_ins]
  have key : ∀ (es h : List LexEntry), (es.foldl (fun h e => if e ∈ h then h else h ++ [e]) h).filter p =
      (es.filter p).foldl (fun h e => if e ∈ h then h else h ++ [e]) (h.filter p) := by
    intro es
    induction es with
    | nil => intro h; rfl
    | cons e es ih =>
      intro h
      rw [List.foldl_cons, ih]
      by_cases hp : p e = true
      · rw [List.filter_cons_of_pos hp, List.foldl_cons]
        congr 1
        by_cases hm : e ∈ h
        · rw [if_pos hm, if_pos (List.mem_filter.2 ⟨hm, hp⟩)]
        · rw [if_neg hm, if_neg (fun hx => hm (List.mem_filter.1 hx).1), List.filter_append,
            List.filter_cons_of_pos hp, List.filter_nil]
      · rw [List.filter_cons_of_neg hp]
        congr 1
        by_cases hm : e ∈ h
        · rw [if_pos hm]
        · rw [if_neg hm, List.filter_append, List.filter_cons_of_neg hp, List.filter_nil, List.append_nil]
  exact key es []

/-! ## C66 -/

theorem pointed_comma : ∀ s : Str, pointed (firstComma s) = pointed s
  | [] => rfl
  | c :: s => by
    rw [firstComma]
    split
    · next h => rw [h]; rfl
    · have := pointed_comma s
      simp only [pointed, List.map_cons] at this ⊢
      rw [this]

theorem piece_closed (text : Str) : TextClosed (PieceOf text) where
  nil := Or.inr ⟨[], [], text, rfl, rfl⟩
  blank := Or.inl rfl
  sub := by
    rintro a b c (h | ⟨x, m, y, h, e⟩)
    · cases b with
      | nil => exact Or.inr ⟨[], [], text, rfl, rfl⟩
      | cons d b =>
        left
        cases a with
        | cons e a =>
          have := congrArg List.length h
          simp at this
        | nil =>
          simp only [List.nil_append, List.cons_append, List.cons.injEq, List.append_eq_nil_iff] at h
          rw [h.1, h.2.1]
    · right
      simp only [pointed, List.map_append] at e
      obtain ⟨m1, m2, rfl, e1, e2⟩ := List.map_eq_append_iff.1 e
      obtain ⟨m3, m4, rfl, e3, e4⟩ := List.map_eq_append_iff.1 e1
      exact ⟨x ++ m3, m4, m2 ++ y, by rw [h]; simp, e4⟩
  comma := by
    rintro s (h | ⟨x, m, y, h, e⟩)
    · left; rw [h]; decide
    · right; exact ⟨x, m, y, h, by rw [pointed_comma, e]⟩

/-- The text of every token of every list of an address is a piece of the address in normal form and upper case, in which
a comma may have become a point, or one blank. -/
theorem C66_token_pieces (env : Env F D) (l : Lexicon) (locale filter address : Str) (phrases : List (List Token))
    (hp : phrasesOf env l locale filter address = .ok phrases) (phrase : List Token) (hm : phrase ∈ phrases) (t : Token)
    (ht : t ∈ phrase) : PieceOf (textFor env locale l.locale address) t.text :=
  phrasesOf_texts (piece_closed (textFor env locale l.locale address)) (Or.inr ⟨[], _, [], by simp [textOf, textFor], rfl⟩) hp phrase hm t ht

example : ∃ phrases, phrasesOf exEnv townLexicon c!"en" c!"SPACE" c!"12 new york, 3,5" = .ok phrases ∧
    phrases.map (·.map (·.text)) = [[c!"12", c!"NEW YORK", c!",", c!"3.5"], [c!"12", c!"NEW", c!"YORK", c!",", c!"3.5"]] := by
  obtain ⟨ps, h1, h2⟩ := of_outcomeIs (o := phrasesOf exEnv townLexicon c!"en" c!"SPACE" c!"12 new york, 3,5")
    (p := fun ps => decide (ps.map (·.map (·.text)) = [[c!"12", c!"NEW YORK", c!",", c!"3.5"], [c!"12", c!"NEW", c!"YORK", c!",", c!"3.5"]]))
    (by decide +kernel)
  exact ⟨ps, h1, of_decide_eq_true h2⟩

/-! ## C67 -/

theorem same_of_text {env : Env F D} {text text' h h' : Str} {es es' : List LexEntry}
    {S : Str → Prop} (hS : TextClosed S) (ha : env.archive text = .notArchive) (ha' : env.archive text' = .notArchive)
    (ht : LexText env.icu text h es) (ht' : LexText env.icu text' h' es') (hloc : headerLocale h = headerLocale h')
    (hfind : ∀ w, S w → UseSame ((held (es.map LexOp.ins)).filter (fun e => e.word = w)) ((held (es'.map LexOp.ins)).filter (fun e => e.word = w)))
    (hmatch : ∀ l l', Lexicon.Holds l (held (es.map LexOp.ins)) → Lexicon.Holds l' (held (es'.map LexOp.ins)) →
      Lexicon.CacheOk l → Lexicon.CacheOk l' → MatchSame S env.u (lexRe env l) (lexRe env l'))
    {locale filter address : Str} (hs : S (textFor env locale (headerLocale h) address)) (grammar : Str) :
    stdStandardize env address grammar text locale filter = stdStandardize env address grammar text' locale filter ∧
    stdParseAddress env address text locale filter = stdParseAddress env address text' locale filter ∧
    stdMatchAddress env address grammar text locale filter = stdMatchAddress env address grammar text' locale filter := by
  obtain ⟨l, h1, h2, h3, h4⟩ := loadLexicon_text ha ht
  obtain ⟨l', h1', h2', h3', h4'⟩ := loadLexicon_text ha' ht'
  have hf : FindsSame S l l' := fun w hw => by rw [h3.find, h3'.find]; exact hfind w hw
  have key := fun g => address_same hS hf (hmatch l l' h3 h3' h4 h4') (by rw [h2, h2', hloc]) (locale := locale) (filter := filter)
    (address := address) (by rw [textOf, h2]; exact hs) g
  refine ⟨?_, ?_, ?_⟩
  · unfold stdStandardize
    rw [h1, h1']
    split
    · rfl
    · rfl
    · next g _ => exact (key g).1
  · unfold stdParseAddress
    rw [h1, h1']
    simp only
    exact (key {}).2.1
  · unfold stdMatchAddress
    rw [h1, h1']
    split
    · rfl
    · rfl
    · next g _ => exact (key g).2.2

/-- Two texts of lexicons with the same locale that, for every word, have the same entries in the same order, repeated
entries not counted, are the same for every address. Name, language, comments, blank lines, and the order of lines for
different words do not matter. -/
theorem C67_entries (env : Env F D) (text text' h h' : Str) (es es' : List LexEntry)
    (ha : env.archive text = .notArchive) (ha' : env.archive text' = .notArchive)
    (ht : LexText env.icu text h es) (ht' : LexText env.icu text' h' es') (hloc : headerLocale h = headerLocale h')
    (hfind : ∀ w, (held (es.map LexOp.ins)).filter (fun e => e.word = w) = (held (es'.map LexOp.ins)).filter (fun e => e.word = w))
    (address grammar locale filter : Str) :
    stdStandardize env address grammar text locale filter = stdStandardize env address grammar text' locale filter ∧
    stdParseAddress env address text locale filter = stdParseAddress env address text' locale filter ∧
    stdMatchAddress env address grammar text locale filter = stdMatchAddress env address grammar text' locale filter := by
  refine same_of_text (S := fun _ => True) ⟨trivial, trivial, fun _ _ _ _ => trivial, fun _ _ => trivial⟩ ha ha' ht ht' hloc
    (fun w _ => .of_eq (hfind w)) ?_ trivial grammar
  intro l l' H H' C C'
  have e : l.lex = l'.lex := by
    have H2 : Lexicon.Holds l' (held (es.map LexOp.ins)) := ⟨H'.sorted, H'.ne, fun w => by rw [H'.find]; exact (hfind w).symm, H.nodup⟩
    exact H.lex_eq H2
  have : lexRe env l = lexRe env l' := by
    unfold lexRe
    rw [C.regex.1, C'.regex.1, C.regexPrefixAtt.1, C'.regexPrefixAtt.1, C.regexSuffixAtt.1, C'.regexSuffixAtt.1, e]
  rw [this]
  exact ⟨fun _ _ => rfl, fun _ _ => rfl⟩

/-- In particular the lines may be put in another order as long as those for the same word stay in order. -/
theorem C67_line_order (env : Env F D) (text text' h h' : Str) (es es' : List LexEntry)
    (ha : env.archive text = .notArchive) (ha' : env.archive text' = .notArchive)
    (ht : LexText env.icu text h es) (ht' : LexText env.icu text' h' es') (hloc : headerLocale h = headerLocale h')
    (hord : ∀ w, es.filter (fun e => e.word = w) = es'.filter (fun e => e.word = w))
    (address grammar locale filter : Str) :
    stdStandardize env address grammar text locale filter = stdStandardize env address grammar text' locale filter ∧
    stdParseAddress env address text locale filter = stdParseAddress env address text' locale filter ∧
    stdMatchAddress env address grammar text locale filter = stdMatchAddress env address grammar text' locale filter :=
  C67_entries env text text' h h' es es' ha ha' ht ht' hloc (fun w => by rw [held_filter, held_filter, hord w]) ..

/-! ## C68 -/

theorem levelled_append (u : UTables) (a b : Str) : levelled u (a ++ b) = levelled u a ++ levelled u b := List.map_append ..

theorem levelled_comma (u : UTables) : ∀ s : Str, levelled u (firstComma s) = levelled u s
  | [] => rfl
  | c :: s => by
    rw [firstComma]
    split
    · next h =>
      have h1 : u.canon ',' = ',' := u.canon_ascii _ (by decide) (by decide)
      have h2 : u.canon '.' = '.' := u.canon_ascii _ (by decide) (by decide)
      rw [h]
      simp [levelled, h1, h2]
    · have := levelled_comma u s
      simp only [levelled, List.map_cons] at this ⊢
      rw [this]

theorem occurs_closed (u : UTables) (text : Str) : TextClosed (Occurs u text) where
  nil := Or.inr ⟨[], levelled u text, rfl⟩
  blank := Or.inl rfl
  sub := by
    rintro a b c (h | ⟨x, y, h⟩)
    · cases b with
      | nil => exact Or.inr ⟨[], levelled u text, rfl⟩
      | cons d b =>
        left
        cases a with
        | cons e a =>
          have := congrArg List.length h
          simp at this
        | nil =>
          simp only [List.nil_append, List.cons_append, List.cons.injEq, List.append_eq_nil_iff] at h
          rw [h.1, h.2.1]
    · right
      rw [levelled_append, levelled_append] at h
      exact ⟨x ++ levelled u a, levelled u c ++ y, by rw [h]; simp⟩
  comma := by
    rintro s (h | h)
    · left; rw [h]; decide
    · right; rw [levelled_comma]; exact h

/-- The patterns of a lexicon that has been loaded are read as they should be. -/
theorem lexRe_for {env : Env F D} (hread : ReadsPatterns env) {l : Lexicon} (hl : PlainLexicon env.u l) (hc : Lexicon.CacheOk l) :
    (lexRe env l).For env.u l := by
  have exRead : ∀ words : List Str, (∀ w ∈ words, ∀ c ∈ w, c ∉ unescaped) → ∃ r, Reads (trieOf words).getRegexp r := by
    intro words hw
    by_cases hne : ∃ w ∈ words, w ≠ []
    · obtain ⟨r, h, _⟩ := C21_word_pattern words hw hne
      exact ⟨r, h⟩
    · obtain ⟨_, r, h, _⟩ := C21_no_words words (fun w hw => Classical.byContradiction fun h0 => hne ⟨w, hw, h0⟩)
      exact ⟨r, h⟩
  have plain : ∀ p : LexEntry → Bool, ∀ w ∈ Lexicon.attachedWords p l.lex, ∀ c ∈ w, c ∉ unescaped := by
    intro p w hw c hc
    rw [mem_attachedWords, List.mem_map] at hw
    obtain ⟨e, he, rfl⟩ := hw
    exact (hl _ (List.mem_map.2 ⟨e, (List.mem_filter.1 he).1, rfl⟩) c hc).1
  obtain ⟨a, h1⟩ := exRead (lexWords l) (fun w hw c hc => (hl w hw c hc).1)
  obtain ⟨b, h2⟩ := exRead _ (plain LexEntry.isPrefixAttached)
  obtain ⟨c, h3⟩ := exRead _ (plain LexEntry.isSuffixAttached)
  have h1' : Reads ((trieOf (lexWords l)).getRegexp.map env.u.canon) a := by
    rw [pattern_map (canon_syntax env.u) (fun w hw c hc => (hl w hw c hc).2)]; exact h1
  have e : lexRe env l = ⟨a, b, c⟩ := by
    unfold lexRe
    rw [hc.regex.1, hc.regexPrefixAtt.1, hc.regexSuffixAtt.1]
    exact hread _ _ _ a b c h1' h2 h3
  rw [e]
  exact ⟨h1', h2, h3⟩

theorem mem_heldIns (es : List LexEntry) (e : LexEntry) : e ∈ held (es.map LexOp.ins) ↔ e ∈ es := (C18_dedup es e).2.1

theorem plain_of {u : UTables} {l : Lexicon} {es : List LexEntry} (H : Lexicon.Holds l (held (es.map LexOp.ins)))
    (hp : ∀ e ∈ es, ∀ c ∈ e.word, c ∉ unescaped ∧ u.canon c = c) : PlainLexicon u l := by
  intro w hw c hc
  obtain ⟨e, he, rfl⟩ := (H.key_iff w).1 hw
  exact hp e ((mem_heldIns es e).1 he) c hc

/-- Entries for words that do not occur in an address do not matter for it: two lexicon texts with the same locale and the
same entries, in order, for the words that occur give the same results. Both must have some word. -/
theorem C68_absent_words (env : Env F D) (hread : ReadsPatterns env) (text text' h h' : Str) (es es' : List LexEntry)
    (ha : env.archive text = .notArchive) (ha' : env.archive text' = .notArchive)
    (ht : LexText env.icu text h es) (ht' : LexText env.icu text' h' es') (hloc : headerLocale h = headerLocale h')
    (hp : ∀ e ∈ es ++ es', ∀ c ∈ e.word, c ∉ unescaped ∧ env.u.canon c = c)
    (hne : ∃ e ∈ es, e.word ≠ []) (hne' : ∃ e ∈ es', e.word ≠ [])
    (address grammar locale filter : Str)
    (hocc : ∀ w, Occurs env.u (textFor env locale (headerLocale h) address) w →
      es.filter (fun e => e.word = w) = es'.filter (fun e => e.word = w)) :
    stdStandardize env address grammar text locale filter = stdStandardize env address grammar text' locale filter ∧
    stdParseAddress env address text locale filter = stdParseAddress env address text' locale filter ∧
    stdMatchAddress env address grammar text locale filter = stdMatchAddress env address grammar text' locale filter := by
  have hS := occurs_closed env.u (textFor env locale (headerLocale h) address)
  have hmem : ∀ w, Occurs env.u (textFor env locale (headerLocale h) address) w → ∀ e : LexEntry, e.word = w → (e ∈ es ↔ e ∈ es') := by
    intro w hw e he
    have := hocc w hw
    have h1 : e ∈ es.filter (fun e => e.word = w) ↔ e ∈ es'.filter (fun e => e.word = w) := by rw [this]
    simpa [he] using h1
  refine same_of_text hS ha ha' ht ht' hloc (fun w hw => .of_eq (by rw [held_filter, held_filter, hocc w hw])) ?_
    (Or.inr ⟨[], [], by simp⟩) grammar
  intro l l' H H' C C'
  have hl : PlainLexicon env.u l := plain_of H (fun e he => hp e (List.mem_append_left _ he))
  have hl' : PlainLexicon env.u l' := plain_of H' (fun e he => hp e (List.mem_append_right _ he))
  have hkey : ∀ w, w ∈ lexWords l ↔ ∃ e ∈ es, e.word = w := fun w => by
    unfold lexWords; rw [H.key_iff]; simp only [mem_heldIns]
  have hkey' : ∀ w, w ∈ lexWords l' ↔ ∃ e ∈ es', e.word = w := fun w => by
    unfold lexWords; rw [H'.key_iff]; simp only [mem_heldIns]
  have hpre : ∀ (q : LexEntry → Bool) w, Occurs env.u (textFor env locale (headerLocale h) address) w →
      ((∃ e ∈ es, e.word = w ∧ q e = true) ↔ ∃ e ∈ es', e.word = w ∧ q e = true) := by
    intro q w hw
    constructor
    · rintro ⟨e, he, h1, h2⟩; exact ⟨e, (hmem w hw e h1).1 he, h1, h2⟩
    · rintro ⟨e, he, h1, h2⟩; exact ⟨e, (hmem w hw e h1).2 he, h1, h2⟩
  refine matchSame_of hS hl hl' (lexRe_for hread hl C) (lexRe_for hread hl' C') ?_ ?_ ?_ ?_ ?_
  · obtain ⟨e, he, h0⟩ := hne; exact ⟨_, (hkey _).2 ⟨e, he, rfl⟩, h0⟩
  · obtain ⟨e, he, h0⟩ := hne'; exact ⟨_, (hkey' _).2 ⟨e, he, rfl⟩, h0⟩
  · intro s a b hs e
    have hcan : (∀ c ∈ a, env.u.canon c = c) → Occurs env.u (textFor env locale (headerLocale h) address) a := by
      intro hc
      obtain ⟨s1, s2, rfl, h1, h2⟩ := List.map_eq_append_iff.1 e
      have h3 := hS.left hs
      rcases h3 with rfl | ⟨x, y, hxy⟩
      · left
        rw [← h1]
        simp [env.u.canon_ascii ' ' (by decide) (by decide)]
      · right
        refine ⟨x, y, ?_⟩
        rw [hxy]
        have : levelled env.u a = levelled env.u s1 := by
          rw [← h1]
          unfold levelled
          rw [List.map_map]
          apply List.map_congr_left
          intro c hc'
          have := hc (env.u.canon c) (by rw [← h1]; exact List.mem_map.2 ⟨c, hc', rfl⟩)
          simp only [Function.comp, this]
        rw [this]
    have hc : a ∈ lexWords l ∨ a ∈ lexWords l' → ∀ c ∈ a, env.u.canon c = c := by
      rintro (h | h)
      · exact fun c hc => (hl a h c hc).2
      · exact fun c hc => (hl' a h c hc).2
    constructor
    · intro hw
      have hocc' := hcan (hc (Or.inl hw))
      rw [hkey'] ; rw [hkey] at hw
      obtain ⟨e, he, h1⟩ := hw
      exact ⟨e, (hmem a hocc' e h1).1 he, h1⟩
    · intro hw
      have hocc' := hcan (hc (Or.inr hw))
      rw [hkey] ; rw [hkey'] at hw
      obtain ⟨e, he, h1⟩ := hw
      exact ⟨e, (hmem a hocc' e h1).2 he, h1⟩
  · intro w hw
    have e1 : w ∈ prefixWords l ↔ ∃ e ∈ es, e.word = w ∧ LexEntry.isPrefixAttached e = true := by
      unfold prefixWords; rw [← mem_attachedWords, H.attached_iff]; simp only [mem_heldIns]
    have e2 : w ∈ prefixWords l' ↔ ∃ e ∈ es', e.word = w ∧ LexEntry.isPrefixAttached e = true := by
      unfold prefixWords; rw [← mem_attachedWords, H'.attached_iff]; simp only [mem_heldIns]
    rw [e1, e2, hpre _ w hw]
  · intro w hw
    have e1 : w ∈ suffixWords l ↔ ∃ e ∈ es, e.word = w ∧ LexEntry.isSuffixAttached e = true := by
      unfold suffixWords; rw [← mem_attachedWords, H.attached_iff]; simp only [mem_heldIns]
    have e2 : w ∈ suffixWords l' ↔ ∃ e ∈ es', e.word = w ∧ LexEntry.isSuffixAttached e = true := by
      unfold suffixWords; rw [← mem_attachedWords, H'.attached_iff]; simp only [mem_heldIns]
    rw [e1, e2, hpre _ w hw]

/-- Lines added for words that do not occur in the address do not change its results. -/
theorem C68_added_lines (env : Env F D) (hread : ReadsPatterns env) (text text' h h' : Str) (es extra : List LexEntry)
    (ha : env.archive text = .notArchive) (ha' : env.archive text' = .notArchive)
    (ht : LexText env.icu text h es) (ht' : LexText env.icu text' h' (es ++ extra)) (hloc : headerLocale h = headerLocale h')
    (hp : ∀ e ∈ es ++ extra, ∀ c ∈ e.word, c ∉ unescaped ∧ env.u.canon c = c) (hne : ∃ e ∈ es, e.word ≠ [])
    (address grammar locale filter : Str)
    (habs : ∀ e ∈ extra, ¬ Occurs env.u (textFor env locale (headerLocale h) address) e.word) :
    stdStandardize env address grammar text locale filter = stdStandardize env address grammar text' locale filter ∧
    stdParseAddress env address text locale filter = stdParseAddress env address text' locale filter ∧
    stdMatchAddress env address grammar text locale filter = stdMatchAddress env address grammar text' locale filter := by
  refine C68_absent_words env hread text text' h h' es (es ++ extra) ha ha' ht ht' hloc ?_ hne ?_ address grammar locale filter ?_
  · intro e he
    refine hp e ?_
    rcases List.mem_append.1 he with h | h
    · exact List.mem_append_left _ h
    · exact h
  · obtain ⟨e, he, h0⟩ := hne
    exact ⟨e, List.mem_append_left _ he, h0⟩
  · intro w hw
    have h0 : extra.filter (fun e => e.word = w) = [] := List.filter_eq_nil_iff.2 fun e he h1 => ?_
    · rw [List.filter_append, h0, List.append_nil]
    exact habs e he (by rw [of_decide_eq_true h1]; exact hw)

/-! ## C69 -/

/-- A lexicon text loads into a lexicon whose three patterns accept exactly the words of its entries: all words (without
regard to case), the words that may be attached in front, those that may be attached behind. So what is said of the
tokens of a lexicon (C09, C11, C12, C68) applies to the entries of the text. -/
theorem C69_patterns (env : Env F D) (hread : ReadsPatterns env) (text h : Str) (es : List LexEntry)
    (ha : env.archive text = .notArchive) (ht : LexText env.icu text h es)
    (hp : ∀ e ∈ es, ∀ c ∈ e.word, c ∉ unescaped ∧ env.u.canon c = c) :
    ∃ l, loadLexicon env text = .ok l ∧ PlainLexicon env.u l ∧ (lexRe env l).For env.u l ∧
      (∀ w, w ∈ lexWords l ↔ ∃ e ∈ es, e.word = w) ∧
      (∀ w, w ∈ prefixWords l ↔ ∃ e ∈ es, e.word = w ∧ Attach.ATT_PRE ∈ e.attached) ∧
      (∀ w, w ∈ suffixWords l ↔ ∃ e ∈ es, e.word = w ∧ Attach.ATT_SUF ∈ e.attached) ∧
      ((∃ w ∈ lexWords l, w ≠ []) → ∀ t, (lexRe env l).all.run t = wordEnds (lexWords l) t) ∧
      ((∃ w ∈ prefixWords l, w ≠ []) → ∀ t, (lexRe env l).pre.run t = wordEnds (prefixWords l) t) ∧
      ((∃ w ∈ suffixWords l, w ≠ []) → ∀ t, (lexRe env l).suf.run t = wordEnds (suffixWords l) t) := by
  obtain ⟨l, h1, h2, H, C⟩ := loadLexicon_text ha ht
  have hl : PlainLexicon env.u l := plain_of H hp
  have hfor := lexRe_for hread hl C
  have hatt : ∀ (q : LexEntry → Bool) w, w ∈ (l.lex.filter (fun e => e.2.any q)).map (·.1) ↔ ∃ e ∈ es, e.word = w ∧ q e = true := by
    intro q w
    rw [← mem_attachedWords, H.attached_iff]
    simp only [mem_heldIns]
  have hrun : ∀ words r, Reads (trieOf words).getRegexp r → (∀ w ∈ words, w ∈ lexWords l) → (∃ w ∈ words, w ≠ []) →
      ∀ t, r.run t = wordEnds words t := by
    intro words r hr hw hne t
    obtain ⟨r', h1, h2, h3⟩ := C21_word_pattern words (fun w hw' c hc => (hl w (hw w hw') c hc).1) hne
    rw [h2 r hr, h3]
  have hsub : ∀ q, ∀ w ∈ Lexicon.attachedWords q l.lex, w ∈ lexWords l := by
    intro q w hw
    rw [mem_attachedWords, List.mem_map] at hw
    obtain ⟨e, he, rfl⟩ := hw
    exact List.mem_map.2 ⟨e, (List.mem_filter.1 he).1, rfl⟩
  refine ⟨l, h1, hl, hfor, ?_, ?_, ?_, ?_, ?_, ?_⟩
  · intro w; unfold lexWords; rw [H.key_iff]; simp only [mem_heldIns]
  · intro w; unfold prefixWords; rw [hatt]; simp [LexEntry.isPrefixAttached]
  · intro w; unfold suffixWords; rw [hatt]; simp [LexEntry.isSuffixAttached]
  · intro hne
    refine hrun _ _ ?_ (fun _ h => h) hne
    have h : Reads ((trieOf (lexWords l)).getRegexp.map env.u.canon) (lexRe env l).all := hfor.1
    rwa [pattern_map (canon_syntax env.u) (fun w hw c hc => (hl w hw c hc).2)] at h
  · rintro ⟨w, hw, h0⟩ t
    rw [hrun _ _ hfor.2.1 (hsub _) ⟨w, (mem_attachedWords ..).2 hw, h0⟩ t]
    exact wordEnds_same fun a _ _ _ => mem_attachedWords ..
  · rintro ⟨w, hw, h0⟩ t
    rw [hrun _ _ hfor.2.2 (hsub _) ⟨w, (mem_attachedWords ..).2 hw, h0⟩ t]
    exact wordEnds_same fun a _ _ _ => mem_attachedWords ..

/-! ### Examples -/

/-- The town lexicon under another name, the lines in another order, a line repeated. -/
def townText2 : Str := unlines [c!"# towns", c!"LEXICON:\tX\tFRE\ten\t2", c!"LEXENTRY:\tSTR\tSTRASSE\tTYPE\t", [],
  c!"LEXENTRY:\tNEW YORK\tNY\tCITY\t", c!"LEXENTRY:\tSTR\tSTRASSE\tTYPE\t"]

/-- The town lexicon with another town. -/
def townText3 : Str := unlines [c!"LEXICON:\tT\tENG\ten\t2", c!"LEXENTRY:\tNEW YORK\tNY\tCITY\t",
  c!"LEXENTRY:\tSTR\tSTRASSE\tTYPE\t", c!"LEXENTRY:\tPARIS\tPARIS\tCITY\t"]

def eNY : LexEntry := ⟨c!"NEW YORK", c!"NY", [.CITY], []⟩
def eStr : LexEntry := ⟨c!"STR", c!"STRASSE", [.TYPE], []⟩
def eParis : LexEntry := ⟨c!"PARIS", c!"PARIS", [.CITY], []⟩

theorem townText_means : LexText asciiIcu townText c!"LEXICON:\tT\tENG\ten\t2" [eNY, eStr] := by
  refine ⟨_, _, c!"LEXICON:\tT\tENG\ten\t2", _, rfl, .plain (by decide), ⟨[], rfl, by decide, by decide⟩, by decide, by decide +kernel, ?_⟩
  exact .entry (l := c!"LEXENTRY:\tNEW YORK\tNY\tCITY\t") (Or.inl (by decide)) (by decide +kernel)
    (.entry (l := c!"LEXENTRY:\tSTR\tSTRASSE\tTYPE\t") (Or.inl (by decide)) (by decide +kernel) (.blank .nil))

theorem townText2_means : LexText asciiIcu townText2 c!"LEXICON:\tX\tFRE\ten\t2" [eStr, eNY, eStr] := by
  refine ⟨_, _, c!"# towns", _, rfl, .plain (by decide), ⟨[c!"# towns"], rfl, by decide, by decide⟩, by decide, by decide +kernel, ?_⟩
  exact .entry (l := c!"LEXENTRY:\tSTR\tSTRASSE\tTYPE\t") (Or.inl (by decide)) (by decide +kernel)
    (.blank (.entry (l := c!"LEXENTRY:\tNEW YORK\tNY\tCITY\t") (Or.inl (by decide)) (by decide +kernel)
      (.entry (l := c!"LEXENTRY:\tSTR\tSTRASSE\tTYPE\t") (Or.inl (by decide)) (by decide +kernel) (.blank .nil))))

theorem townText3_means : LexText asciiIcu townText3 c!"LEXICON:\tT\tENG\ten\t2" [eNY, eStr, eParis] := by
  refine ⟨_, _, c!"LEXICON:\tT\tENG\ten\t2", _, rfl, .plain (by decide), ⟨[], rfl, by decide, by decide⟩, by decide, by decide +kernel, ?_⟩
  exact .entry (l := c!"LEXENTRY:\tNEW YORK\tNY\tCITY\t") (Or.inl (by decide)) (by decide +kernel)
    (.entry (l := c!"LEXENTRY:\tSTR\tSTRASSE\tTYPE\t") (Or.inl (by decide)) (by decide +kernel)
      (.entry (l := c!"LEXENTRY:\tPARIS\tPARIS\tCITY\t") (Or.inl (by decide)) (by decide +kernel) (.blank .nil)))

/-- The three patterns are read as `x`. -/
def ReadAs (P Q R : Str) (x : LexRe) : Prop :=
  ∃ p q, P = p ++ c!"|" ∧ Q = c!"^" ++ q ++ c!"\\B" ∧ Reads (p.map asciiU.canon) x.all ∧ Reads q x.pre ∧ Reads R x.suf

open Classical in
/-- An environment in which patterns are read. -/
noncomputable def readingEnv : Env Rat Rat :=
  { exEnv with compile := fun P Q R => if h : ∃ x, ReadAs P Q R x then h.choose else townRe }

theorem readingEnv_reads : ReadsPatterns readingEnv := by
  intro p q r a b c h1 h2 h3
  have h : ∃ x, ReadAs (p ++ c!"|") (c!"^" ++ q ++ c!"\\B") r x := ⟨⟨a, b, c⟩, p, q, rfl, rfl, h1, h2, h3⟩
  have e : readingEnv.compile (p ++ c!"|") (c!"^" ++ q ++ c!"\\B") r = h.choose := dif_pos h
  rw [e]
  obtain ⟨p', q', e1, e2, k1, k2, k3⟩ := h.choose_spec
  rw [← List.append_cancel_right e1] at k1
  rw [← List.append_cancel_left (List.append_cancel_right e2)] at k2
  have e1 := reads_unique k1 h1
  have e2 := reads_unique k2 h2
  have e3 := reads_unique k3 h3
  cases hx : h.choose with
  | mk a' b' c' =>
    rw [hx] at e1 e2 e3
    rw [show a' = a from e1, show b' = b from e2, show c' = c from e3]

/-- The hypotheses of C67 are met by two different texts, those of C68 and C69 by a text with a further town. -/
example : townText ≠ townText2 ∧ LexText exEnv.icu townText c!"LEXICON:\tT\tENG\ten\t2" [eNY, eStr] ∧
    LexText exEnv.icu townText2 c!"LEXICON:\tX\tFRE\ten\t2" [eStr, eNY, eStr] ∧
    headerLocale c!"LEXICON:\tT\tENG\ten\t2" = headerLocale c!"LEXICON:\tX\tFRE\ten\t2" ∧
    (∀ w, (held ([eNY, eStr].map LexOp.ins)).filter (fun e => e.word = w) =
      (held ([eStr, eNY, eStr].map LexOp.ins)).filter (fun e => e.word = w)) := by
  refine ⟨by decide +kernel, townText_means, townText2_means, by decide +kernel, ?_⟩
  intro w
  have e1 : held ([eNY, eStr].map LexOp.ins) = [eNY, eStr] := by decide +kernel
  have e2 : held ([eStr, eNY, eStr].map LexOp.ins) = [eStr, eNY] := by decide +kernel
  rw [e1, e2]
  by_cases h : w = c!"STR"
  · subst h; decide +kernel
  · have : ¬ eStr.word = w := fun e => h e.symm
    simp [List.filter_cons, this]

example : ReadsPatterns readingEnv ∧ LexText readingEnv.icu townText c!"LEXICON:\tT\tENG\ten\t2" [eNY, eStr] ∧
    LexText readingEnv.icu townText3 c!"LEXICON:\tT\tENG\ten\t2" ([eNY, eStr] ++ [eParis]) ∧
    readingEnv.archive townText = .notArchive ∧ readingEnv.archive townText3 = .notArchive ∧
    (∀ e ∈ [eNY, eStr] ++ [eParis], ∀ c ∈ e.word, c ∉ unescaped ∧ readingEnv.u.canon c = c) ∧
    (∃ e ∈ [eNY, eStr], e.word ≠ []) ∧
    (∀ e ∈ [eParis], ¬ Occurs readingEnv.u (textFor readingEnv c!"en" (headerLocale c!"LEXICON:\tT\tENG\ten\t2") c!"12 new york str") e.word) ∧
    Occurs readingEnv.u (textFor readingEnv c!"en" (headerLocale c!"LEXICON:\tT\tENG\ten\t2") c!"12 new york str") eNY.word := by
  refine ⟨readingEnv_reads, townText_means, townText3_means, rfl, rfl, ?_, by decide, ?_, ?_⟩
  · show ∀ e ∈ [eNY, eStr] ++ [eParis], ∀ c ∈ e.word, c ∉ unescaped ∧ asciiU.canon c = c
    decide +kernel
  · intro e he
    rw [List.mem_singleton.1 he]
    rintro (h | ⟨a, b, h⟩)
    · revert h; decide
    · have : 'P' ∈ levelled asciiU c!"12 NEW YORK STR" := by
        have e : levelled asciiU c!"12 NEW YORK STR" = a ++ levelled asciiU c!"PARIS" ++ b := h
        rw [e]
        have : levelled asciiU c!"PARIS" = c!"PARIS" := by decide +kernel
        simp [this]
      revert this
      decide +kernel
  · exact Or.inr ⟨c!"12 ", c!" STR", by
      show levelled asciiU _ = c!"12 " ++ levelled asciiU _ ++ c!" STR"
      decide +kernel⟩

end AS.Props
