import Verif.Lemmas.ElisionSame
import Verif.Props.Agree
/-
Property C87: words that end in an apostrophe or another mark.
-/
namespace AS.Props
open AS AS.Wrapper AS.Tokenizer
variable {F D : Type}

theorem sameBut_of {u : UTables} {q : Char} (hq : Mark u q) {es es' : List LexEntry} {l l' : Lexicon} {x x' : LexRe}
    (H : Lexicon.Holds l (held (es.map LexOp.ins))) (H' : Lexicon.Holds l' (held (es'.map LexOp.ins)))
    (hl : PlainLexicon u l) (hl' : PlainLexicon u l') (hx : x.For u l) (hx' : x'.For u l')
    (hne : ∃ w ∈ lexWords l, w ≠ []) (hne' : ∃ w ∈ lexWords l', w ≠ []) (hclass : ∀ e ∈ es, e.type ≠ [])
    (hsame : ∀ w, ¬ Elided u q w → es.filter (fun e => e.word = w) = es'.filter (fun e => e.word = w)) :
    SameBut u q l l' x x' := by
  have hmem : ∀ w, ¬ Elided u q w → ∀ e : LexEntry, e.word = w → (e ∈ es ↔ e ∈ es') := by
    intro w hw e he
    have h1 : e ∈ es.filter (fun e => e.word = w) ↔ e ∈ es'.filter (fun e => e.word = w) := by rw [hsame w hw]
    simpa [he] using h1
  have hkey : ∀ w, w ∈ lexWords l ↔ ∃ e ∈ es, e.word = w := fun w => by
    unfold lexWords; rw [H.key_iff]; simp only [mem_heldIns]
  have hkey' : ∀ w, w ∈ lexWords l' ↔ ∃ e ∈ es', e.word = w := fun w => by
    unfold lexWords; rw [H'.key_iff]; simp only [mem_heldIns]
  have hex : ∀ (p : LexEntry → Bool) w, ¬ Elided u q w →
      ((∃ e ∈ es, e.word = w ∧ p e = true) ↔ ∃ e ∈ es', e.word = w ∧ p e = true) := by
    intro p w hw
    constructor
    · rintro ⟨e, he, h1, h2⟩; exact ⟨e, (hmem w hw e h1).1 he, h1, h2⟩
    · rintro ⟨e, he, h1, h2⟩; exact ⟨e, (hmem w hw e h1).2 he, h1, h2⟩
  have hwords : AgreeBut u q (lexWords l) (lexWords l') := by
    intro w hw
    rw [hkey, hkey']
    simpa using hex (fun _ => true) w hw
  refine ⟨fun w hw => ?_, ?_, hwords, ?_⟩
  · exact .of_eq (by rw [H.find, H'.find, held_filter, held_filter, hsame w hw])
  · refine matchSame_of (noMark_closed hq) hl hl' hx hx' hne hne' ?_ ?_ ?_
    · intro s a b hs e
      refine hwords a ?_
      rcases hs with hs | rfl
      · refine not_elided_of_no_mark fun hm => hs ?_
        have : q ∈ s.map u.canon := by rw [e]; exact List.mem_append_left _ hm
        obtain ⟨c, hc, h⟩ := List.mem_map.1 this
        rw [← hq.canon c h]; exact hc
      · have e1 : u.canon ' ' = ' ' := u.canon_ascii _ (by decide) (by decide)
        rw [List.map_cons, e1, List.map_nil] at e
        refine not_elided_of_outer fun c hc => outer_blank u c ?_
        rw [e]; exact List.mem_append_left _ hc
    · intro w hw
      have e1 : w ∈ prefixWords l ↔ ∃ e ∈ es, e.word = w ∧ LexEntry.isPrefixAttached e = true := by
        unfold prefixWords; rw [← mem_attachedWords, H.attached_iff]; simp only [mem_heldIns]
      have e2 : w ∈ prefixWords l' ↔ ∃ e ∈ es', e.word = w ∧ LexEntry.isPrefixAttached e = true := by
        unfold prefixWords; rw [← mem_attachedWords, H'.attached_iff]; simp only [mem_heldIns]
      rw [e1, e2, hex _ w hw.not_elided]
    · intro w hw
      have e1 : w ∈ suffixWords l ↔ ∃ e ∈ es, e.word = w ∧ LexEntry.isSuffixAttached e = true := by
        unfold suffixWords; rw [← mem_attachedWords, H.attached_iff]; simp only [mem_heldIns]
      have e2 : w ∈ suffixWords l' ↔ ∃ e ∈ es', e.word = w ∧ LexEntry.isSuffixAttached e = true := by
        unfold suffixWords; rw [← mem_attachedWords, H'.attached_iff]; simp only [mem_heldIns]
      rw [e1, e2, hex _ w hw.not_elided]
  · intro w hw
    obtain ⟨e, he, h1⟩ := (hkey w).1 hw
    refine ⟨e, ?_, hclass e he⟩
    rw [H.find, held_filter, mem_heldIns, List.mem_filter]
    exact ⟨he, by simpa using h1⟩

/-- Entries whose words end in a mark, such as "RUE D'", do not matter for an address in which every such mark stands
before a letter, as in "RUE D'ARC": two lexicon texts that differ only in them give the same results. -/
theorem C87_elided (env : Env F D) (hread : ReadsPatterns env) (q : Char) (hq : Mark env.u q) (text text' h h' : Str)
    (es es' : List LexEntry) (ha : env.archive text = .notArchive) (ha' : env.archive text' = .notArchive)
    (ht : LexText env.icu text h es) (ht' : LexText env.icu text' h' es') (hloc : headerLocale h = headerLocale h')
    (hp : ∀ e ∈ es ++ es', ∀ c ∈ e.word, c ∉ unescaped ∧ env.u.canon c = c) (hclass : ∀ e ∈ es ++ es', e.type ≠ [])
    (hne : ∃ e ∈ es, e.word ≠ []) (hne' : ∃ e ∈ es', e.word ≠ [])
    (hsame : ∀ w, ¬ Elided env.u q w → es.filter (fun e => e.word = w) = es'.filter (fun e => e.word = w))
    (address grammar locale filter : Str)
    (htab : '\t' ∉ textFor env locale (headerLocale h) address)
    (hcanon : ∀ c ∈ textFor env locale (headerLocale h) address, env.u.canon c = c)
    (helide : Elides env.u q (textFor env locale (headerLocale h) address)) :
    stdStandardize env address grammar text locale filter = stdStandardize env address grammar text' locale filter ∧
    stdParseAddress env address text locale filter = stdParseAddress env address text' locale filter ∧
    stdMatchAddress env address grammar text locale filter = stdMatchAddress env address grammar text' locale filter := by
  obtain ⟨l, h1, h2, H, C⟩ := loadLexicon_text ha ht
  obtain ⟨l', h1', h2', H', C'⟩ := loadLexicon_text ha' ht'
  have hl : PlainLexicon env.u l := plain_of H (fun e he => hp e (List.mem_append_left _ he))
  have hl' : PlainLexicon env.u l' := plain_of H' (fun e he => hp e (List.mem_append_right _ he))
  have kne : ∃ w ∈ lexWords l, w ≠ [] := by
    obtain ⟨e, he, h0⟩ := hne
    refine ⟨_, ?_, h0⟩
    unfold lexWords; rw [H.key_iff]; exact ⟨e, (mem_heldIns es e).2 he, rfl⟩
  have kne' : ∃ w ∈ lexWords l', w ≠ [] := by
    obtain ⟨e, he, h0⟩ := hne'
    refine ⟨_, ?_, h0⟩
    unfold lexWords; rw [H'.key_iff]; exact ⟨e, (mem_heldIns es' e).2 he, rfl⟩
  have S := sameBut_of hq H H' hl hl' (lexRe_for hread hl C) (lexRe_for hread hl' C') kne kne'
    (fun e he => hclass e (List.mem_append_left _ he)) hsame
  have et : textOf env l locale address = textFor env locale (headerLocale h) address := by rw [textOf, h2]; rfl
  obtain ⟨k1, k2⟩ := phrases_good hq S hl hl' (lexRe_for hread hl C) (lexRe_for hread hl' C') kne kne'
    (by rw [h2, h2', hloc]) (locale := locale) (filter := filter) (address := address)
    (by rw [et]; exact htab) (by rw [et]; exact hcanon) (by rw [et]; exact helide)
  have key := address_same_of S.finds k1 k2
  refine ⟨?_, ?_, ?_⟩
  · unfold stdStandardize
    rw [h1, h1']
    split
    · rfl
    · rfl
    · next g _ => exact (key g).1
  · unfold stdParseAddress
    rw [h1, h1']
    simp only
    exact (key {}).2.1
  · unfold stdMatchAddress
    rw [h1, h1']
    split
    · rfl
    · rfl
    · next g _ => exact (key g).2.2

/-- So the lines for such words may be left out. -/
theorem C87_left_out (env : Env F D) (hread : ReadsPatterns env) (q : Char) (hq : Mark env.u q) (text text' h h' : Str)
    (es es' : List LexEntry) (ha : env.archive text = .notArchive) (ha' : env.archive text' = .notArchive)
    (ht : LexText env.icu text h es) (ht' : LexText env.icu text' h' es') (hloc : headerLocale h = headerLocale h')
    (hp : ∀ e ∈ es, ∀ c ∈ e.word, c ∉ unescaped ∧ env.u.canon c = c) (hclass : ∀ e ∈ es, e.type ≠ [])
    (hne : ∃ e ∈ es', e.word ≠ []) (kept : LexEntry → Bool) (hes : es' = es.filter kept)
    (hout : ∀ e ∈ es, kept e = false → Elided env.u q e.word)
    (address grammar locale filter : Str)
    (htab : '\t' ∉ textFor env locale (headerLocale h) address)
    (hcanon : ∀ c ∈ textFor env locale (headerLocale h) address, env.u.canon c = c)
    (helide : Elides env.u q (textFor env locale (headerLocale h) address)) :
    stdStandardize env address grammar text locale filter = stdStandardize env address grammar text' locale filter ∧
    stdParseAddress env address text locale filter = stdParseAddress env address text' locale filter ∧
    stdMatchAddress env address grammar text locale filter = stdMatchAddress env address grammar text' locale filter := by
  have sub : ∀ e ∈ es', e ∈ es := fun e he => by rw [hes] at he; exact (List.mem_filter.1 he).1
  have all : ∀ e ∈ es ++ es', e ∈ es := fun e he => (List.mem_append.1 he).elim id (sub e)
  refine C87_elided env hread q hq text text' h h' es es' ha ha' ht ht' hloc (fun e he => hp e (all e he))
    (fun e he => hclass e (all e he)) ?_ hne ?_ address grammar locale filter htab hcanon helide
  · obtain ⟨e, he, h0⟩ := hne
    exact ⟨e, sub e he, h0⟩
  · intro w hw
    rw [hes, List.filter_filter]
    refine List.filter_congr fun e he => ?_
    cases hk : kept e with
    | true => simp
    | false =>
      have : e.word ≠ w := fun ew => hw (ew ▸ hout e he hk)
      simp [this]

/-- And no token of such an address is such a word. -/
theorem C87_no_token (env : Env F D) (hread : ReadsPatterns env) (q : Char) (hq : Mark env.u q) (text h : Str)
    (es : List LexEntry) (ha : env.archive text = .notArchive) (ht : LexText env.icu text h es)
    (hp : ∀ e ∈ es, ∀ c ∈ e.word, c ∉ unescaped ∧ env.u.canon c = c) (hclass : ∀ e ∈ es, e.type ≠ [])
    (hne : ∃ e ∈ es, e.word ≠ []) (address locale filter : Str)
    (htab : '\t' ∉ textFor env locale (headerLocale h) address)
    (hcanon : ∀ c ∈ textFor env locale (headerLocale h) address, env.u.canon c = c)
    (helide : Elides env.u q (textFor env locale (headerLocale h) address)) :
    ∃ l, loadLexicon env text = .ok l ∧ ∀ phrases, phrasesOf env l locale filter address = .ok phrases →
      ∀ phrase ∈ phrases, ∀ t ∈ phrase, ¬ Elided env.u q t.text := by
  obtain ⟨l, h1, h2, H, C⟩ := loadLexicon_text ha ht
  have hl : PlainLexicon env.u l := plain_of H hp
  have kne : ∃ w ∈ lexWords l, w ≠ [] := by
    obtain ⟨e, he, h0⟩ := hne
    refine ⟨_, ?_, h0⟩
    unfold lexWords; rw [H.key_iff]; exact ⟨e, (mem_heldIns es e).2 he, rfl⟩
  have hx := lexRe_for hread hl C
  have S := sameBut_of hq H H hl hl hx hx kne kne hclass (fun _ _ => rfl)
  have et : textOf env l locale address = textFor env locale (headerLocale h) address := by rw [textOf, h2]; rfl
  exact ⟨l, h1, (phrases_good hq S hl hl hx hx kne kne rfl (locale := locale) (filter := filter) (address := address)
    (by rw [et]; exact htab) (by rw [et]; exact hcanon) (by rw [et]; exact helide)).2⟩

/-! ### Examples -/

/-- Streets with and without an elision. -/
def rueText : Str := unlines [c!"LEXICON:\tT\tFRE\ten\t2", c!"LEXENTRY:\tRUE\tRUE\tTYPE\t",
  c!"LEXENTRY:\tRUE D'\tRUE\tTYPE\tATT_PRE", c!"LEXENTRY:\tSUITE \tSTE\tUNITH\tDETACH"]

def rueText2 : Str := unlines [c!"LEXICON:\tT\tFRE\ten\t2", c!"LEXENTRY:\tRUE\tRUE\tTYPE\t",
  c!"LEXENTRY:\tSUITE \tSTE\tUNITH\tDETACH"]

def eRue : LexEntry := ⟨c!"RUE", c!"RUE", [.TYPE], []⟩
def eRueD : LexEntry := ⟨c!"RUE D'", c!"RUE", [.TYPE], [.ATT_PRE]⟩
def eSuite : LexEntry := ⟨c!"SUITE ", c!"STE", [.UNITH], []⟩

theorem rueText_means : LexText asciiIcu rueText c!"LEXICON:\tT\tFRE\ten\t2" [eRue, eRueD, eSuite] := by
  refine ⟨_, _, c!"LEXICON:\tT\tFRE\ten\t2", _, rfl, .plain (by decide), ⟨[], rfl, by decide, by decide⟩, by decide, by decide +kernel, ?_⟩
  exact .entry (l := c!"LEXENTRY:\tRUE\tRUE\tTYPE\t") (Or.inl (by decide)) (by decide +kernel)
    (.entry (l := c!"LEXENTRY:\tRUE D'\tRUE\tTYPE\tATT_PRE") (Or.inl (by decide)) (by decide +kernel)
      (.entry (l := c!"LEXENTRY:\tSUITE \tSTE\tUNITH\tDETACH") (Or.inl (by decide)) (by decide +kernel) (.blank .nil)))

theorem rueText2_means : LexText asciiIcu rueText2 c!"LEXICON:\tT\tFRE\ten\t2" [eRue, eSuite] := by
  refine ⟨_, _, c!"LEXICON:\tT\tFRE\ten\t2", _, rfl, .plain (by decide), ⟨[], rfl, by decide, by decide⟩, by decide, by decide +kernel, ?_⟩
  exact .entry (l := c!"LEXENTRY:\tRUE\tRUE\tTYPE\t") (Or.inl (by decide)) (by decide +kernel)
      (.entry (l := c!"LEXENTRY:\tSUITE \tSTE\tUNITH\tDETACH") (Or.inl (by decide)) (by decide +kernel) (.blank .nil))

theorem elides_check {u : UTables} {q : Char} : ∀ {s : Str},
    (∀ p ∈ s.zip (s.tail.map some ++ [none]), p.1 = q → ∃ c ∈ p.2, ¬ SepChar u c) → Elides u q s := by
  intro s h a b e
  have key : ∀ (s : Str) (a b : Str), s = a ++ q :: b → (q, b.head?) ∈ s.zip (s.tail.map some ++ [none]) := by
    intro s a
    induction a generalizing s with
    | nil =>
      rintro b rfl
      cases b <;> simp
    | cons x a ih =>
      rintro b rfl
      have := ih _ b rfl
      cases a with
      | nil => simp at this ⊢; right; exact this
      | cons y a => simp at this ⊢; right; exact this
  obtain ⟨c, h1, h2⟩ := h _ (key s a b e) rfl
  exact ⟨c, h1, h2⟩

theorem mark_low {q : Char} (h : q.toNat < 65) (h1 : asciiU.isWord q = false) (h2 : asciiU.fold q = q)
    (h3 : q ≠ '/' ∧ q ≠ ',' ∧ q ≠ '.') : Mark asciiU q :=
  ⟨h1, h2, toUpper_low q h, h3⟩

/-- The hypotheses of C87, for the apostrophe: the text without the elision is the text without that line. -/
example : ReadsPatterns readingEnv ∧ Mark readingEnv.u '\'' ∧
    LexText readingEnv.icu rueText c!"LEXICON:\tT\tFRE\ten\t2" [eRue, eRueD, eSuite] ∧
    LexText readingEnv.icu rueText2 c!"LEXICON:\tT\tFRE\ten\t2" [eRue, eSuite] ∧
    readingEnv.archive rueText = .notArchive ∧ readingEnv.archive rueText2 = .notArchive ∧
    (∀ e ∈ [eRue, eRueD, eSuite], ∀ c ∈ e.word, c ∉ unescaped ∧ readingEnv.u.canon c = c) ∧
    (∀ e ∈ [eRue, eRueD, eSuite], e.type ≠ []) ∧ (∃ e ∈ [eRue, eSuite], e.word ≠ []) ∧
    [eRue, eSuite] = [eRue, eRueD, eSuite].filter (fun e => decide (e ≠ eRueD)) ∧
    (∀ e ∈ [eRue, eRueD, eSuite], decide (e ≠ eRueD) = false → Elided readingEnv.u '\'' e.word) ∧
    ('\t' ∉ textFor readingEnv c!"en" (headerLocale c!"LEXICON:\tT\tFRE\ten\t2") c!"5 rue d'arc") ∧
    (∀ c ∈ textFor readingEnv c!"en" (headerLocale c!"LEXICON:\tT\tFRE\ten\t2") c!"5 rue d'arc", readingEnv.u.canon c = c) ∧
    Elides readingEnv.u '\'' (textFor readingEnv c!"en" (headerLocale c!"LEXICON:\tT\tFRE\ten\t2") c!"5 rue d'arc") := by
  have et : textFor readingEnv c!"en" (headerLocale c!"LEXICON:\tT\tFRE\ten\t2") c!"5 rue d'arc" = c!"5 RUE D'ARC" := by
    show textFor exEnv _ _ _ = _
    decide +kernel
  rw [et]
  refine ⟨readingEnv_reads, mark_low (by decide) (by decide) (by decide) (by decide), rueText_means, rueText2_means, rfl, rfl, ?_,
    by decide, by decide, by decide, ?_, by decide, ?_, elides_check ?_⟩
  · show ∀ e ∈ [eRue, eRueD, eSuite], ∀ c ∈ e.word, c ∉ unescaped ∧ asciiU.canon c = c
    decide +kernel
  · show ∀ e ∈ [eRue, eRueD, eSuite], _ → Elided asciiU '\'' e.word
    decide +kernel
  · show ∀ c ∈ _, asciiU.canon c = c
    decide +kernel
  · show ∀ p ∈ (_ : List (Char × Option Char)), p.1 = '\'' → ∃ c ∈ p.2, ¬ SepChar asciiU c
    decide +kernel

/-- And for the blank. -/
example : Mark asciiU ' ' ∧ Elided asciiU ' ' eSuite.word ∧ ¬ Elided asciiU ' ' eRueD.word ∧
    Elides asciiU ' ' c!"5 RUE D'ARC SUITE 3" ∧ ¬ Elides asciiU ' ' c!"5 RUE D'ARC SUITE , 3" := by
  refine ⟨mark_low (by decide) (by decide) (by decide) (by decide), by decide +kernel, by decide +kernel,
    elides_check (by decide +kernel), fun h => ?_⟩
  obtain ⟨c, h1, h2⟩ := h c!"5 RUE D'ARC SUITE" c!", 3" rfl
  simp only [List.head?_cons, Option.some.injEq] at h1
  subst h1
  exact h2 (by decide +kernel)

def rueLexicon : Lexicon :=
  { lex := [(c!"RUE", [eRue]), (c!"RUE D'", [eRueD]), (c!"SUITE ", [eSuite])] }

def rueRe : LexRe :=
  { all := readOf ((trieOf (rueLexicon.lex.map (·.1))).getRegexp.map asciiU.canon)
    pre := readOf (trieOf (Lexicon.attachedWords LexEntry.isPrefixAttached rueLexicon.lex)).getRegexp
    suf := readOf (trieOf (Lexicon.attachedWords LexEntry.isSuffixAttached rueLexicon.lex)).getRegexp }

/-- The entry for "RUE D'", of the kind that may be attached, is used where a blank follows, not where a letter follows. The
entry for "SUITE" with a blank behind it is used where two blanks follow, not where one follows. -/
theorem C87_where : PlainLexicon asciiU rueLexicon ∧ rueRe.For asciiU rueLexicon ∧
    (getTokens asciiIcu asciiU rueLexicon rueRe [.SPACE] c!"5 rue d'arc").map (·.map (fun t => (t.text, t.inclass))) =
      some [(c!"5", [.NUMBER]), (c!"RUE", [.TYPE]), (c!"D", [.WORD, .SINGLE]), (c!"'", [.PUNCT]), (c!"ARC", [.WORD])] ∧
    (getTokens asciiIcu asciiU rueLexicon rueRe [.SPACE] c!"5 rue d' arc").map (·.map (fun t => (t.text, t.inclass))) =
      some [(c!"5", [.NUMBER]), (c!"RUE D'", [.TYPE]), (c!"ARC", [.WORD])] ∧
    (getTokens asciiIcu asciiU rueLexicon rueRe [.SPACE] c!"suite 3").map (·.map (fun t => (t.text, t.inclass))) =
      some [(c!"SUITE", [.WORD]), (c!"3", [.NUMBER])] ∧
    (getTokens asciiIcu asciiU rueLexicon rueRe [.SPACE] c!"suite  3").map (·.map (fun t => (t.text, t.inclass))) =
      some [(c!"SUITE ", [.UNITH]), (c!"3", [.NUMBER])] :=
  ⟨by unfold PlainLexicon; decide +kernel,
    ⟨reads_readOf (by decide +kernel), reads_readOf (by decide +kernel), reads_readOf (by decide +kernel)⟩,
    by decide +kernel, by decide +kernel, by decide +kernel, by decide +kernel⟩

end AS.Props
