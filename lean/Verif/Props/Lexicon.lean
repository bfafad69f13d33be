import Verif.Lemmas.LexiconRound
import Verif.Props.Trie
import Verif.Props.Grammar
/-
Properties C15 to C20, and the parts of C33 and C34 about lexicons.
-/
namespace AS.Props

/-! ## C15 -/

/-- What an entry line is read as. -/
theorem C15_read_fields (line : Str) : LexEntry.ofLine line = entryOf line := ofLine_eq_entryOf line

example : LexEntry.ofLine c!"LEXENTRY:\tST\tSTREET\tTYPE,WORD\tDET_SUF" =
      { word := c!"ST", stdword := c!"STREET", type := [.WORD, .TYPE], attached := [.DET_SUF] } ∧
    LexEntry.ofLine c!"ST\tSTREET" = { word := c!"ST", stdword := c!"STREET", type := InType.asType [], attached := [] } := by
  decide +kernel

/-- Print then parse is the identity on entries without tabs. -/
theorem C15_entry_roundtrip (e : LexEntry) (h1 : '\t' ∉ e.word) (h2 : '\t' ∉ e.stdword)
    (h3 : IsSet InType.code e.type) (h4 : IsSet Attach.code e.attached) : LexEntry.ofLine e.print = e :=
  entry_roundtrip e h1 h2 h3 h4

/-- Every entry read from a line satisfies the conditions. -/
theorem C15_read_then_print (line : Str) : LexEntry.ofLine (LexEntry.ofLine line).print = LexEntry.ofLine line := by
  rw [ofLine_eq_entryOf line]
  obtain ⟨p, ps, e, h, _⟩ := splitOn_spec '\t' line
  have hf : ∀ q ∈ entryFields line, '\t' ∉ q := by
    intro q hq
    apply h
    unfold entryFields at hq
    rw [e] at hq
    cases ps with
    | nil => simpa using hq
    | cons r rs =>
      simp only at hq
      split at hq
      · exact List.mem_cons_of_mem _ hq
      · exact hq
  have hg : ∀ n, '\t' ∉ (entryFields line).getD n [] := by
    intro n
    rw [List.getD_eq_getElem?_getD]
    cases hn : (entryFields line)[n]? with
    | none => simp
    | some q => exact hf q (List.mem_of_getElem? hn)
  apply entry_roundtrip
  · exact hg 0
  · exact hg 1
  · obtain ⟨S, h1, h2⟩ := C02_read_total ((entryFields line).getD 2 [])
    simp only [entryOf, InType.asType, h1]
    exact h2
  · obtain ⟨q, qs, hq, e⟩ := exists_parts ',' ((entryFields line).getD 3 [])
    obtain ⟨S, h1, h2, _⟩ := C03_read_attach_list q qs hq
    simp only [entryOf, Attach.asAttach]
    rw [e]
    change IsSet Attach.code ((Attach.asAttach? (joinWith c!"," (q :: qs))).getD [])
    rw [h1]
    exact h2

/-- An entry of several classes. -/
def entrySt : LexEntry := { word := c!"ST", stdword := c!"STREET", type := [.WORD, .TYPE], attached := [.DET_SUF] }

example : '\t' ∉ entrySt.word ∧ '\t' ∉ entrySt.stdword ∧ IsSet InType.code entrySt.type ∧ IsSet Attach.code entrySt.attached ∧
    entrySt.print = c!"LEXENTRY:\tST\tSTREET\tWORD,TYPE\tDET_SUF" := by unfold IsSet; decide +kernel

/-- A tab in a word is not preserved. -/
theorem C15_tab_lost (a b : Str) (e : LexEntry) (ha : '\t' ∉ a) (hw : e.word = a ++ '\t' :: b) :
    (LexEntry.ofLine e.print).word = a := by
  rw [ofLine_eq_entryOf]
  exact tab_lost a b e ha hw

example : (LexEntry.ofLine ({ entrySt with word := c!"A\tB" } : LexEntry).print).word = c!"A" := by decide +kernel

/-- Of a list of attachments, that it has this item, perhaps with blanks around. -/
def Names (items : List Str) (name : Str) : Prop :=
  ∃ q ∈ items, ∃ a b, q = List.replicate a ' ' ++ name ++ List.replicate b ' '

/-- An entry made from four texts is that of the line with these fields. -/
theorem C15_made (word stdword types attached : Str) (h1 : '\t' ∉ word) (h2 : '\t' ∉ stdword) (h3 : '\t' ∉ types)
    (h4 : '\t' ∉ attached) :
    LexEntry.make word stdword types attached =
      LexEntry.ofLine (joinWith c!"\t" [c!"LEXENTRY:", word, stdword, types, attached]) := by
  have e : splitOn '\t' (joinWith c!"\t" [c!"LEXENTRY:", word, stdword, types, attached]) =
      [c!"LEXENTRY:", word, stdword, types, attached] := by
    apply splitOn_join
    intro q hq
    simp only [List.mem_cons, List.not_mem_nil, or_false] at hq
    rcases hq with rfl | rfl | rfl | rfl | rfl
    · decide
    all_goals assumption
  rw [ofLine_eq_entryOf]
  unfold entryOf entryFields
  rw [e]
  rfl

/-- What an entry says of attachment is what the items of its list name; an entry is attached or detached, or both. -/
theorem C15_attached (word stdword types p : Str) (ps : List Str) (hc : ∀ q ∈ p :: ps, ',' ∉ q) :
    let e := LexEntry.make word stdword types (joinWith c!"," (p :: ps))
    (e.isPrefixAttached = true ↔ Names (p :: ps) c!"ATT_PRE") ∧ (e.isSuffixAttached = true ↔ Names (p :: ps) c!"ATT_SUF") ∧
    (e.isPrefix = true ↔ Names (p :: ps) c!"ATT_PRE" ∨ Names (p :: ps) c!"DET_PRE") ∧
    (e.isSuffix = true ↔ Names (p :: ps) c!"ATT_SUF" ∨ Names (p :: ps) c!"DET_SUF") ∧
    (e.isAttached = true ↔ Names (p :: ps) c!"ATT_PRE" ∨ Names (p :: ps) c!"ATT_SUF") ∧
    (e.isDetached = true ↔ Names (p :: ps) c!"DET_PRE" ∨ Names (p :: ps) c!"DET_SUF" ∨
      ∀ name ∈ [c!"ATT_PRE", c!"ATT_SUF", c!"DET_PRE", c!"DET_SUF"], ¬ Names (p :: ps) name) ∧
    (e.isAttached = true ∨ e.isDetached = true) := by
  obtain ⟨S, h1, _, h3⟩ := C03_read_attach_list p ps hc
  have hS : (LexEntry.make word stdword types (joinWith c!"," (p :: ps))).attached = S := by
    simp only [LexEntry.make, Attach.asAttach, h1, Option.getD_some]
  have hn : ∀ name t, (name, t) ∈ attachTable → (∀ name', (name', t) ∈ attachTable → name' = name) →
      (t ∈ S ↔ Names (p :: ps) name) := by
    intro name t hm hu
    rw [h3]
    constructor
    · rintro ⟨q, hq, n', a, b, hn', rfl⟩
      rw [hu n' hn'] at hq
      exact ⟨_, hq, a, b, rfl⟩
    · rintro ⟨q, hq, a, b, he⟩
      exact ⟨q, hq, name, a, b, hm, he⟩
  have k1 := hn c!"ATT_PRE" .ATT_PRE (by decide) (by simp [attachTable])
  have k2 := hn c!"ATT_SUF" .ATT_SUF (by decide) (by simp [attachTable])
  have k3 := hn c!"DET_PRE" .DET_PRE (by decide) (by simp [attachTable])
  have k4 := hn c!"DET_SUF" .DET_SUF (by decide) (by simp [attachTable])
  have h0 : S = [] ↔ Attach.ATT_PRE ∉ S ∧ Attach.ATT_SUF ∉ S ∧ Attach.DET_PRE ∉ S ∧ Attach.DET_SUF ∉ S := by
    constructor
    · rintro rfl; simp
    · rintro ⟨a, b, c, d⟩
      cases S with
      | nil => rfl
      | cons t ts => cases t <;> simp_all
  simp only [LexEntry.isPrefixAttached, LexEntry.isSuffixAttached, LexEntry.isPrefix, LexEntry.isSuffix, LexEntry.isAttached,
    LexEntry.isDetached, hS, List.length_eq_zero_iff, List.forall_mem_cons, ← k1, ← k2, ← k3, ← k4]
  by_cases a1 : Attach.ATT_PRE ∈ S <;> by_cases a2 : Attach.ATT_SUF ∈ S <;> by_cases a3 : Attach.DET_PRE ∈ S <;>
    by_cases a4 : Attach.DET_SUF ∈ S <;> simp [h0, a1, a2, a3, a4]

example : (∀ q ∈ [c!" ATT_PRE", c!"DET_SUF ", c!"DETACH"], ',' ∉ q) ∧
    LexEntry.make c!"ST" c!"SAINT" c!"WORD" c!" ATT_PRE,DET_SUF ,DETACH" =
      { word := c!"ST", stdword := c!"SAINT", type := [.WORD], attached := [.DET_SUF, .ATT_PRE] } ∧
    (LexEntry.make c!"ST" c!"SAINT" c!"WORD" c!"DETACH").isDetached = true := by decide +kernel

/-! ## C16 -/

/-- `find` after a history: the entries for the word that are held, in the order of their insertion. -/
theorem C16_find (n : Str) (la : Lang) (lo : Str) (ops : List LexOp) (w : Str) :
    (ops.foldl LexOp.apply { name := n, lang := la, locale := lo }).find w = (held ops).filter (fun e => e.word = w) :=
  ((Lexicon.holds_empty n la lo [] [] [] []).run ops).find w

/-- Held are the entries inserted and not removed afterwards, each once. -/
theorem C16_held (ops : List LexOp) :
    (held ops).Nodup ∧ ∀ e, e ∈ held ops ↔ ∃ pre post, ops = pre ++ LexOp.ins e :: post ∧ LexOp.rem e ∉ post :=
  ⟨((Lexicon.holds_empty [] .UNKNOWN [] [] [] [] []).run ops).nodup, Lexicon.mem_held ops⟩

/-- The order of held entries is that in which they were (last) newly inserted: the history up to a
held entry `e` that follows `e'` in the list leaves `e'` held and not `e`. -/
theorem C16_order (ops : List LexOp) (a b c : List LexEntry) (e e' : LexEntry)
    (h : held ops = a ++ e' :: b ++ e :: c) :
    ∃ pre post, ops = pre ++ LexOp.ins e :: post ∧ LexOp.rem e ∉ post ∧ e ∉ held pre ∧ e' ∈ held pre :=
  Lexicon.held_order ops a b c e e' h

/-- Inserting an entry that is present or removing one that is not changes nothing that can be found;
other words are never affected. -/
theorem C16_no_op (ops : List LexOp) (e : LexEntry) :
    let l := ops.foldl LexOp.apply { }
    (e ∈ l.find e.word → l.insert e = l) ∧
    (e ∉ l.find e.word → (l.remove e).lex = l.lex) ∧
    (∀ w, w ≠ e.word → (l.insert e).find w = l.find w ∧ (l.remove e).find w = l.find w) := by
  intro l
  have H : Lexicon.Holds l (held ops) := (Lexicon.holds_empty [] .UNKNOWN [] [] [] [] []).run ops
  refine ⟨?_, ?_, ?_⟩
  · intro h
    unfold Lexicon.insert
    simp only
    rw [if_pos ((Lexicon.present_iff _ _).2 h)]
  · intro h
    have he : e ∉ held ops := by
      intro h'; apply h; rw [H.find]; simp [h']
    have H' := H.remove e
    have : (held ops).filter (fun x => decide (x ≠ e)) = held ops := by
      apply List.filter_eq_self.2
      intro a ha
      simp only [ne_eq, decide_eq_true_eq]
      rintro rfl; exact he ha
    rw [this] at H'
    exact H'.lex_eq H
  · intro w hw
    have hw' : ¬ e.word = w := fun x => hw x.symm
    rw [(H.insert e).find, (H.remove e).find, H.find]
    constructor
    · split
      · rfl
      · rw [List.filter_append]; simp [hw']
    · rw [List.filter_filter]
      apply List.filter_congr
      intro x _
      by_cases hx : x = e
      · subst hx; simp [hw']
      · simp [hx]

/-- The count in the printed header is the number of words that have entries: the keys are distinct and
are exactly those words. -/
theorem C16_size (ops : List LexOp) :
    ∃ keys : List Str, (ops.foldl LexOp.apply { }).size = keys.length ∧ keys.Nodup ∧
      (∀ w, w ∈ keys ↔ (ops.foldl LexOp.apply { }).find w ≠ []) := by
  have H : Lexicon.Holds (ops.foldl LexOp.apply { }) (held ops) := (Lexicon.holds_empty [] .UNKNOWN [] [] [] [] []).run ops
  refine ⟨(ops.foldl LexOp.apply { }).lex.map (·.1), by simp [Lexicon.size], ?_, ?_⟩
  · have hs := H.sorted
    unfold OmSorted at hs
    rw [List.nodup_iff_pairwise_ne, List.pairwise_map]
    exact hs.imp (fun h => strLt_ne h)
  · intro w
    rw [H.key_iff, H.find]
    constructor
    · rintro ⟨e, he, rfl⟩ h0
      have : e ∈ (held ops).filter (fun x => decide (x.word = e.word)) := by simp [he]
      rw [h0] at this; cases this
    · intro h
      obtain ⟨e, es, h⟩ := List.exists_cons_of_ne_nil h
      have : e ∈ (held ops).filter (fun x => decide (x.word = w)) := by rw [h]; exact List.mem_cons_self ..
      simp only [List.mem_filter, decide_eq_true_eq] at this
      exact ⟨e, this.1, this.2⟩

/-- An entry for the same word. -/
def entrySaint : LexEntry := { word := c!"ST", stdword := c!"SAINT", type := [.WORD], attached := [.DET_PRE] }
/-- An entry that is attached at the end of words. -/
def entryWeg : LexEntry := { word := c!"WEG", stdword := c!"WEG", type := [.TYPE], attached := [.ATT_SUF, .ATT_PRE] }

/-- A history. -/
def someOps : List LexOp :=
  [.ins entryWeg, .ins entrySt, .ins entrySaint, .ins entryWeg, .rem entrySt, .ins entrySt, .rem entryWeg]

example : held someOps = [entrySaint, entrySt] ∧
    (someOps.foldl LexOp.apply { }).find c!"ST" = [entrySaint, entrySt] ∧
    (someOps.foldl LexOp.apply { }).find c!"WEG" = [] ∧ (someOps.foldl LexOp.apply { }).size = 1 := by decide +kernel

/-! ## C17 -/

/-- The patterns after any history of changes and requests are those of a new lexicon into which the
held entries are inserted. -/
theorem C17_patterns_current (us : List LexUse) :
    let l := us.foldl LexUse.apply { }
    let fresh := (held (LexUse.changes us)).foldl Lexicon.insert { }
    l.regex.2 = fresh.regex.2 ∧ l.regexPrefixAtt.2 = fresh.regexPrefixAtt.2 ∧ l.regexSuffixAtt.2 = fresh.regexSuffixAtt.2 := by
  intro l fresh
  have c0 : Lexicon.CacheOk { } := ⟨Or.inl rfl, Or.inl rfl, Or.inl rfl⟩
  have h0 := Lexicon.holds_empty [] .UNKNOWN [] [] [] [] []
  obtain ⟨c1, H1⟩ := Lexicon.use_inv us c0 h0
  have hn : (held (LexUse.changes us)).Nodup := H1.nodup
  obtain ⟨c2, H2⟩ := Lexicon.inserts_inv (held (LexUse.changes us)) hn c0 h0 (by simp)
  have e : l.lex = fresh.lex := H1.lex_eq H2
  refine ⟨?_, ?_, ?_⟩
  · rw [c1.regex.1, c2.regex.1]; exact congrArg _ e
  · rw [c1.regexPrefixAtt.1, c2.regexPrefixAtt.1]; exact congrArg _ e
  · rw [c1.regexSuffixAtt.1, c2.regexSuffixAtt.1]; exact congrArg _ e

/-- What the patterns are: those of the trie (C21) of the words of the held entries, of those with an
entry attached in front, and of those with an entry attached at the end. -/
theorem C17_pattern_words (us : List LexUse) :
    let l := us.foldl LexUse.apply { }
    let h := held (LexUse.changes us)
    (∃ ws, l.regex.2 = (trieOf ws).getRegexp ++ c!"|" ∧ ∀ w, w ∈ ws ↔ ∃ e ∈ h, e.word = w) ∧
    (∃ ws, l.regexPrefixAtt.2 = c!"^" ++ (trieOf ws).getRegexp ++ c!"\\B" ∧
      ∀ w, w ∈ ws ↔ ∃ e ∈ h, e.word = w ∧ .ATT_PRE ∈ e.attached) ∧
    (∃ ws, l.regexSuffixAtt.2 = (trieOf ws).getRegexp ∧
      ∀ w, w ∈ ws ↔ ∃ e ∈ h, e.word = w ∧ .ATT_SUF ∈ e.attached) := by
  intro l h
  have c0 : Lexicon.CacheOk { } := ⟨Or.inl rfl, Or.inl rfl, Or.inl rfl⟩
  have h0 := Lexicon.holds_empty [] .UNKNOWN [] [] [] [] []
  obtain ⟨c1, H1⟩ := Lexicon.use_inv us c0 h0
  refine ⟨⟨_, c1.regex.1, H1.key_iff⟩, ⟨_, c1.regexPrefixAtt.1, fun w => ?_⟩, ⟨_, c1.regexSuffixAtt.1, fun w => ?_⟩⟩
  · rw [H1.attached_iff]; simp [LexEntry.isPrefixAttached]; rfl
  · rw [H1.attached_iff]; simp [LexEntry.isSuffixAttached]; rfl

/-- A history with requests. -/
def someUses : List LexUse :=
  [.change (.ins entrySt), .regex, .regexSuffixAtt, .change (.ins entryWeg), .regexPrefixAtt, .regex]

example : (someUses.foldl LexUse.apply { }).regex.2 = c!"(?:ST|WEG)|" ∧
    (someUses.foldl LexUse.apply { }).regexSuffixAtt.2 = c!"WEG" ∧
    (someUses.foldl LexUse.apply { }).regexPrefixAtt.2 = c!"^WEG\\B" := by decide +kernel

/-! ## C18 -/

/-- A text that stands for entries is loaded, with these entries. -/
theorem C18_loads (icu : Icu) (name text h : Str) (es : List LexEntry) (ht : LexText icu text h es) :
    ∃ l, Lexicon.initialize icu name text = .ok l ∧ l.name = name ∧ l.lang = headerLang h ∧ l.locale = headerLocale h ∧
      ∀ w, l.find w = (held (es.map LexOp.ins)).filter (fun e => e.word = w) :=
  Lexicon.loads icu name text h es ht

/-- Only such texts are loaded. -/
theorem C18_only (icu : Icu) (name text : Str) (l : Lexicon) (hl : Lexicon.initialize icu name text = .ok l) :
    ∃ h es, LexText icu text h es :=
  Lexicon.loads_only icu name text l hl

/-- Meaning is unique, so `C18_loads` determines the result of every successful load. -/
theorem C18_meaning_unique (icu : Icu) (text h h' : Str) (es es' : List LexEntry)
    (ht : LexText icu text h es) (ht' : LexText icu text h' es') : h = h' ∧ es = es' :=
  Lexicon.lexText_unique ht ht'

/-- The held entries of a load: first occurrences, in order. -/
theorem C18_dedup (es : List LexEntry) (e : LexEntry) : (held (es.map LexOp.ins)).Nodup ∧
    (e ∈ held (es.map LexOp.ins) ↔ e ∈ es) ∧ (es.Nodup → held (es.map LexOp.ins) = es) := by
  refine ⟨(C16_held _).1, ?_, fun h => ?_⟩
  · rw [(C16_held _).2]
    constructor
    · rintro ⟨pre, post, h, _⟩
      have : LexOp.ins e ∈ es.map LexOp.ins := by rw [h]; simp
      simpa using this
    · intro h
      obtain ⟨a, b, rfl⟩ := List.append_of_mem h
      exact ⟨a.map .ins, b.map .ins, by simp, by simp⟩
  · rw [Lexicon.held_ins]
    exact (Lexicon.inserts_nodup es [] h (by simp)).trans (by simp)

/-- Loading never runs on forever, and the error tells what is wrong. -/
theorem C18_errors (icu : Icu) (name text : Str) :
    Lexicon.initialize icu name text ≠ .error .diverges ∧
    (Lexicon.initialize icu name text = .error .outOfRange ↔ (splitOn '\n' text).head? = some ['\uFEFF']) ∧
    (Lexicon.initialize icu name text = .error .entryBeforeLexicon ↔
      ∃ p ps p' pre l post, splitOn '\n' text = p :: ps ∧ AfterBom p p' ∧ p' :: ps = pre ++ l :: post ∧
      c!"LEXENTRY:" <+: l ∧ ∀ x ∈ pre, ¬ c!"LEXICON:" <+: x ∧ ¬ c!"LEXENTRY:" <+: x) ∧
    (Lexicon.initialize icu name text = .error .invalidFileFormat ↔ ∃ p ps p', splitOn '\n' text = p :: ps ∧ AfterBom p p' ∧
      ∀ x ∈ p' :: ps, ¬ c!"LEXICON:" <+: x ∧ ¬ c!"LEXENTRY:" <+: x) :=
  Lexicon.load_errors icu name text

/-- A line after the header that is neither blank nor an entry is an error. -/
theorem C18_other_line (icu : Icu) (name text : Str) (p : Str) (ps pre body a b : List Str) (h l : Str)
    (ht : splitOn '\n' text = p :: ps) (hb : p.head? ≠ some '\uFEFF')
    (hh : p :: ps = pre ++ h :: body) (hpre : ∀ x ∈ pre, ¬ c!"LEXICON:" <+: x ∧ ¬ c!"LEXENTRY:" <+: x)
    (h8 : c!"LEXICON:" <+: h) (hbody : body = a ++ l :: b) (hl : l ≠ [])
    (hn : ¬ c!"LEXENTRY:" <+: l ∧ ¬ c!"LexEntry:" <+: l) :
    ∃ e, Lexicon.initialize icu name text = .error e := by
  cases hi : Lexicon.initialize icu name text with
  | error e => exact ⟨e, rfl⟩
  | ok L =>
    obtain ⟨h', es, q, qs, q', body', e1, e2, e3, e4, e5, e6⟩ := C18_only icu name text L hi
    rw [ht] at e1
    obtain ⟨rfl, rfl⟩ := List.cons.inj e1
    have hq : q' = p := by
      cases e2 with
      | plain _ => rfl
      | cut _ => simp at hb
      | broken _ => simp at hb
    subst hq
    obtain ⟨pre', f1, f2, f3⟩ := e3
    obtain ⟨_, rfl, rfl⟩ := Lexicon.header_unique (hh.symm.trans f1) hpre f2 h8 f3
    exfalso
    have hmem : l ∈ linesRead icu (headerLocale h) body := by
      apply Lexicon.mem_linesRead; rw [hbody]; simp
    rcases Lexicon.bodyMeans_lines e6 l hmem with h | h
    · exact hl h
    · rcases h.1 with h | h
      · exact hn.1 h
      · exact hn.2 h

/-- A lexicon text with a comment before the header, a blank line, repeated blanks and a duplicate. -/
def someText : Str :=
  c!"# my lexicon\nLEXICON:\tus\tENG\ten\t7\nLEXENTRY:\tSt\tStreet\tTYPE,WORD\tDET_SUF\n\nLEXENTRY:\tROUND   PT\tRND PT\tTYPE\nLEXENTRY:\tST\tSTREET\tWORD,TYPE\tDET_SUF\n"

example : ∃ l, Lexicon.initialize asciiIcu c!"us" someText = .ok l ∧ l.lang = .ENG ∧ l.locale = c!"en" ∧
    l.find c!"ST" = [entrySt] ∧ (l.find c!"ROUND PT").length = 1 ∧ l.size = 2 :=
  exists_ok (by decide +kernel)

example : LexText asciiIcu someText c!"LEXICON:\tus\tENG\ten\t7"
    [entrySt, { word := c!"ROUND PT", stdword := c!"RND PT", type := [.TYPE], attached := [] }, entrySt] := by
  refine ⟨_, _, c!"# my lexicon", _, rfl, .plain (by decide),
    ⟨[c!"# my lexicon"], rfl, by decide, by decide⟩, by decide, by decide +kernel, ?_⟩
  exact .entry (l := c!"LEXENTRY:\tSt\tStreet\tTYPE,WORD\tDET_SUF") (Or.inl (by decide)) (by decide +kernel)
    (.blank (.entry (l := c!"LEXENTRY:\tROUND   PT\tRND PT\tTYPE") (Or.inl (by decide)) (by decide +kernel)
      (.entry (l := c!"LEXENTRY:\tST\tSTREET\tWORD,TYPE\tDET_SUF") (Or.inl (by decide)) (by decide +kernel) (.blank .nil))))

example : Lexicon.initialize asciiIcu [] c!"LEXENTRY:\tST\tSTREET\tTYPE\nLEXICON:\tus\tENG\n" = .error .entryBeforeLexicon ∧
    Lexicon.initialize asciiIcu [] c!"hello\n" = .error .invalidFileFormat ∧
    Lexicon.initialize asciiIcu [] c!"LEXICON:\tus\tENG\n# note\n" = .error (.invalidLexEntry c!"# note") ∧
    Lexicon.initialize asciiIcu [] c!"LEXICON:\tus\tENG\nLEXENTRY:\tA\tB\tNOSUCH\n" =
      .error (.invalidLexEntry c!"LEXENTRY:\tA\tB\tNOSUCH") ∧
    Lexicon.initialize asciiIcu [] c!"LEXICON: us\n" = .error (.invalidDataFormat c!"LEXICON: us") :=
  ⟨eq_error (by decide +kernel), eq_error (by decide +kernel), eq_error (by decide +kernel), eq_error (by decide +kernel),
    eq_error (by decide +kernel)⟩

/-- The mixed-case tag is only understood by lexicons with a locale: without one the tag becomes the
word of the entry. -/
theorem C18_mixed_case_tag (line : Str) (h : (splitOn '\t' line).head? = some c!"LexEntry:") :
    (LexEntry.ofLine line).word = c!"LexEntry:" := by
  rw [C15_read_fields]
  unfold entryOf entryFields
  obtain ⟨p, ps, e, _⟩ := splitOn_spec '\t' line
  rw [e] at h ⊢
  simp only [List.head?_cons, Option.some.injEq] at h
  subst h
  cases ps <;> simp

example : (∃ l, Lexicon.initialize asciiIcu [] c!"LEXICON:\tus\tENG\nLexEntry:\tST\tTYPE\tTYPE\n" = .ok l ∧
      l.find c!"ST" = [] ∧ (l.find c!"LexEntry:").length = 1) ∧
    (∃ l, Lexicon.initialize asciiIcu [] c!"LEXICON:\tus\tENG\ten\nLexEntry:\tST\tTYPE\tTYPE\n" = .ok l ∧
      (l.find c!"ST").length = 1) :=
  ⟨exists_ok (by decide +kernel), exists_ok (by decide +kernel)⟩

/-! ## C19 -/

/-- The printed form of a lexicon loads as an equal lexicon, if its texts are in the form in which
texts are loaded. -/
theorem C19_lexicon_roundtrip (icu : Icu) (n : Str) (la : Lang) (lo : Str) (ops : List LexOp)
    (hn : '\t' ∉ n ∧ '\n' ∉ n) (hlo : '\t' ∉ lo ∧ '\n' ∉ lo)
    (hword : ∀ e ∈ held ops, ∀ s ∈ [e.word, e.stdword], '\t' ∉ s ∧ '\n' ∉ s ∧ NoBlankRun s ∧ icu.norm s = s ∧
      (lo ≠ [] → icu.upper lo s = s))
    (hset : ∀ e ∈ held ops, IsSet InType.code e.type ∧ IsSet Attach.code e.attached ∧ InType.BADTOKEN ∉ e.type) :
    let l := ops.foldl LexOp.apply { name := n, lang := la, locale := lo }
    ∃ l', Lexicon.initialize icu n l.print = .ok l' ∧ l'.name = n ∧ l'.lang = la ∧ l'.locale = lo ∧
      (∀ w, l'.find w = l.find w) ∧ l'.print = l.print :=
  Lexicon.roundtrip icu n la lo ops hn hlo hword hset

example : (someOps.foldl LexOp.apply { name := c!"us", lang := .ENG, locale := c!"en" }).print =
    c!"LEXICON:\tus\tENG\ten\t1\nLEXENTRY:\tST\tSAINT\tWORD\tDET_PRE\nLEXENTRY:\tST\tSTREET\tWORD,TYPE\tDET_SUF\n" := by
  decide +kernel

example : ∀ e ∈ held someOps, ∀ s ∈ [e.word, e.stdword], '\t' ∉ s ∧ '\n' ∉ s ∧ NoBlankRun s ∧ asciiIcu.norm s = s ∧
      (c!"en" ≠ [] → asciiIcu.upper c!"en" s = s) := by
  have hb : ∀ s : Str, ' ' ∉ s → NoBlankRun s := by
    rintro s h a b rfl; simp at h
  have e : held someOps = [entrySaint, entrySt] := by decide +kernel
  rw [e]
  intro x hx s hs
  have hx : x = entrySaint ∨ x = entrySt := by simpa using hx
  rcases hx with rfl | rfl <;>
  · rcases List.mem_cons.1 hs with rfl | hs
    · exact ⟨by decide +kernel, by decide +kernel, hb _ (by decide +kernel), rfl, fun _ => by decide +kernel⟩
    · have hs := List.mem_singleton.1 hs
      subst hs
      exact ⟨by decide +kernel, by decide +kernel, hb _ (by decide +kernel), rfl, fun _ => by decide +kernel⟩

/-- The exact form is needed: repeated blanks are not preserved, and a tab in the name is read as the
end of the name. -/
theorem C19_limits :
    (∃ l, Lexicon.initialize asciiIcu [] (LexOp.apply { } (.ins { entrySt with word := c!"A  B" })).print = .ok l ∧
      l.find c!"A  B" = [] ∧ (l.find c!"A B").length = 1) ∧
    (∃ l, Lexicon.initialize asciiIcu c!"a\tb" ({ name := c!"a\tb", lang := .ENG } : Lexicon).print = .ok l ∧
      l.lang = .UNKNOWN) :=
  ⟨exists_ok (by decide +kernel), exists_ok (by decide +kernel)⟩

/-! ## C20 -/

/-- The standard text of a token. -/
theorem C20_standardize (l : Lexicon) (t : Token) (c : InType) (cs : List InType) (hc : t.inclass = c :: cs) :
    ∃ s, l.standardize t = some { t with stdtext := s } ∧
      (∀ a e b, l.find t.text = a ++ e :: b → c ∈ e.type → (∀ x ∈ a, c ∉ x.type) →
        s = if e.stdword = [] then t.text else e.stdword) ∧
      ((∀ e ∈ l.find t.text, c ∉ e.type) → s = if t.stdtext = [] then t.text else t.stdtext) ∧
      (t.text ≠ [] → s ≠ []) :=
  Lexicon.standardize_spec l t c cs hc

/-- One of the two cases always applies. -/
theorem C20_cases (l : Lexicon) (t : Token) (c : InType) :
    (∃ a e b, l.find t.text = a ++ e :: b ∧ c ∈ e.type ∧ ∀ x ∈ a, c ∉ x.type) ∨ (∀ e ∈ l.find t.text, c ∉ e.type) :=
  Lexicon.first_split (l.find t.text) c

/-- For a token without class the effect is undefined as soon as the lexicon has its text. -/
theorem C20_no_class (l : Lexicon) (t : Token) (hc : t.inclass = []) :
    l.standardize t = none ↔ l.find t.text ≠ [] := by
  unfold Lexicon.standardize
  rw [hc]
  cases l.find t.text with
  | nil => simp [Lexicon.stdLoop]
  | cons e es => simp [Lexicon.stdLoop]

example : ((someOps.foldl LexOp.apply { }).standardize { text := c!"ST", inclass := [.TYPE] }) =
      some { text := c!"ST", stdtext := c!"STREET", inclass := [.TYPE] } ∧
    ((someOps.foldl LexOp.apply { }).standardize { text := c!"ST", inclass := [.WORD, .TYPE] }) =
      some { text := c!"ST", stdtext := c!"SAINT", inclass := [.WORD, .TYPE] } ∧
    ((someOps.foldl LexOp.apply { }).standardize { text := c!"MAIN", inclass := [.WORD] }) =
      some { text := c!"MAIN", stdtext := c!"MAIN", inclass := [.WORD] } ∧
    ((someOps.foldl LexOp.apply { }).standardize { text := c!"ST" }) = none := by decide +kernel

/-! ## C33, C34 for lexicons -/

/-- Whether a text ends in a newline makes no difference, if the interpreted form of the last line is an
entry line and is interpreted as itself. -/
theorem C33_lexicon_newline (icu : Icu) (name text last : Str) (lines : List Str)
    (htext : splitOn '\n' text = lines ++ [last]) (hentry : c!"LEXENTRY:" <+: last)
    (hcanon : ∀ loc, c!"LEXENTRY:" <+: canonLine icu loc last ∧
      canonLine icu loc (canonLine icu loc last) = canonLine icu loc last) :
    (∀ l', Lexicon.initialize icu name (text ++ c!"\n") = .ok l' →
      ∃ l, Lexicon.initialize icu name text = .ok l ∧ l.lang = l'.lang ∧ l.locale = l'.locale ∧ ∀ w, l.find w = l'.find w) ∧
    (∀ l, Lexicon.initialize icu name text = .ok l → ∃ l', Lexicon.initialize icu name (text ++ c!"\n") = .ok l') := by
  constructor
  · intro l' hl'
    obtain ⟨h, es, ht'⟩ := C18_only icu name _ l' hl'
    obtain ⟨es0, he, ht⟩ := (Lexicon.newline_texts icu text h last lines es htext hentry (hcanon _).1 (hcanon _).2).1 ht'
    obtain ⟨l, a1, _, a3, a4, a5⟩ := C18_loads icu name _ _ _ ht
    obtain ⟨l2, b1, _, b3, b4, b5⟩ := C18_loads icu name _ _ _ ht'
    rw [hl'] at b1
    cases b1
    refine ⟨l, a1, by rw [a3, b3], by rw [a4, b4], fun w => ?_⟩
    rw [a5, b5, Lexicon.held_again _ _ (by rw [he]; simp)]
  · intro l hl
    obtain ⟨h, es, ht⟩ := C18_only icu name _ l hl
    obtain ⟨es0, he, ht'⟩ := Lexicon.newline_back icu text h last lines es htext hentry (hcanon _).1 (hcanon _).2 ht
    obtain ⟨l', b1, _⟩ := C18_loads icu name _ _ _ ht'
    exact ⟨l', b1⟩

/-- The text of the next example. -/
def noNewline : Str := c!"LEXICON:\tus\tENG\ten\nLEXENTRY:\tST\tSTREET\tTYPE,WORD\tDET_SUF"

example : splitOn '\n' noNewline = [c!"LEXICON:\tus\tENG\ten"] ++ [c!"LEXENTRY:\tST\tSTREET\tTYPE,WORD\tDET_SUF"] ∧
    c!"LEXENTRY:" <+: c!"LEXENTRY:\tST\tSTREET\tTYPE,WORD\tDET_SUF" ∧
    (∀ loc, canonLine asciiIcu loc c!"LEXENTRY:\tST\tSTREET\tTYPE,WORD\tDET_SUF" = c!"LEXENTRY:\tST\tSTREET\tTYPE,WORD\tDET_SUF") ∧
    ∃ l, Lexicon.initialize asciiIcu [] noNewline = .ok l ∧ l.find c!"ST" = [entrySt] := by
  refine ⟨by decide +kernel, by decide, fun loc => ?_, exists_ok (by decide +kernel)⟩
  unfold canonLine
  split
  · decide +kernel
  · change List.map Char.toUpper _ = _
    decide +kernel

/-- See `greekIcu`. -/
def greekNorm : Str → Str
  | [] => []
  | c :: s => match s with
    | [] => [c]
    | d :: s' => if c = '\u0399' ∧ d = '\u0308' then '\u03AA' :: greekNorm s' else c :: greekNorm (d :: s')

theorem greekNorm_cons {c : Char} (s : Str) (h : c ≠ '\u0399') : greekNorm (c :: s) = c :: greekNorm s := by
  cases s with
  | nil => simp [greekNorm]
  | cons d s => simp [greekNorm, h]

theorem greekNorm_tab : ∀ a b, greekNorm (a ++ '\t' :: b) = greekNorm a ++ '\t' :: greekNorm b
  | [], b => by rw [List.nil_append, greekNorm_cons _ (by decide)]; simp [greekNorm]
  | [c], b => by
    have h := greekNorm_cons (c := '\t') b (by decide)
    rw [List.singleton_append]
    simp [h, greekNorm]
  | c :: d :: a, b => by
    have h1 := greekNorm_tab a b
    have h2 := greekNorm_tab (d :: a) b
    rw [List.cons_append] at h2
    rw [List.cons_append, List.cons_append, greekNorm, greekNorm]
    split
    · rw [h1]; rfl
    · rw [h2]; rfl

theorem greekNorm_ascii : ∀ s, (∀ c ∈ s, c.toNat < 128 ∧ ¬ c.isLower) → greekNorm s = s
  | [], _ => rfl
  | c :: s, h => by
    have hc := (h c (List.mem_cons_self ..)).1
    have : c ≠ '\u0399' := by rintro rfl; exact absurd hc (by decide)
    rw [greekNorm_cons _ this, greekNorm_ascii s (fun x hx => h x (List.mem_cons_of_mem _ hx))]

/-- Composition and case mapping of three Greek characters, otherwise the identity: `U+0390` has the
capital `U+0399 U+0308 U+0301`, whose first two characters compose to `U+03AA`. -/
def greekIcu : Icu where
  norm := greekNorm
  upper := fun _ s => s.flatMap (fun c => if c = '\u0390' then ['\u0399', '\u0308', '\u0301'] else [c])
  norm_tab := greekNorm_tab
  upper_tab := fun _ a b => by simp
  norm_ascii := greekNorm_ascii
  upper_ascii := fun _ s h => by
    induction s with
    | nil => rfl
    | cons c s ih =>
      have hc := (h c (List.mem_cons_self ..)).1
      have : c ≠ '\u0390' := by rintro rfl; exact absurd hc (by decide)
      rw [List.flatMap_cons, ih (fun x hx => h x (List.mem_cons_of_mem _ hx)), if_neg this]; rfl

/-- Not so if the interpreted form is interpreted differently, as happens with Greek text: the text
without final newline then has one more word. -/
theorem C33_lexicon_newline_matters :
    ∃ text l l', Lexicon.initialize greekIcu [] text = .ok l ∧ Lexicon.initialize greekIcu [] (text ++ c!"\n") = .ok l' ∧
      l.size = 2 ∧ l'.size = 1 := by
  obtain ⟨l, h1, h2⟩ := exists_ok (P := fun l : Lexicon => l.size = 2)
    (r := Lexicon.initialize greekIcu [] (c!"LEXICON:\tgr\tGRE\tel\nLEXENTRY:\t" ++ ['\u0390'] ++ c!"\tX\tWORD")) (by decide +kernel)
  obtain ⟨l', h3, h4⟩ := exists_ok (P := fun l : Lexicon => l.size = 1)
    (r := Lexicon.initialize greekIcu [] (c!"LEXICON:\tgr\tGRE\tel\nLEXENTRY:\t" ++ ['\u0390'] ++ c!"\tX\tWORD" ++ c!"\n")) (by decide +kernel)
  exact ⟨_, l, l', h1, h3, h2, h4⟩

/-- A byte order mark and the ASCII character after it are dropped. -/
theorem C34_lexicon_bom_swallows (icu : Icu) (name text : Str) (c : Char) (hc : c ≠ '\n') (ha : c.toNat < 128) (hb : NoBom text) :
    Lexicon.initialize icu name ('\uFEFF' :: c :: text) =
      (Lexicon.initialize icu name text).map (fun l => { l with md5in := '\uFEFF' :: c :: l.md5in }) :=
  Lexicon.bom_swallows icu name text c hc ha hb

/-- So a lexicon text that starts with a byte order mark and its only header is rejected. -/
theorem C34_lexicon_header_lost (icu : Icu) (name rest : Str) (h : ∀ l ∈ (splitOn '\n' rest).drop 1, ¬ c!"LEXICON:" <+: l) :
    ∃ e, Lexicon.initialize icu name ('\uFEFF' :: (c!"LEXICON:" ++ rest)) = .error e :=
  Lexicon.bom_header icu name rest h

example : (∃ l, Lexicon.initialize asciiIcu [] c!"LEXICON:\tus\tENG\nLEXENTRY:\tA\tB\tWORD\n" = .ok l ∧ l.size = 1) ∧
    Lexicon.initialize asciiIcu [] ('\uFEFF' :: c!"LEXICON:\tus\tENG\nLEXENTRY:\tA\tB\tWORD\n") = .error .entryBeforeLexicon ∧
    Lexicon.initialize asciiIcu [] ('\uFEFF' :: c!"\nLEXICON:\tus\tENG\n") = .error .outOfRange ∧
    (∃ l, Lexicon.initialize asciiIcu [] ('\uFEFF' :: c!"\r\nLEXICON:\tus\tENG\n") = .ok l ∧ l.size = 0) :=
  ⟨exists_ok (by decide +kernel), eq_error (by decide +kernel), eq_error (by decide +kernel), exists_ok (by decide +kernel)⟩

end AS.Props
