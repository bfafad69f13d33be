import Verif.Lemmas.TrieCanon
import Verif.Props.Agree
import Verif.Lemmas.ElisionSame
import Verif.Spec.Use
/-
Property C88: what of the entries of a lexicon is used.
-/
namespace AS.Props
open AS AS.Wrapper AS.Tokenizer
variable {F D : Type}

theorem stdLoop_find (c : InType) (cs : List InType) : ∀ es : List LexEntry,
    Lexicon.stdLoop (c :: cs) es = some ((es.find? (fun e => decide (c ∈ e.type))).map (·.stdword))
  | [] => rfl
  | e :: es => by
    rw [Lexicon.stdLoop, List.find?_cons]
    have : e.isInClass c = decide (c ∈ e.type) := by simp [LexEntry.isInClass]
    rw [this]
    cases decide (c ∈ e.type) with
    | true => rfl
    | false => exact stdLoop_find c cs es

theorem find_held (p : LexEntry → Bool) (es : List LexEntry) : (held (es.map LexOp.ins)).find? p = es.find? p := by
  rw [← List.head?_filter, ← List.head?_filter, held_filter, Lexicon.held_ins]
  cases es.filter p with
  | nil => rfl
  | cons e l =>
    have key : ∀ (l h : List LexEntry), (l.foldl (fun h e => if e ∈ h then h else h ++ [e]) (e :: h)).head? = some e := by
      intro l
      induction l with
      | nil => intro h; rfl
      | cons x l ih =>
        intro h
        rw [List.foldl_cons]
        split
        · exact ih h
        · rw [List.cons_append]; exact ih _
    exact key l []

theorem standardOf_some {es : List LexEntry} {w : Str} {c : InType} :
    (standardOf es w c).isSome ↔ ∃ e ∈ es, e.word = w ∧ c ∈ e.type := by
  unfold standardOf
  rw [Option.isSome_map, List.find?_isSome]
  simp

theorem useSame_of {es es' : List LexEntry} (h : SameUse es es') (w : Str) :
    UseSame ((held (es.map LexOp.ins)).filter (fun e => e.word = w)) ((held (es'.map LexOp.ins)).filter (fun e => e.word = w)) := by
  have hmem : ∀ (es : List LexEntry) c, (∃ e ∈ (held (es.map LexOp.ins)).filter (fun e => e.word = w), c ∈ e.type) ↔
      ∃ e ∈ es, e.word = w ∧ c ∈ e.type := by
    intro es c
    simp only [List.mem_filter, mem_heldIns, decide_eq_true_eq, and_assoc]
  constructor
  · intro c
    rw [hmem, hmem, ← standardOf_some, ← standardOf_some, h.standard]
  · intro inclass
    cases inclass with
    | cons c cs =>
      rw [stdLoop_find, stdLoop_find, List.find?_filter, List.find?_filter, find_held, find_held]
      have := h.standard w c
      unfold standardOf at this
      simpa only [decide_eq_true_eq] using congrArg some this
    | nil =>
      have key : ∀ es : List LexEntry, Lexicon.stdLoop [] ((held (es.map LexOp.ins)).filter (fun e => e.word = w)) =
          (match es.find? (fun e => e.word = w) with | none => some none | some _ => none) := by
        intro es
        rw [← find_held, ← List.head?_filter]
        cases (held (es.map LexOp.ins)).filter (fun e => e.word = w) with
        | nil => rfl
        | cons e l => rfl
      rw [key, key]
      have : (es.find? (fun e => e.word = w)).isSome = (es'.find? (fun e => e.word = w)).isSome := by
        rw [Bool.eq_iff_iff, List.find?_isSome, List.find?_isSome]
        simpa using h.listed w
      cases h1 : es.find? (fun e => e.word = w) <;> cases h2 : es'.find? (fun e => e.word = w) <;> simp_all

/-- Of the entries of a lexicon nothing matters but the words, the classes of each word, the first standard word for each
class, and which words may be attached in front and which behind. Two lexicon texts of the same locale that agree in that give
the same results for every address. -/
theorem C88_use (env : Env F D) (text text' h h' : Str) (es es' : List LexEntry)
    (ha : env.archive text = .notArchive) (ha' : env.archive text' = .notArchive)
    (ht : LexText env.icu text h es) (ht' : LexText env.icu text' h' es') (hloc : headerLocale h = headerLocale h')
    (hsame : SameUse es es') (address grammar locale filter : Str) :
    stdStandardize env address grammar text locale filter = stdStandardize env address grammar text' locale filter ∧
    stdParseAddress env address text locale filter = stdParseAddress env address text' locale filter ∧
    stdMatchAddress env address grammar text locale filter = stdMatchAddress env address grammar text' locale filter := by
  refine same_of_text (S := fun _ => True) ⟨trivial, trivial, fun _ _ _ _ => trivial, fun _ _ => trivial⟩ ha ha' ht ht' hloc
    (fun w _ => useSame_of hsame w) ?_ trivial grammar
  intro l l' H H' C C'
  have e1 : (trieOf (l.lex.map (·.1))).getRegexp = (trieOf (l'.lex.map (·.1))).getRegexp := by
    refine pattern_canon fun w _ => ?_
    rw [H.key_iff, H'.key_iff]
    simp only [mem_heldIns]
    exact hsame.listed w
  have e2 : (trieOf (Lexicon.attachedWords LexEntry.isPrefixAttached l.lex)).getRegexp =
      (trieOf (Lexicon.attachedWords LexEntry.isPrefixAttached l'.lex)).getRegexp := by
    refine pattern_canon fun w _ => ?_
    rw [H.attached_iff, H'.attached_iff]
    simp only [mem_heldIns, LexEntry.isPrefixAttached, List.contains_eq_mem, decide_eq_true_eq]
    exact hsame.front w
  have e3 : (trieOf (Lexicon.attachedWords LexEntry.isSuffixAttached l.lex)).getRegexp =
      (trieOf (Lexicon.attachedWords LexEntry.isSuffixAttached l'.lex)).getRegexp := by
    refine pattern_canon fun w _ => ?_
    rw [H.attached_iff, H'.attached_iff]
    simp only [mem_heldIns, LexEntry.isSuffixAttached, List.contains_eq_mem, decide_eq_true_eq]
    exact hsame.behind w
  have : lexRe env l = lexRe env l' := by
    unfold lexRe
    rw [C.regex.1, C'.regex.1, C.regexPrefixAtt.1, C'.regexPrefixAtt.1, C.regexSuffixAtt.1, C'.regexSuffixAtt.1]
    unfold Lexicon.freshRegex Lexicon.freshPrefix Lexicon.freshSuffix
    rw [e1, e2, e3]
  rw [this]
  exact ⟨fun _ _ => rfl, fun _ _ => rfl⟩

theorem exists_mapped {α β : Type} {l : List α} {f : α → β} {P : β → Prop} :
    (∃ y, (∃ x, x ∈ l ∧ f x = y) ∧ P y) ↔ ∃ x, x ∈ l ∧ P (f x) :=
  ⟨fun ⟨_, ⟨x, hx, h⟩, hP⟩ => ⟨x, hx, h ▸ hP⟩, fun ⟨x, hx, hP⟩ => ⟨f x, ⟨x, hx, rfl⟩, hP⟩⟩

theorem sameUse_strip (es : List LexEntry) : SameUse es (es.map (fun e => { e with attached := e.attached.filter countsAs })) where
  listed w := by simp only [List.mem_map, exists_mapped]
  standard w c := by
    unfold standardOf
    rw [List.find?_map]
    simp [Function.comp_def]
  front w := by simp only [List.mem_map, exists_mapped]; simp [countsAs]
  behind w := by simp only [List.mem_map, exists_mapped]; simp [countsAs]

/-- Whether words may be detached (`DET_PRE`, `DET_SUF`) does not matter. -/
theorem C88_detached (env : Env F D) (text text' h h' : Str) (es : List LexEntry)
    (ha : env.archive text = .notArchive) (ha' : env.archive text' = .notArchive)
    (ht : LexText env.icu text h es)
    (ht' : LexText env.icu text' h' (es.map (fun e => { e with attached := e.attached.filter countsAs })))
    (hloc : headerLocale h = headerLocale h') (address grammar locale filter : Str) :
    stdStandardize env address grammar text locale filter = stdStandardize env address grammar text' locale filter ∧
    stdParseAddress env address text locale filter = stdParseAddress env address text' locale filter ∧
    stdMatchAddress env address grammar text locale filter = stdMatchAddress env address grammar text' locale filter :=
  C88_use env text text' h h' es _ ha ha' ht ht' hloc (sameUse_strip es) address grammar locale filter

theorem sameUse_shadowed (a b : List LexEntry) (e : LexEntry) (hl : ∃ x ∈ a, x.word = e.word)
    (hc : ∀ c ∈ e.type, ∃ x ∈ a, x.word = e.word ∧ c ∈ x.type)
    (hp : .ATT_PRE ∈ e.attached → ∃ x ∈ a ++ b, x.word = e.word ∧ Attach.ATT_PRE ∈ x.attached)
    (hs : .ATT_SUF ∈ e.attached → ∃ x ∈ a ++ b, x.word = e.word ∧ Attach.ATT_SUF ∈ x.attached) :
    SameUse (a ++ e :: b) (a ++ b) := by
  have key : ∀ P : LexEntry → Prop, (P e → ∃ x ∈ a ++ b, P x) → ((∃ x ∈ a ++ e :: b, P x) ↔ ∃ x ∈ a ++ b, P x) := by
    intro P hP
    constructor
    · rintro ⟨x, hx, h⟩
      rcases List.mem_append.1 hx with hx | hx
      · exact ⟨x, List.mem_append_left _ hx, h⟩
      · rcases List.mem_cons.1 hx with rfl | hx
        · exact hP h
        · exact ⟨x, List.mem_append_right _ hx, h⟩
    · rintro ⟨x, hx, h⟩
      refine ⟨x, ?_, h⟩
      rcases List.mem_append.1 hx with hx | hx
      · exact List.mem_append_left _ hx
      · exact List.mem_append_right _ (List.mem_cons_of_mem _ hx)
  refine ⟨fun w => key _ ?_, fun w c => ?_, fun w => key _ ?_, fun w => key _ ?_⟩
  · rintro rfl
    obtain ⟨x, hx, h⟩ := hl
    exact ⟨x, List.mem_append_left _ hx, h⟩
  · unfold standardOf
    rw [List.find?_append, List.find?_append, List.find?_cons]
    by_cases h : e.word = w ∧ c ∈ e.type
    · obtain ⟨rfl, h2⟩ := h
      obtain ⟨x, hx, h3⟩ := hc c h2
      have : (a.find? (fun x => decide (x.word = e.word ∧ c ∈ x.type))).isSome := by
        rw [List.find?_isSome]; exact ⟨x, hx, by simpa using h3⟩
      obtain ⟨y, hy⟩ := Option.isSome_iff_exists.1 this
      rw [hy]
      rfl
    · rw [decide_eq_false h]
  · rintro ⟨rfl, h⟩; exact hp h
  · rintro ⟨rfl, h⟩; exact hs h

/-- A line for a word that has its classes from lines before it, whatever its standard word, may be left out, unless no other
line of the word says that it may be attached where this one does. -/
theorem C88_shadowed (env : Env F D) (text text' h h' : Str) (a b : List LexEntry) (e : LexEntry)
    (ha : env.archive text = .notArchive) (ha' : env.archive text' = .notArchive)
    (ht : LexText env.icu text h (a ++ e :: b)) (ht' : LexText env.icu text' h' (a ++ b))
    (hloc : headerLocale h = headerLocale h') (hl : ∃ x ∈ a, x.word = e.word)
    (hc : ∀ c ∈ e.type, ∃ x ∈ a, x.word = e.word ∧ c ∈ x.type)
    (hp : .ATT_PRE ∈ e.attached → ∃ x ∈ a ++ b, x.word = e.word ∧ Attach.ATT_PRE ∈ x.attached)
    (hs : .ATT_SUF ∈ e.attached → ∃ x ∈ a ++ b, x.word = e.word ∧ Attach.ATT_SUF ∈ x.attached)
    (address grammar locale filter : Str) :
    stdStandardize env address grammar text locale filter = stdStandardize env address grammar text' locale filter ∧
    stdParseAddress env address text locale filter = stdParseAddress env address text' locale filter ∧
    stdMatchAddress env address grammar text locale filter = stdMatchAddress env address grammar text' locale filter :=
  C88_use env text text' h h' _ _ ha ha' ht ht' hloc (sameUse_shadowed a b e hl hc hp hs) address grammar locale filter

/-! ### The column of attachments -/

theorem ofText_attached {s : Str} (h : '\t' ∉ s) : (Token.ofText s).attached = [] := by
  have e : (IStream.ofStr s).getline '\t' [] = _ := getline_last '\t' s [] h
  rw [Token.ofText]
  simp only [e]
  split
  · repeat rw [getline_bad _ _ _ rfl]
    rfl
  · repeat rw [getline_bad _ _ _ rfl]
    rfl

theorem addClasses_attached (cs : List InType) : ∀ t : Token, (cs.foldl Token.addClass t).attached = t.attached := by
  induction cs with
  | nil => intro t; rfl
  | cons c cs ih => intro t; rw [List.foldl_cons, ih]; rfl

theorem addTypes_attached (es : List LexEntry) : ∀ t : Token, (Lexicon.addTypes es t).attached = t.attached := by
  unfold Lexicon.addTypes
  induction es with
  | nil => intro t; rfl
  | cons e es ih => intro t; rw [List.foldl_cons, ih, addClasses_attached]

theorem ite_attached {p : Prop} [Decidable p] {a b : Token} {x : List Attach} (ha : a.attached = x) (hb : b.attached = x) :
    (if p then a else b).attached = x := by
  split
  · exact ha
  · exact hb

theorem addClass_attached {t : Token} (c : InType) {x : List Attach} (h : t.attached = x) : (t.addClass c).attached = x := h

theorem byShape_attached (u : UTables) {t : Token} {x : List Attach} (h : t.attached = x) : (Lexicon.byShape u t).attached = x := by
  unfold Lexicon.byShape
  refine ite_attached h ?_
  repeat' first
    | exact h
    | refine addClass_attached _ ?_
    | refine ite_attached ?_ ?_

theorem classify_attached (u : UTables) (l : Lexicon) (t : Token) (d : InType) : (l.classify u t d).attached = t.attached := by
  unfold Lexicon.classify
  simp only
  split
  · exact addTypes_attached _ _
  · have h2 := byShape_attached u (t := { Lexicon.addTypes (l.find t.text) t with inlex := false }) (addTypes_attached _ _)
    split
    · exact h2
    · exact h2

theorem wordToken_attached (u : UTables) (l : Lexicon) {s : Str} (h : '\t' ∉ s) : (wordToken u l s).attached = [] := by
  rw [wordToken, classify_attached, ofText_attached h]

theorem trim_attached (t : Token) (n : Int) : (t.trim n).attached = t.attached := by
  unfold Token.trim
  split <;> rfl

theorem splitToken_attached (u : UTables) (l : Lexicon) (x : LexRe) {t : Token} (h : '\t' ∉ t.text) :
    ∀ t' ∈ splitToken u l x t, t'.attached = [] := by
  intro t' ht'
  unfold splitToken at ht'
  simp only at ht'
  split at ht'
  · obtain ⟨w, hw, rfl⟩ := List.mem_map.1 ht'
    exact wordToken_attached u l (mixed_texts noTab_closed u h w hw)
  · obtain ⟨w, hw, rfl⟩ := List.mem_map.1 ht'
    have h1 := groups_texts noTab_closed h ((prefix_cut u x t.text).imp id And.left)
    have h2 := groups_texts noTab_closed h ((suffix_cut x t.text).imp id And.left)
    exact wordToken_attached u l (attached_texts noTab_closed h h1.1 h1.2 h2.1 h2.2 w hw)

theorem roundTokens_attached (u : UTables) (l : Lexicon) (x : LexRe) {r : Round} (hw : '\t' ∉ r.word) (hs : '\t' ∉ r.sep) :
    ∀ t ∈ roundTokens u l x r, t.attached = [] := by
  intro t ht
  unfold roundTokens at ht
  rcases List.mem_append.1 ht with ht | ht
  · split at ht
    · simp only at ht
      have hwt := wordToken_attached u l hw
      split at ht
      · rw [List.mem_singleton.1 ht]; exact hwt
      · split at ht
        · exact splitToken_attached u l x (AS.wordToken_text noTab_closed u l hw) t ht
        · rw [List.mem_singleton.1 ht]; exact hwt
    · cases ht
  · split at ht
    · rw [List.mem_singleton.1 ht, classify_attached, trim_attached, ofText_attached hs]
    · cases ht

theorem altOne_attached (u : UTables) (l : Lexicon) (i : Nat) : ∀ (ts : List Token) (n : Nat) (r : List Token),
    (∀ t ∈ ts, '\t' ∉ t.text ∧ t.attached = []) → altOne u l i n (ts.map (fun t => (t, splitBlanks false [] t.text))) = some r →
    ∀ t ∈ r, t.attached = []
  | [], n, r, _, h => by
    simp only [List.map_nil, altOne, Option.some.injEq] at h
    subst h; intro t ht; cases ht
  | t :: ts, n, r, hall, h => by
    have ht := hall t (List.mem_cons_self ..)
    have hts : ∀ t ∈ ts, '\t' ∉ t.text ∧ t.attached = [] := fun x hx => hall x (List.mem_cons_of_mem _ hx)
    have keep : ∀ m, (altOne u l i m (ts.map (fun t => (t, splitBlanks false [] t.text)))).map (t :: ·) = some r →
        ∀ t ∈ r, t.attached = [] := by
      intro m h
      obtain ⟨r', hr', rfl⟩ := Option.map_eq_some_iff.1 h
      intro x hx
      rcases List.mem_cons.1 hx with rfl | hx
      · exact ht.2
      · exact altOne_attached u l i ts m r' hts hr' x hx
    rw [List.map_cons, altOne] at h
    split at h
    · exact keep _ h
    · split at h
      · cases h
      · split at h
        · exact keep _ h
        · obtain ⟨r', hr', rfl⟩ := Option.map_eq_some_iff.1 h
          intro x hx
          rcases List.mem_append.1 hx with hx | hx
          · obtain ⟨w, hw, rfl⟩ := List.mem_map.1 hx
            obtain ⟨_, a, b, e⟩ := wordsOf_parts hw
            exact wordToken_attached u l (noTab_closed.sub a w b (e ▸ ht.1))
          · exact altOne_attached u l i ts _ r' hts hr' x hx

theorem phrases_attached {env : Env F D} {l : Lexicon} {locale filter address : Str}
    (h : '\t' ∉ textOf env l locale address) {phrases : List (List Token)}
    (hp : phrasesOf env l locale filter address = .ok phrases) : ∀ phrase ∈ phrases, ∀ t ∈ phrase, t.attached = [] := by
  unfold phrasesOf at hp
  simp only at hp
  split at hp
  · cases hp
  · next ts hts =>
    split at hp
    · cases hp
    · next alts halts =>
      injection hp with hp
      subst hp
      have h0 := getTokens_texts noTab_closed h hts
      have h1 : ∀ t ∈ ts, t.attached = [] := by
        obtain ⟨qs, last, h1, h2⟩ := getTokens_spec env.icu env.u l (lexRe env l) (InType.asType filter) _
        rw [hts] at h2
        injection h2 with h2
        intro t hm
        rw [h2] at hm
        obtain ⟨r, hr, hr'⟩ := List.mem_flatMap.1 (applyFilter_sub _ _ _ hm)
        obtain ⟨g1, g2⟩ := h1.texts noTab_closed h r hr
        exact roundTokens_attached env.u l _ g1 g2 t hr'
      intro phrase hm
      rcases List.mem_cons.1 hm with rfl | hm
      · exact h1
      · unfold getAltTokens at halts
        simp only at halts
        split at halts
        · injection halts with e; subst e; cases hm
        · split at halts
          · cases halts
          · obtain ⟨i, _, e⟩ := mapM_some halts phrase hm
            exact altOne_attached env.u l i ts 0 phrase (fun t ht => ⟨h0 t ht, h1 t ht⟩) e

theorem parseTokens_attached : ∀ (ts : List Token) (i j : Nat), (∀ t ∈ ts, t.attached = []) →
    ∀ row ∈ (parseTokens i j ts).1, row.attached = []
  | [], _, _, _, row, h => nomatch h
  | t :: ts, i, j, h, row, hr => by
    rw [parseTokens] at hr
    rcases List.mem_cons.1 hr with rfl | hr
    · simp only [h t (List.mem_cons_self ..)]; rfl
    · exact parseTokens_attached ts i (j + 1) (fun t ht => h t (List.mem_cons_of_mem _ ht)) row hr

theorem parseLoop_attached : ∀ (ps : List (List Token)) (i j : Nat), (∀ ts ∈ ps, ∀ t ∈ ts, t.attached = []) →
    ∀ row ∈ parseLoop i j ps, row.attached = []
  | [], _, _, _, row, h => nomatch h
  | ts :: ps, i, j, h, row, hr => by
    rw [parseLoop] at hr
    rcases List.mem_append.1 hr with hr | hr
    · exact parseTokens_attached ts i j (h ts (List.mem_cons_self ..)) row hr
    · exact parseLoop_attached ps _ _ (fun ts ht => h ts (List.mem_cons_of_mem _ ht)) row hr

/-- The column of attachments in the rows of `std_parse_address` is empty, whatever the lexicon says, for every address
without tabs. -/
theorem C88_column (env : Env F D) (address text locale filter : Str) (l : Lexicon) (hload : loadLexicon env text = .ok l)
    (htab : '\t' ∉ textFor env locale l.locale address) (r : Ret (List ParseRow))
    (h : stdParseAddress env address text locale filter = some r) : ∀ rows, r.value = some rows → ∀ row ∈ rows, row.attached = [] := by
  unfold stdParseAddress at h
  rw [hload] at h
  simp only at h
  unfold parseAddr parseAddrWith at h
  split at h
  · cases h
  · injection h with h; subst h; intro rows hr; cases hr
  · next phrases hp =>
    simp only at h
    intro rows hr
    split at h
    · injection h with h; subst h; cases hr
    · split at h
      · cases h
      · injection h with h; subst h
        injection hr with hr; subst hr
        exact parseLoop_attached _ _ _ (phrases_attached htab hp)

/-! ### Cases -/

/-- Lines 844 and 845 of data/sample/canada.lex, with a line between them. -/
def mtText : Str := unlines [c!"LEXICON:\tC\tENG\ten\t2", c!"LEXENTRY:\tMT\tMT\tTYPE\tDET_PRE,DET_SUF",
  c!"LEXENTRY:\tSTR\tSTRASSE\tTYPE\tATT_SUF,DET_SUF", c!"LEXENTRY:\tMT\tMONTAGNE\tTYPE\tDET_PRE"]
/-- Without the second line for "MT". -/
def mtText2 : Str := unlines [c!"LEXICON:\tC\tENG\ten\t2", c!"LEXENTRY:\tMT\tMT\tTYPE\tDET_PRE,DET_SUF",
  c!"LEXENTRY:\tSTR\tSTRASSE\tTYPE\tATT_SUF,DET_SUF"]
/-- Without `DET_PRE` and `DET_SUF`. -/
def mtText3 : Str := unlines [c!"LEXICON:\tC\tENG\ten\t2", c!"LEXENTRY:\tMT\tMT\tTYPE\t",
  c!"LEXENTRY:\tSTR\tSTRASSE\tTYPE\tATT_SUF", c!"LEXENTRY:\tMT\tMONTAGNE\tTYPE\t"]
def eMt : LexEntry := ⟨c!"MT", c!"MT", [.TYPE], [.DET_PRE, .DET_SUF]⟩
def eMontagne : LexEntry := ⟨c!"MT", c!"MONTAGNE", [.TYPE], [.DET_PRE]⟩
def eStrAtt : LexEntry := ⟨c!"STR", c!"STRASSE", [.TYPE], [.DET_SUF, .ATT_SUF]⟩

theorem mtText_means : LexText asciiIcu mtText c!"LEXICON:\tC\tENG\ten\t2" [eMt, eStrAtt, eMontagne] := by
  refine ⟨_, _, c!"LEXICON:\tC\tENG\ten\t2", _, rfl, .plain (by decide), ⟨[], rfl, by decide, by decide⟩, by decide, by decide +kernel, ?_⟩
  exact .entry (l := c!"LEXENTRY:\tMT\tMT\tTYPE\tDET_PRE,DET_SUF") (Or.inl (by decide)) (by decide +kernel)
    (.entry (l := c!"LEXENTRY:\tSTR\tSTRASSE\tTYPE\tATT_SUF,DET_SUF") (Or.inl (by decide)) (by decide +kernel)
    (.entry (l := c!"LEXENTRY:\tMT\tMONTAGNE\tTYPE\tDET_PRE") (Or.inl (by decide)) (by decide +kernel) (.blank .nil)))

theorem mtText2_means : LexText asciiIcu mtText2 c!"LEXICON:\tC\tENG\ten\t2" [eMt, eStrAtt] := by
  refine ⟨_, _, c!"LEXICON:\tC\tENG\ten\t2", _, rfl, .plain (by decide), ⟨[], rfl, by decide, by decide⟩, by decide, by decide +kernel, ?_⟩
  exact .entry (l := c!"LEXENTRY:\tMT\tMT\tTYPE\tDET_PRE,DET_SUF") (Or.inl (by decide)) (by decide +kernel)
    (.entry (l := c!"LEXENTRY:\tSTR\tSTRASSE\tTYPE\tATT_SUF,DET_SUF") (Or.inl (by decide)) (by decide +kernel) (.blank .nil))

theorem mtText3_means : LexText asciiIcu mtText3 c!"LEXICON:\tC\tENG\ten\t2"
    ([eMt, eStrAtt, eMontagne].map (fun e => { e with attached := e.attached.filter countsAs })) := by
  refine ⟨_, _, c!"LEXICON:\tC\tENG\ten\t2", _, rfl, .plain (by decide), ⟨[], rfl, by decide, by decide⟩, by decide, by decide +kernel, ?_⟩
  exact .entry (l := c!"LEXENTRY:\tMT\tMT\tTYPE\t") (Or.inl (by decide)) (by decide +kernel)
    (.entry (l := c!"LEXENTRY:\tSTR\tSTRASSE\tTYPE\tATT_SUF") (Or.inl (by decide)) (by decide +kernel)
    (.entry (l := c!"LEXENTRY:\tMT\tMONTAGNE\tTYPE\t") (Or.inl (by decide)) (by decide +kernel) (.blank .nil)))

/-- The hypotheses of `C88_shadowed` hold for the line for "MONTAGNE". -/
example : exEnv.archive mtText = .notArchive ∧ exEnv.archive mtText2 = .notArchive ∧
    LexText exEnv.icu mtText c!"LEXICON:\tC\tENG\ten\t2" ([eMt, eStrAtt] ++ eMontagne :: []) ∧
    LexText exEnv.icu mtText2 c!"LEXICON:\tC\tENG\ten\t2" ([eMt, eStrAtt] ++ []) ∧
    (∃ x ∈ [eMt, eStrAtt], x.word = eMontagne.word) ∧
    (∀ c ∈ eMontagne.type, ∃ x ∈ [eMt, eStrAtt], x.word = eMontagne.word ∧ c ∈ x.type) ∧
    Attach.ATT_PRE ∉ eMontagne.attached ∧ Attach.ATT_SUF ∉ eMontagne.attached :=
  ⟨rfl, rfl, mtText_means, mtText2_means, by decide +kernel, by decide +kernel, by decide, by decide⟩

/-- The hypotheses of `C88_detached`, and so those of `C88_use`. -/
example : exEnv.archive mtText = .notArchive ∧ exEnv.archive mtText3 = .notArchive ∧
    LexText exEnv.icu mtText c!"LEXICON:\tC\tENG\ten\t2" [eMt, eStrAtt, eMontagne] ∧
    LexText exEnv.icu mtText3 c!"LEXICON:\tC\tENG\ten\t2"
      ([eMt, eStrAtt, eMontagne].map (fun e => { e with attached := e.attached.filter countsAs })) ∧
    [eMt, eStrAtt, eMontagne].map (fun e => { e with attached := e.attached.filter countsAs }) ≠ [eMt, eStrAtt, eMontagne] :=
  ⟨rfl, rfl, mtText_means, mtText3_means, by decide +kernel⟩

/-- The order of lines for a word and a class does matter. -/
example : ¬ SameUse [eMt, eMontagne] [eMontagne, eMt] := fun h =>
  absurd (h.standard c!"MT" .TYPE) (by decide +kernel)

theorem any_some {α : Type} {o : Option α} {p : α → Bool} (h : o.any p = true) : ∃ a, o = some a ∧ p a = true := by
  cases o with
  | none => cases h
  | some a => exact ⟨a, rfl, h⟩

/-- The hypotheses of `C88_column`. -/
example : ∃ l r, loadLexicon exEnv mtText = .ok l ∧ '\t' ∉ textFor exEnv c!"en" l.locale c!"12 mt" ∧
    stdParseAddress exEnv c!"12 mt" mtText c!"en" c!"SPACE" = some r ∧ ∃ rows, r.value = some rows ∧ rows.length = 2 := by
  obtain ⟨l, h1, h2⟩ := of_outcomeIs (o := loadLexicon exEnv mtText)
    (p := fun l => decide ('\t' ∉ textFor exEnv c!"en" l.locale c!"12 mt")) (by decide +kernel)
  have h3 : (stdParseAddress exEnv c!"12 mt" mtText c!"en" c!"SPACE").any (fun r => r.value.any (fun rows => rows.length = 2)) = true := by
    decide +kernel
  obtain ⟨r, h4, h5⟩ := any_some h3
  obtain ⟨rows, h6, h7⟩ := any_some h5
  exact ⟨l, r, h1, of_decide_eq_true h2, h4, rows, h6, of_decide_eq_true h7⟩

end AS.Props
