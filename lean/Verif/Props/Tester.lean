import Verif.Lemmas.Tester
import Verif.Props.Order
import Verif.Props.Agree
/-
Property C106: the command-line programs.
-/
namespace AS.Props
open AS AS.Wrapper AS.Tester
variable {F D : Type}

/-! ## C106 -/

/-- `t2` takes three arguments or four, the fourth being the filter that is otherwise the default; for any other number
of arguments it does nothing but complain. -/
theorem C106_arguments (env : Env F D) (w : World) :
    (∀ lfile gfile str, t2 env w [lfile, gfile, str] = t2 env w [lfile, gfile, str, c!"PUNCT,SPACE,EMDASH,STOPWORD"]) ∧
    ∀ args : List Str, args.length ≠ 3 → args.length ≠ 4 →
      (t2 env w args).out = [] ∧ (t2 env w args).err ≠ [] ∧ (t2 env w args).fin = .code 1 := by
  refine ⟨fun _ _ _ => rfl, fun args h3 h4 => ?_⟩
  rcases args with _ | ⟨a, _ | ⟨b, _ | ⟨c, _ | ⟨d, _ | ⟨e, r⟩⟩⟩⟩⟩
  · exact ⟨rfl, by simp [t2], rfl⟩
  · exact ⟨rfl, by simp [t2], rfl⟩
  · exact ⟨rfl, by simp [t2], rfl⟩
  · exact absurd rfl h3
  · exact absurd rfl h4
  · exact ⟨rfl, by simp [t2], rfl⟩

/-- The other programs complain likewise if arguments are missing, and ignore further ones. -/
theorem C106_usage (env : Env F D) (lib : Nat) (w : World) (writable : Str → Bool) (args : List Str) :
    let complains := fun r : Run => r.out = [] ∧ r.err ≠ [] ∧ r.file = none ∧ r.fin = .code 1
    (args.length < 2 → complains (t4 env w args) ∧ complains (t5 env w args) ∧ complains (compileLexicon env.icu lib w writable args)) ∧
    (args.length < 1 → complains (readDumpGrammar env.u.toCharTables env.fo w args)) ∧
    (2 ≤ args.length → t4 env w args = t4 env w (args.take 2) ∧ t5 env w args = t5 env w (args.take 2) ∧
      compileLexicon env.icu lib w writable args = compileLexicon env.icu lib w writable (args.take 2)) ∧
    (1 ≤ args.length → readDumpGrammar env.u.toCharTables env.fo w args = readDumpGrammar env.u.toCharTables env.fo w (args.take 1)) := by
  rcases args with _ | ⟨a, _ | ⟨b, r⟩⟩
  · simp [t4, t5, compileLexicon, readDumpGrammar]
  · simp [t4, t5, compileLexicon, readDumpGrammar]
  · simp only [List.length_cons, List.take_succ_cons, List.take_zero]
    exact ⟨fun h => absurd h (by omega), fun h => absurd h (by omega), fun _ => ⟨rfl, rfl, rfl⟩, fun _ => rfl⟩

/-- These programs do not report a file that cannot be opened, but end by an exception that nobody catches, with no token
shown and no file written. -/
theorem C106_not_opened (env : Env F D) (lib : Nat) (w : World) (writable : Str → Bool) (file : Str) (more : List Str)
    (hf : w.files file = none) :
    (∀ str, (t4 env w (file :: str :: more)).fin = .terminate ∧ (t5 env w (file :: str :: more)).fin = .terminate) ∧
    (∀ target, compileLexicon env.icu lib w writable (file :: target :: more) = { fin := .terminate }) ∧
    readDumpGrammar env.u.toCharTables env.fo w (file :: more) = { fin := .terminate } := by
  refine ⟨fun str => ?_, fun target => ?_, ?_⟩
  · simp only [t4, t5, lexiconOfFile, hf, Run.after, and_self]
  · simp only [compileLexicon, lexiconOfFile, hf]
  · simp only [readDumpGrammar, grammarOfFile, hf]
    rfl

/-- A file that cannot be opened is reported, and the end is a failure. -/
theorem C106_no_file (env : Env F D) (w : World) (lfile gfile str filter : Str) :
    (w.files lfile = none → ∃ before, (t2 env w [lfile, gfile, str, filter]).out =
        before ++ [c!"ERROR: failed to open '" ++ lfile ++ c!"' for read!"] ∧
      (t2 env w [lfile, gfile, str, filter]).fin = .code 1) ∧
    (∀ ltext rows, w.files lfile = some ltext → w.files gfile = none →
      stdParseAddress env str ltext c!"en" filter = some ⟨some rows, none⟩ →
      ∃ before, (t2 env w [lfile, gfile, str, filter]).out =
        before ++ [c!"ERROR: failed to open '" ++ gfile ++ c!"' for read!"] ∧
      (t2 env w [lfile, gfile, str, filter]).fin = .code 1) := by
  refine ⟨fun h => ?_, fun ltext rows hf hg h => ?_⟩
  · simp only [t2, t2Run, t2Main, h]
    exact ⟨_, rfl, rfl⟩
  · obtain ⟨l, phrases, hl, hp, _⟩ := parse_ok h
    rw [t2_ok hf hl hp]
    simp only [t2Grammar, hg]
    exact ⟨_, rfl, rfl⟩

/-- If `as_parse` returns rows for the contents of the lexicon file, `t2` shows these rows: after the opening lines a
block for each alternative, the blocks between lines of dashes. -/
theorem C106_parse (env : Env F D) (w : World) (lfile gfile str filter ltext : Str) (hf : w.files lfile = some ltext)
    (rows : List ParseRow) (h : stdParseAddress env str ltext c!"en" filter = some ⟨some rows, none⟩) :
    ∃ (digest : Str) (blocks : List (List Shown)) (after : List Str),
      (t2 env w [lfile, gfile, str, filter]).out =
        [c!"Address: '" ++ str ++ c!"'", c!"Normalized: '" ++ env.icu.norm str ++ c!"'",
          c!"UpperCase: '" ++ env.icu.upper c!"en" (env.icu.norm str) ++ c!"'",
          c!"t.tellg() = " ++ Lexicon.natDigits (byteLen ltext)] ++
        (match env.archive ltext with
         | .notArchive => [c!"Load from serialized failed! Trying to load lexicon."]
         | _ => []) ++ [c!"Lexicon md5: " ++ digest] ++
        (blocks.flatMap (fun b => bar 31 :: b.map Shown.line) ++ [bar 31]) ++ after ∧
      ShowRows blocks rows := by
  obtain ⟨l, phrases, hl, hp, hr⟩ := parse_ok h
  refine ⟨w.digest l.md5in, phrases.map (·.map shownOf), (t2Grammar env w l gfile phrases).out, ?_, hr ▸ showRows_parseLoop phrases⟩
  rw [t2_ok hf hl hp, phrases_blocks]
  rfl

/-- If `as_standardize` returns an address and `as_match` rows for the contents of the two files, `t2` ends well, and its
output ends with the lines the address is made of, the pattern, and the rows of `as_match` in the same order. -/
theorem C106_standardize (env : Env F D) (laws : LtLaws env.fo) (signs : SignLaws env.fo) (h0 : env.fo.le0 env.fo.zero = true)
    (w : World) (lfile gfile str filter ltext gtext : Str) (hlf : w.files lfile = some ltext) (hgf : w.files gfile = some gtext)
    (a : StdAddr) (h : stdStandardize env str gtext ltext c!"en" filter = some ⟨some a, none⟩) (rows : List (MatchRow D))
    (hm : stdMatchAddress env str gtext ltext c!"en" filter = some ⟨some rows, none⟩) :
    ∃ (before : List Str) (score nrules : F) (shown : List Shown) (pattern : Str) (list : List (MatchRow D)),
      (t2 env w [lfile, gfile, str, filter]).out =
        before ++ [c!"bestCost: " ++ env.fo.print score] ++ shown.map Shown.line ++
        [c!"matched: " ++ pattern ++ c!", " ++ env.fo.print nrules, bar 53] ++
        list.map (fun r => listed env.dops r.tokens r.score r.nrules) ∧
      (t2 env w [lfile, gfile, str, filter]).fin = .code 0 ∧
      Made a shown ∧ a.pattern = some (upToNul pattern) ∧
      rows = list.map (fun r => { r with tokens := upToNul r.tokens }) := by
  obtain ⟨g, l, hg, hl, ha⟩ := standardize_loads h
  obtain ⟨phrases, b, std, hp, hb, hs, _, hfield, _, hpat⟩ := C45_address env g l _ _ _ a none ha
  obtain ⟨toks, ht, hsw, hrows⟩ := match_ok hg hl hp hm
  obtain ⟨wf, hbal, hroot⟩ := loadGrammar_wf env h0 hg
  obtain ⟨pre, hpre⟩ := t2Grammar_ok (w := w) (l := l) hgf h0 hg phrases
  have hge : env.fo.lt b.score env.fo.zero = false := by
    rcases best_cases laws signs wf hbal hroot l phrases with ⟨b', std', hb', _, hlt, _⟩ | hb'
    · rw [hb] at hb'; cases hb'; exact hlt
    · rw [hb] at hb'
      cases hb'
      exfalso
      simp [standardizeAddr, standardizeAddrWith, hp, hb, signs.neg_ge] at ha
  have key : t2Search env l g phrases =
      { out := [c!"bestCost: " ++ env.fo.print b.score] ++ std.map Token.print ++
          [c!"matched: " ++ b.matched.getD [] ++ c!", " ++ env.fo.print b.nrules, longDashes] ++
          (env.sort (Tester.sortByScoresDesc env.dops) toks).map (t2Row env.dops)
        fin := .code 0 } := by
    unfold t2Search t2All
    rw [hb]
    simp only [hge, Bool.false_eq_true, ↓reduceIte, standardizeEach_eq l _ _ hs, ht]
    rw [if_pos hsw]
    rfl
  refine ⟨opening env str ltext ++ [c!"Lexicon md5: " ++ w.digest l.md5in] ++ t2Phrases phrases ++ pre, b.score, b.nrules,
    std.map shownOf, b.matched.getD [], (env.sort (Tester.sortByScoresDesc env.dops) toks).map (fun t => ⟨t.matched, t.score, t.nrules⟩),
    ?_, ?_, ?_, hpat, ?_⟩
  · rw [t2_ok hlf hl hp, hpre, key, map_print, longDashes_eq]
    simp only [Run.after, List.append_assoc, List.map_map]
    rfl
  · rw [t2_ok hlf hl hp, hpre, key]
    rfl
  · intro f
    rw [hfield f, shownFor_eq]
  · rw [hrows, List.map_map]
    rfl

/-- If `as_standardize` finds nothing, `t2` says so and fails. -/
theorem C106_no_match (env : Env F D) (laws : LtLaws env.fo) (signs : SignLaws env.fo) (h0 : env.fo.le0 env.fo.zero = true)
    (w : World) (lfile gfile str filter ltext gtext : Str) (hlf : w.files lfile = some ltext) (hgf : w.files gfile = some gtext)
    (h : stdStandardize env str gtext ltext c!"en" filter = some ⟨none, none⟩) :
    ∃ before, (t2 env w [lfile, gfile, str, filter]).out =
        before ++ [c!"#### Failed to find a match (searchAndReclassBest)(" ++ env.fo.print (env.fo.ofInt (-1)) ++ c!")"] ∧
      (t2 env w [lfile, gfile, str, filter]).fin = .code 1 := by
  obtain ⟨g, l, hg, hl, ha⟩ := standardize_loads h
  obtain ⟨wf, hbal, hroot⟩ := loadGrammar_wf env h0 hg
  cases hp : phrasesOf env l c!"en" filter str with
  | undefined => simp [standardizeAddr, standardizeAddrWith, hp] at ha
  | throws m => simp [standardizeAddr, standardizeAddrWith, hp] at ha
  | ok phrases =>
    obtain ⟨pre, hpre⟩ := t2Grammar_ok (w := w) (l := l) hgf h0 hg phrases
    rcases best_cases laws signs wf hbal hroot l phrases with ⟨b, std, hb, hge, _, hs⟩ | hb
    · obtain ⟨v, hv, _⟩ := collect_fields l b.tokens std [] hs
      simp only [standardizeAddr, standardizeAddrWith, hp, hb, hge, hv, ↓reduceIte] at ha
      split at ha <;> simp at ha
    · rw [t2_ok hlf hl hp, hpre, after_after]
      unfold t2Search
      rw [hb]
      simp only [signs.neg_lt, ↓reduceIte]
      exact ⟨_, rfl, rfl⟩

/-- A lexicon file that the SQL functions refuse ends `t2` with an exception that nobody catches: no message, no tokens. -/
theorem C106_bad_lexicon (env : Env F D) (halloc : ∀ n, env.alloc n = true) (w : World) (lfile gfile str filter ltext m : Str)
    (hlf : w.files lfile = some ltext) (h : stdParseAddress env str ltext c!"en" filter = some ⟨none, some m⟩) :
    (t2 env w [lfile, gfile, str, filter]).fin = .terminate ∧
    ∀ line ∈ (t2 env w [lfile, gfile, str, filter]).out, line ≠ bar 31 := by
  cases hl : loadLexicon env ltext with
  | undefined => exact absurd hl (loadLexicon_defined env ltext)
  | throws e =>
    rw [t2_throws hlf hl]
    refine ⟨rfl, fun line hm => ?_⟩
    have hne : ∀ (c : Char) (s : Str), c ≠ '-' → c :: s ≠ bar 31 := by
      intro c s hc he
      exact hc (congrArg (fun x => x.headD 'a') he)
    simp only [opening, List.mem_append, List.mem_cons, List.not_mem_nil, or_false] at hm
    rcases hm with (rfl | rfl | rfl | rfl) | hm
    · exact hne _ _ (by decide)
    · exact hne _ _ (by decide)
    · exact hne _ _ (by decide)
    · exact hne _ _ (by decide)
    · cases he : env.archive ltext with
      | notArchive =>
        rw [he] at hm
        rw [List.mem_singleton.1 hm]
        exact hne _ _ (by decide)
      | lexicon l => rw [he] at hm; cases hm
      | recompile => rw [he] at hm; cases hm
  | ok l =>
    exfalso
    simp only [stdParseAddress, hl, parseAddr] at h
    cases hp : phrasesOf env l c!"en" filter str with
    | undefined => simp [parseAddrWith, hp] at h
    | throws e =>
      unfold phrasesOf at hp
      simp only at hp
      split at hp
      · cases hp
      · split at hp <;> cases hp
    | ok ps =>
      simp only [parseAddrWith, hp, halloc, not_true_eq_false, ↓reduceIte] at h
      split at h <;> simp at h

/-- A grammar file that `as_standardize` refuses, with a lexicon file that is accepted, makes `t2` fail with the message
of the exception, which for an exception of another kind than `runtime_error` is a fixed text. -/
theorem C106_bad_grammar (env : Env F D) (laws : LtLaws env.fo) (signs : SignLaws env.fo) (h0 : env.fo.le0 env.fo.zero = true)
    (halloc : ∀ n, env.alloc n = true) (w : World) (lfile gfile str filter ltext gtext m : Str)
    (hlf : w.files lfile = some ltext) (hgf : w.files gfile = some gtext) (rows : List ParseRow)
    (hr : stdParseAddress env str ltext c!"en" filter = some ⟨some rows, none⟩)
    (h : stdStandardize env str gtext ltext c!"en" filter = some ⟨none, some m⟩) :
    ∃ before line, (t2 env w [lfile, gfile, str, filter]).out = before ++ [line] ∧
      (t2 env w [lfile, gfile, str, filter]).fin = .code 1 ∧
      ((∃ what, m = upToNul what ∧ line = c!"Runtime Error: " ++ what) ∨
       (m = upToNul (env.gramWhat .outOfRange) ∧ line = c!"Error: Unknown exception caught!")) := by
  obtain ⟨l, phrases, hl, hp, _⟩ := parse_ok hr
  cases hi : Grammar.initialize env.u.toCharTables env.fo gtext with
  | ok g =>
    exfalso
    have hg : loadGrammar env gtext = .ok g := by unfold loadGrammar; rw [hi]
    rcases C48_address_iff_match env laws signs h0 (halloc 1) gtext g hg l c!"en" filter str phrases hp with ⟨a, ha, _⟩ | ⟨ha, _⟩ <;>
    · simp only [stdStandardize, hg, hl, ha] at h
      simp at h
  | error e =>
    have hg : loadGrammar env gtext = .throws (env.gramWhat e) := by unfold loadGrammar; rw [hi]
    simp only [stdStandardize, hg, Option.some.injEq, Ret.mk.injEq, true_and] at h
    rw [t2_ok hlf hl hp]
    unfold t2Grammar
    simp only [hgf, hi]
    have hrt : ∀ before, ∃ b line, (Run.after before (t2Runtime (env.gramWhat e))).out = b ++ [line] ∧
        (Run.after before (t2Runtime (env.gramWhat e))).fin = .code 1 ∧
        ((∃ what, m = upToNul what ∧ line = c!"Runtime Error: " ++ what) ∨
         (m = upToNul (env.gramWhat .outOfRange) ∧ line = c!"Error: Unknown exception caught!")) :=
      fun before => ⟨before, _, rfl, rfl, Or.inl ⟨env.gramWhat e, h.symm, rfl⟩⟩
    cases e with
    | outOfRange => exact ⟨_, _, rfl, rfl, Or.inr ⟨h.symm, rfl⟩⟩
    | _ => exact hrt _

/-- For a lexicon in text form `t4` shows the rows of alternative 0 of `as_parse` without filter, `t5` those of
`as_parse` with the filter PUNCT and their number. -/
theorem C106_tokens (env : Env F D) (w : World) (file str ltext : Str) (more : List Str) (hf : w.files file = some ltext)
    (ht : env.archive ltext = .notArchive) :
    (∀ rows, stdParseAddress env str ltext c!"en" [] = some ⟨some rows, none⟩ →
      ∃ (before : List Str) (shown : List Shown),
        (t4 env w (file :: str :: more)).out =
          [c!"Address: '" ++ str ++ c!"'", c!"Normalized: '" ++ env.icu.norm str ++ c!"'",
            c!"UpperCase: '" ++ env.icu.upper c!"en" (env.icu.norm str) ++ c!"'"] ++ before ++ shown.map Shown.line ∧ (t4 env w (file :: str :: more)).fin = .code 0 ∧
        ShowRows [shown] (rows.filter (fun r => r.pat = 0))) ∧
    (∀ rows, stdParseAddress env str ltext c!"en" c!"PUNCT" = some ⟨some rows, none⟩ →
      ∃ (before : List Str) (shown : List Shown),
        (t5 env w (file :: str :: more)).out =
          [c!"Lexicon: '" ++ file ++ c!"'", c!"Address: '" ++ str ++ c!"'", c!"Normalized: '" ++ env.icu.norm str ++ c!"'",
            c!"UpperCase: '" ++ env.icu.upper c!"en" (env.icu.norm str) ++ c!"'"] ++ before ++ (c!"tokens.size() = " ++ Lexicon.natDigits shown.length) :: shown.map Shown.line ∧
        (t5 env w (file :: str :: more)).fin = .code 0 ∧ ShowRows [shown] (rows.filter (fun r => r.pat = 0))) := by
  constructor
  · intro rows h
    obtain ⟨l, ts, hl, hts, hr⟩ := parse_renamed hf ht c!"test-lex" h
    have e : ∃ before, t4 env w (file :: str :: more) =
        { out := [c!"Address: '" ++ str ++ c!"'", c!"Normalized: '" ++ env.icu.norm str ++ c!"'",
            c!"UpperCase: '" ++ env.icu.upper c!"en" (env.icu.norm str) ++ c!"'"] ++ before ++ ts.map Token.print, fin := .code 0 } := by
      have hts' : Tokenizer.getTokens env.icu env.u l (lexRe env l) [] (env.icu.upper c!"en" (env.icu.norm str)) = some ts := hts
      simp only [t4, hl, hts', Run.after]
      exact ⟨patterns l, by simp⟩
    obtain ⟨before, e⟩ := e
    exact ⟨before, ts.map shownOf, by rw [e, map_print], by rw [e], hr⟩
  · intro rows h
    obtain ⟨l, ts, hl, hts, hr⟩ := parse_renamed hf ht c!"test-lex" h
    have e : ∃ before, t5 env w (file :: str :: more) =
        { out := [c!"Lexicon: '" ++ file ++ c!"'", c!"Address: '" ++ str ++ c!"'", c!"Normalized: '" ++ env.icu.norm str ++ c!"'",
            c!"UpperCase: '" ++ env.icu.upper c!"en" (env.icu.norm str) ++ c!"'"] ++ before ++ (c!"tokens.size() = " ++ Lexicon.natDigits ts.length) :: ts.map Token.print, fin := .code 0 } := by
      have hts' : Tokenizer.getTokens env.icu env.u l (lexRe env l) [.PUNCT] (env.icu.upper c!"en" (env.icu.norm str)) = some ts := by
        rw [← hts]; rfl
      simp only [t5, hl, hts', Run.after]
      exact ⟨l.print :: patterns l, by simp⟩
    obtain ⟨before, e⟩ := e
    exact ⟨before, ts.map shownOf, by rw [e, map_print, List.length_map], by rw [e], hr⟩

/-- `compile-lexicon` writes a file exactly if the source is a lexicon in text form and the file can be created, and then
ends well; the file, given to the SQL functions instead of the source, gives the same results. -/
theorem C106_compile (env : Env F D) (lib lib' : Nat) (hlib : lib' ≤ lib) (henv : env.archive = Archive.load lib) (w : World)
    (writable : Str → Bool) (file target text : Str) (more : List Str) (hf : w.files file = some text)
    (hplain : Archive.load lib text = .notArchive) :
    let r := compileLexicon env.icu lib' w writable (file :: target :: more)
    (r.file ≠ none ↔ (∃ h es, LexText env.icu text h es) ∧ writable target = true) ∧ (r.file ≠ none ↔ r.fin = .code 0) ∧
    ∀ name c, r.file = some (name, c) → name = target ∧ ∀ address grammar locale filter,
      stdStandardize env address grammar c locale filter = stdStandardize env address grammar text locale filter ∧
      stdParseAddress env address c locale filter = stdParseAddress env address text locale filter ∧
      stdMatchAddress env address grammar c locale filter = stdMatchAddress env address grammar text locale filter := by
  have hlf : lexiconOfFile env.icu w c!"lexicon" file = Lexicon.initialize env.icu c!"lexicon" text := by
    unfold lexiconOfFile; rw [hf]
  cases hl : Lexicon.initialize env.icu c!"lexicon" text with
  | error x =>
    have hn : ¬ ∃ h es, LexText env.icu text h es := by
      rintro ⟨h, es, ht⟩
      obtain ⟨l, hl', _⟩ := Lexicon.loads env.icu c!"lexicon" text h es ht
      rw [hl] at hl'; cases hl'
    have e : compileLexicon env.icu lib' w writable (file :: target :: more) = { fin := .terminate } := by
      simp only [compileLexicon, hlf, hl]
    rw [e]
    refine ⟨⟨fun h => absurd rfl h, fun h => absurd h.1 hn⟩, ⟨fun h => absurd rfl h, fun h => by cases h⟩, fun _ _ h => by cases h⟩
  | ok l =>
    have hn : ∃ h es, LexText env.icu text h es := Lexicon.loads_only _ _ _ _ hl
    cases hw : writable target with
    | false =>
      have e : ∃ m, compileLexicon env.icu lib' w writable (file :: target :: more) = { err := m, fin := .code 1 } := by
        simp only [compileLexicon, hlf, hl, hw, Bool.false_eq_true, ↓reduceIte]; exact ⟨_, rfl⟩
      obtain ⟨m, e⟩ := e
      rw [e]
      refine ⟨⟨fun h => absurd rfl h, fun h => by cases h.2⟩, ⟨fun h => absurd rfl h, fun h => by cases h⟩, fun _ _ h => by cases h⟩
    | true =>
      have e : compileLexicon env.icu lib' w writable (file :: target :: more) =
          { file := some (target, Archive.save lib' (Archive.compiled l)), fin := .code 0 } := by
        simp only [compileLexicon, hlf, hl, hw, ↓reduceIte]; rfl
      rw [e]
      refine ⟨⟨fun _ => ⟨hn, rfl⟩, fun _ h => by cases h⟩, ⟨fun _ => rfl, fun _ h => by cases h⟩, fun name c hc => ?_⟩
      simp only [Option.some.injEq, Prod.mk.injEq] at hc
      obtain ⟨rfl, rfl⟩ := hc
      refine ⟨rfl, fun address grammar locale filter => ?_⟩
      have h1 : ∃ l0, loadLexicon env text = .ok l0 ∧ SameLex l0 l := by
        have hr := initialize_renamed env.icu c!"query-lex" c!"lexicon" text
        rw [hl] at hr
        cases h0 : Lexicon.initialize env.icu c!"query-lex" text with
        | error x => rw [h0] at hr; cases hr
        | ok l0 =>
          rw [h0] at hr
          injection hr with hr
          refine ⟨l0, ?_, hr ▸ sameLex_renamed _ l0⟩
          unfold loadLexicon
          rw [henv, hplain]
          simp only
          rw [h0]
      obtain ⟨l0, h1, hs0⟩ := h1
      have h2 : loadLexicon env (Archive.save lib' (Archive.compiled l)) = .ok (Archive.compiled l) := by
        unfold loadLexicon
        rw [henv, Archive.load_save lib lib' _ (Archive.compiled_storable (Archive.loaded_storable hl)) hlib]
      have hs := hs0.trans (Archive.sameLex_compiled l)
      refine ⟨?_, ?_, ?_⟩
      · unfold stdStandardize
        rw [h1, h2]
        simp only [hs.addr]
      · unfold stdParseAddress parseAddr
        rw [h1, h2]
        simp only [hs.phrases]
      · unfold stdMatchAddress matchAddr
        rw [h1, h2]
        simp only [hs.phrases]

/-- What `read-dump-grammar` writes for a grammar without empty sections, whose scores survive printing, is again a
grammar: the program writes the same for it, and the SQL functions give the same results with it. -/
theorem C106_dump (env : Env F D) (h0 : env.fo.le0 env.fo.zero = true) (hd : env.u.isSpace '-' = false) (w w' : World)
    (file file' text : Str) (more : List Str) (g : Grammar F) (hf : w.files file = some text)
    (hg : loadGrammar env text = .ok g) (hne : ∀ s ∈ g.metaNames, s.2 ≠ [])
    (hp : ∀ s ∈ g.ruleSections, ∀ r ∈ s.2, PrintsBack env.fo r.score)
    (hf' : w'.files file' = some (unlines (readDumpGrammar env.u.toCharTables env.fo w (file :: more)).out)) :
    (readDumpGrammar env.u.toCharTables env.fo w (file :: more)).fin = .code 0 ∧
    readDumpGrammar env.u.toCharTables env.fo w' (file' :: more) = readDumpGrammar env.u.toCharTables env.fo w (file :: more) ∧
    ∀ address lexicon locale filter,
      stdStandardize env address (unlines (readDumpGrammar env.u.toCharTables env.fo w (file :: more)).out) lexicon locale filter =
        stdStandardize env address text lexicon locale filter ∧
      stdMatchAddress env address (unlines (readDumpGrammar env.u.toCharTables env.fo w (file :: more)).out) lexicon locale filter =
        stdMatchAddress env address text lexicon locale filter := by
  have hi := loadGrammar_init hg
  have e : readDumpGrammar env.u.toCharTables env.fo w (file :: more) = { out := [g.print env.fo], fin := .code 0 } := by
    simp only [readDumpGrammar, grammarOfFile, hf, hi]
  rw [e] at hf' ⊢
  obtain ⟨ls, hpr, hnl, hbom, hmeans, hdang, hroot⟩ := printed_lines _ env.fo h0 hd text g hi hne hp
  have ht : unlines [g.print env.fo] = unlines (ls ++ [[]]) := by
    rw [unlines_append, ← hpr]; simp [unlines]
  have hbom' : NoBom (unlines (ls ++ [[]])) := by
    rw [unlines_append]
    unfold NoBom at *
    cases hu : unlines ls with
    | nil => simp [unlines]
    | cons c cs => rw [hu] at hbom; simpa using hbom
  have hnl' : ∀ l ∈ ls ++ [[]], '\n' ∉ l := by
    intro l hl
    rcases List.mem_append.1 hl with hl | hl
    · exact hnl l hl
    · rw [List.mem_singleton.1 hl]; exact List.not_mem_nil
  obtain ⟨g', hg', e1, e2⟩ := (C32_text_meaning _ env.fo h0 _ hnl' hbom' _ _).2
    ⟨(grammarMeans_append_blank _ _ ls _ _).2 hmeans, hdang, hroot⟩
  rw [← ht] at hg'
  have hsearch : ∀ phrase, search g' c!"ADDRESS" phrase = search g c!"ADDRESS" phrase := by
    intro phrase
    obtain ⟨wf, _, _⟩ := C29_constructed_wf _ env.fo h0 _ g hi
    obtain ⟨wf', _, _⟩ := C29_constructed_wf _ env.fo h0 _ g' hg'
    exact search_sameSections wf' wf ⟨fun s => by rw [e1], fun s => by rw [e2]⟩ _ phrase
  refine ⟨rfl, ?_, fun address lexicon locale filter => ⟨?_, ?_⟩⟩
  · simp only [readDumpGrammar, grammarOfFile, hf', hg']
    rw [show Grammar.print env.fo g' = Grammar.print env.fo g by rw [print_eq, print_eq, e1, e2]]
  · unfold stdStandardize loadGrammar
    rw [hi, hg']
    simp only
    split
    · rfl
    · rfl
    · unfold standardizeAddr
      rw [funext (bestOf_congr hsearch env.fo)]
  · unfold stdMatchAddress loadGrammar
    rw [hi, hg']
    simp only
    split
    · rfl
    · rfl
    · unfold matchAddr
      rw [funext (all_congr hsearch env.dops env.widen)]

/-! ### Examples -/

theorem of_retIs {α : Type} {P : α → Prop} [DecidablePred P] {o : Option (Ret α)}
    (h : (match o with | some ⟨some a, none⟩ => decide (P a) | _ => false) = true) : ∃ a, o = some ⟨some a, none⟩ ∧ P a := by
  rcases o with _ | ⟨_ | a, _ | m⟩
  all_goals first | exact ⟨_, rfl, of_decide_eq_true h⟩ | cases h

/-- Some files. -/
def exWorld : World where
  files name :=
    if name = c!"lex.txt" then some townText
    else if name = c!"grammar.txt" then some addrText
    else if name = c!"words.txt" then some c!"no lexicon\n"
    else none
  digest s := Lexicon.natDigits s.length

/-- A whole run, with two alternatives, of which each has a match (scores show their numerators only). -/
example : t2 exEnv exWorld [c!"lex.txt", c!"grammar.txt", c!"1 new york str", c!"SPACE"] =
    { out := [c!"Address: '1 new york str'", c!"Normalized: '1 new york str'", c!"UpperCase: '1 NEW YORK STR'", c!"t.tellg() = 76",
        c!"Load from serialized failed! Trying to load lexicon.", c!"Lexicon md5: 73",
        bar 31, c!"TOKEN:\t1\t\tNUMBER\tBADTOKEN\t\t0", c!"TOKEN:\tNEW YORK\t\tCITY\tBADTOKEN\t\t1",
        c!"TOKEN:\tSTR\t\tTYPE\tBADTOKEN\t\t1",
        bar 31, c!"TOKEN:\t1\t\tNUMBER\tBADTOKEN\t\t0", c!"TOKEN:\tNEW\t\tWORD\tBADTOKEN\t\t0",
        c!"TOKEN:\tYORK\t\tWORD\tBADTOKEN\t\t0", c!"TOKEN:\tSTR\t\tTYPE\tBADTOKEN\t\t1", bar 31,
        c!"OK loading grammar: ", c!"Grammar md5: 153", c!"bestCost: 1", c!"TOKEN:\t1\t1\tNUMBER\tHOUSE\t\t0",
        c!"TOKEN:\tNEW YORK\tNY\tCITY\tCITY\t\t1", c!"TOKEN:\tSTR\tSTRASSE\tTYPE\tSUFTYP\t\t1",
        c!"matched: NUMBER CITY TYPE -> HOUSE CITY SUFTYP, 1", bar 53,
        c!"NUMBER CITY TYPE -> HOUSE CITY SUFTYP, 1, 1", c!"NUMBER WORD WORD TYPE -> HOUSE STREET STREET IGNORE, 9, 2"]
      fin := .code 0 } := by decide +kernel

/-- The hypotheses of `C106_standardize`, `C106_parse` and `C106_tokens` are met by these files. -/
example : LtLaws exEnv.fo ∧ SignLaws exEnv.fo ∧ exEnv.fo.le0 exEnv.fo.zero = true ∧
    exWorld.files c!"lex.txt" = some townText ∧ exWorld.files c!"grammar.txt" = some addrText ∧
    exEnv.archive townText = .notArchive ∧
    (∃ a, stdStandardize exEnv c!"1 new york str" addrText townText c!"en" c!"SPACE" = some ⟨some a, none⟩ ∧
      a.get .city = some c!"NY") ∧
    (∃ rows, stdMatchAddress exEnv c!"1 new york str" addrText townText c!"en" c!"SPACE" = some ⟨some rows, none⟩ ∧
      rows.length = 2) ∧
    (∃ rows, stdParseAddress exEnv c!"1 new york str" townText c!"en" c!"SPACE" = some ⟨some rows, none⟩ ∧ rows.length = 7) ∧
    (∃ rows, stdParseAddress exEnv c!"1 new york str" townText c!"en" [] = some ⟨some rows, none⟩ ∧ rows.length = 52) ∧
    ∃ rows, stdParseAddress exEnv c!"1 new york str" townText c!"en" c!"PUNCT" = some ⟨some rows, none⟩ ∧ rows.length = 52 :=
  ⟨ratOps_laws, ratOps_signs, by decide, rfl, rfl, rfl, of_retIs (by decide +kernel),
    of_retIs (by decide +kernel), of_retIs (by decide +kernel),
    of_retIs (by decide +kernel), of_retIs (by decide +kernel)⟩

/-- Those of `C106_no_match`, `C106_no_file`, `C106_bad_lexicon` and `C106_bad_grammar`. -/
example : exWorld.files c!"none.txt" = none ∧
    stdStandardize exEnv c!"new york" addrText townText c!"en" c!"SPACE" = some ⟨none, none⟩ ∧
    (∀ n, exEnv.alloc n = true) ∧
    stdParseAddress exEnv c!"1 new york str" c!"no lexicon\n" c!"en" c!"SPACE" = some ⟨none, some c!"bad lexicon"⟩ ∧
    stdStandardize exEnv c!"1 new york str" c!"no lexicon\n" townText c!"en" c!"SPACE" = some ⟨none, some c!"bad grammar"⟩ :=
  ⟨rfl, by decide +kernel, fun _ => rfl, by decide +kernel, by decide +kernel⟩

/-- The runs of these cases. -/
example : (t2 exEnv exWorld [c!"lex.txt", c!"grammar.txt", c!"new york", c!"SPACE"]).out.getLast? =
      some c!"#### Failed to find a match (searchAndReclassBest)(-1)" ∧
    (t2 exEnv exWorld [c!"words.txt", c!"grammar.txt", c!"new york"]).fin = .terminate ∧
    (t2 exEnv exWorld [c!"lex.txt", c!"words.txt", c!"new york"]).out.getLast? = some c!"Runtime Error: bad grammar" :=
  ⟨by decide +kernel, by decide +kernel, by decide +kernel⟩

/-- Those of `C106_compile`. -/
example : archEnv.archive = Archive.load 19 ∧ Archive.load 19 townText = .notArchive ∧
    (∃ h es, LexText archEnv.icu townText h es) ∧
    (compileLexicon archEnv.icu 17 exWorld (fun _ => true) [c!"lex.txt", c!"lex.clex"]).fin = .code 0 ∧
    (compileLexicon archEnv.icu 17 exWorld (fun _ => false) [c!"lex.txt", c!"lex.clex"]).fin = .code 1 :=
  ⟨rfl, C62_plain_text 19 _ ⟨[], 'L', _, rfl, by simp, by decide, by decide, by decide⟩, ⟨_, _, townText_means⟩, by decide +kernel, by decide +kernel⟩

/-- Those of `C106_dump`. -/
example : exEnv.fo = ratOps ∧ exEnv.u.isSpace '-' = false ∧
    ∃ g, Grammar.initialize exEnv.u.toCharTables ratOps (unlines [c!"# numbers", c!"[NUM]", c!"NUMBER -> HOUSE -> 3 ",
        c!" [ADDRESS]", c!"@NUM@STREET", c!"[STREET]", c!"WORD  TYPE -> STREET SUFTYP -> 8"]) = .ok g ∧
      (∀ s ∈ g.metaNames, s.2 ≠ []) ∧ (∀ s ∈ g.ruleSections, ∀ r ∈ s.2, PrintsBack ratOps r.score) :=
  ⟨rfl, by decide, exists_ok (by decide +kernel)⟩

end AS.Props
