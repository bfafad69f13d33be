import Verif.Spec.Tester
import Verif.Lemmas.Defined
import Verif.Props.Compiled
import Verif.Props.Print
/-
Lemmas on the command-line programs.
-/
namespace AS
namespace Tester
open Wrapper Props
variable {F D : Type}

theorem after_after (a b : List Str) (r : Run) : (r.after a).after b = r.after (b ++ a) := by
  simp [Run.after]

/-! ### What is shown of a token -/

/-- The columns of a token. -/
def shownOf (t : Token) : Shown :=
  ⟨t.text, t.stdtext, InType.setAsString t.inclass, t.outclass.asString, Attach.setAsString t.attached,
    if t.inlex then c!"1" else c!"0"⟩

theorem print_line (t : Token) : t.print = (shownOf t).line := by
  simp [Token.print, Shown.line, shownOf]

theorem map_print (ts : List Token) : ts.map Token.print = (ts.map shownOf).map Shown.line := by
  rw [List.map_map]
  exact List.map_congr_left fun t _ => print_line t

theorem fieldNamed_asString (c : OutType) : fieldNamed c.asString = fieldOf c := by cases c <;> decide

theorem shownFor_eq (f : Field) (ts : List Token) : shownFor f (ts.map shownOf) = wordsFor f ts := by
  unfold shownFor wordsFor
  rw [List.filter_map, List.map_map]
  have : ((fun s : Shown => decide (fieldNamed s.out = some f)) ∘ shownOf) = fun t : Token => decide (fieldOf t.outclass = some f) := by
    funext t
    simp only [Function.comp, shownOf, fieldNamed_asString]
  rw [this]
  rfl

theorem dashes_eq : dashes = bar 31 := by decide

theorem longDashes_eq : longDashes = bar 53 := by decide

theorem phrases_blocks (ps : List (List Token)) :
    t2Phrases ps = (ps.map (·.map shownOf)).flatMap (fun b => bar 31 :: b.map Shown.line) ++ [bar 31] := by
  unfold t2Phrases
  rw [dashes_eq, List.flatMap_map]
  congr 1
  have : ∀ p : List Token, p.map Token.print = (p.map shownOf).map Shown.line := map_print
  simp only [this]

theorem showRows_parseLoop (ps : List (List Token)) : ShowRows (ps.map (·.map shownOf)) (parseLoop 0 0 ps) := by
  unfold ShowRows
  rw [parseLoop_rows, List.zipIdx_map, List.flatMap_map]
  congr 1
  funext p
  simp [shownOf]

/-! ### Loading -/

theorem t2Lexicon_snd (env : Env F D) (text : Str) : (t2Lexicon env text).2 = loadLexicon env text := by
  unfold t2Lexicon loadLexicon
  cases env.archive text with
  | lexicon l => rfl
  | recompile => rfl
  | notArchive => cases Lexicon.initialize env.icu c!"query-lex" text <;> rfl

theorem t2Lexicon_fst (env : Env F D) (text : Str) : (t2Lexicon env text).1 =
    (match env.archive text with
     | .notArchive => [c!"Load from serialized failed! Trying to load lexicon."]
     | _ => []) := by
  unfold t2Lexicon
  cases env.archive text <;> rfl

theorem t2Lexicon_eq {env : Env F D} {text : Str} {o : Outcome Lexicon} (h : loadLexicon env text = o) :
    t2Lexicon env text =
      ((match env.archive text with
        | .notArchive => [c!"Load from serialized failed! Trying to load lexicon."]
        | _ => []), o) := by
  rw [← h, ← t2Lexicon_snd, ← t2Lexicon_fst]

/-- What is written before the token lists. -/
def opening (env : Env F D) (str ltext : Str) : List Str :=
  [c!"Address: '" ++ str ++ c!"'", c!"Normalized: '" ++ env.icu.norm str ++ c!"'",
    c!"UpperCase: '" ++ env.icu.upper c!"en" (env.icu.norm str) ++ c!"'",
    c!"t.tellg() = " ++ Lexicon.natDigits (byteLen ltext)] ++
  match env.archive ltext with
  | .notArchive => [c!"Load from serialized failed! Trying to load lexicon."]
  | _ => []

theorem t2_ok {env : Env F D} {w : World} {lfile gfile str filter ltext : Str} (hf : w.files lfile = some ltext) {l : Lexicon}
    (hl : loadLexicon env ltext = .ok l) {phrases : List (List Token)}
    (hp : phrasesOf env l c!"en" filter str = .ok phrases) :
    t2 env w [lfile, gfile, str, filter] =
      (t2Grammar env w l gfile phrases).after (opening env str ltext ++ [c!"Lexicon md5: " ++ w.digest l.md5in] ++ t2Phrases phrases) := by
  have e := t2Lexicon_eq (env := env) hl
  unfold phrasesOf at hp
  simp only at hp
  cases h1 : Tokenizer.getTokens env.icu env.u l (lexRe env l) (InType.asType filter)
      (env.icu.upper c!"en" (env.icu.norm str)) with
  | none => rw [h1] at hp; cases hp
  | some ts =>
    rw [h1] at hp
    simp only at hp
    cases h2 : Tokenizer.getAltTokens env.u l ts with
    | none => rw [h2] at hp; cases hp
    | some alts =>
      rw [h2] at hp
      injection hp with hp
      subst hp
      simp only [t2, t2Run, t2Main, hf, e, h1, h2, after_after]
      simp [opening]

theorem t2_undefined {env : Env F D} {w : World} {lfile gfile str filter ltext : Str} (hf : w.files lfile = some ltext) {l : Lexicon}
    (hl : loadLexicon env ltext = .ok l) (hp : phrasesOf env l c!"en" filter str = .undefined) :
    (t2 env w [lfile, gfile, str, filter]).fin = .undefined := by
  have e := t2Lexicon_eq (env := env) hl
  unfold phrasesOf at hp
  simp only at hp
  cases h1 : Tokenizer.getTokens env.icu env.u l (lexRe env l) (InType.asType filter)
      (env.icu.upper c!"en" (env.icu.norm str)) with
  | none => simp only [t2, t2Run, t2Main, hf, e, h1, after_after]; rfl
  | some ts =>
    rw [h1] at hp
    simp only at hp
    cases h2 : Tokenizer.getAltTokens env.u l ts with
    | none => simp only [t2, t2Run, t2Main, hf, e, h1, h2, after_after]; rfl
    | some alts => rw [h2] at hp; cases hp

theorem t2_throws {env : Env F D} {w : World} {lfile gfile str filter ltext m : Str} (hf : w.files lfile = some ltext)
    (hl : loadLexicon env ltext = .throws m) :
    t2 env w [lfile, gfile, str, filter] = { out := opening env str ltext, fin := .terminate } := by
  have e := t2Lexicon_eq (env := env) hl
  simp only [t2, t2Run, t2Main, hf, e, after_after]
  simp [opening, Run.after]

theorem loadGrammar_init {env : Env F D} {text : Str} {g : Grammar F} (h : loadGrammar env text = .ok g) :
    Grammar.initialize env.u.toCharTables env.fo text = .ok g := by
  unfold loadGrammar at h
  split at h
  · next g' e => cases h; exact e
  · cases h

theorem t2Grammar_ok {env : Env F D} {w : World} {l : Lexicon} {gfile gtext : Str} (hf : w.files gfile = some gtext)
    (h0 : env.fo.le0 env.fo.zero = true) {g : Grammar F} (hg : loadGrammar env gtext = .ok g) (phrases : List (List Token)) :
    ∃ before, t2Grammar env w l gfile phrases = (t2Search env l g phrases).after before := by
  have hi := loadGrammar_init hg
  obtain ⟨s1, s2, _⟩ := C30_status_of_constructed _ env.fo h0 gtext g hi
  unfold t2Grammar
  simp only [hf, hi]
  cases hs : g.status with
  | CHECK_OK => exact ⟨_, rfl⟩
  | CHECK_WARN => exact ⟨_, rfl⟩
  | CHECK_FATAL =>
    rw [hs] at s1 s2
    by_cases hu : Unreferenced g.metaNames g.ruleSections
    · cases s1.2 hu
    · cases s2.2 hu

theorem standardizeEach_eq (l : Lexicon) : ∀ (ts std : List Token), ts.map l.standardize = std.map some →
    standardizeEach l ts = some std
  | [], [], _ => rfl
  | [], _ :: _, h => by cases h
  | _ :: _, [], h => by cases h
  | t :: ts, s :: std, h => by
    simp only [List.map_cons, List.cons.injEq] at h
    rw [standardizeEach, h.1]
    simp only [standardizeEach_eq l ts std h.2]

/-- The two ends of the search with a grammar that was loaded. -/
theorem best_cases {fo : FloatOps F} (laws : LtLaws fo) (signs : SignLaws fo) {g : Grammar F} (wf : WfGrammar g) (hb : Balanced g)
    (hr : HasRoot g) (l : Lexicon) (phrases : List (List Token)) :
    (∃ (b : BestResult F) (std : List Token), searchAndReclassBestOf g fo phrases = .ok b ∧ fo.ge0 b.score = true ∧ fo.lt b.score fo.zero = false ∧
      b.tokens.map l.standardize = std.map some) ∨
    searchAndReclassBestOf g fo phrases = .ok ⟨[], fo.ofInt (-1), some [], fo.ofInt (-1)⟩ := by
  obtain ⟨rs, hrs, hc⟩ := C42_first_best_phrase laws signs.neg_lt wf hb hr phrases
  rcases hc with ⟨i, r, hi, _, hm, hbest⟩ | ⟨hall, hbest⟩
  · left
    have : Outcome.ok r ∈ phrases.map (searchAndReclassBest g fo) := by
      rw [hrs]; exact List.mem_map.2 ⟨r, List.mem_of_getElem? hi, rfl⟩
    obtain ⟨phrase, hmem, hbr⟩ := List.mem_map.1 this
    obtain ⟨results, r', hs, hr', hno, hyes⟩ := C41_no_match_iff laws wf hb hr phrase
    rw [hbr] at hr'
    cases hr'
    have hne : results ≠ [] := by
      intro e
      rw [hno e] at hm
      cases hm
    have hge : fo.ge0 r.score = true ∧ fo.lt r.score fo.zero = false := by
      rcases (hyes hne).1 with h | h
      · rw [h]; exact ⟨signs.zero_ge, laws.irrefl _⟩
      · refine ⟨signs.pos_ge _ h, ?_⟩
        cases hx : fo.lt r.score fo.zero with
        | false => rfl
        | true =>
          have := laws.trans _ _ _ h hx
          rw [laws.irrefl] at this
          cases this
    have hcls : ∀ t ∈ r.tokens, t.inclass ≠ [] := by
      obtain ⟨_, p, score, nrules, _, h', _⟩ := C39_best_is_first_max laws wf hb phrase results hs hne
      rw [hbr] at h'
      cases h'
      exact retag_inclass _ _ _
    obtain ⟨std, hstd⟩ := standardize_all l r.tokens hcls
    exact ⟨r, std, hbest, hge.1, hge.2, hstd⟩
  · exact Or.inr hbest

/-! ### The name of a lexicon -/

/-- A lexicon under another name. -/
def renamed (n : Str) (l : Lexicon) : Lexicon := { l with name := n }

theorem renamed_insert (n : Str) (l : Lexicon) (e : LexEntry) : (renamed n l).insert e = renamed n (l.insert e) := by
  unfold Lexicon.insert
  rw [show (renamed n l).find e.word = l.find e.word from rfl]
  simp only
  split <;> rfl

theorem entryLoop_renamed (icu : Icu) (n : Str) : ∀ (fuel : Nat) (is : IStream) (line inp : Str) (l : Lexicon),
    Lexicon.entryLoop icu fuel is line inp (renamed n l) =
      (match Lexicon.entryLoop icu fuel is line inp l with
       | .error e => .error e
       | .ok (l, inp) => .ok (renamed n l, inp))
  | 0, _, _, _, _ => rfl
  | fuel + 1, is, line, inp, l => by
    have hload : ∀ line, Lexicon.loadEntry icu (renamed n l) line =
        (match Lexicon.loadEntry icu l line with
         | .error e => .error e
         | .ok (l, line) => .ok (renamed n l, line)) := by
      intro line
      unfold Lexicon.loadEntry
      simp only [renamed_insert]
      rw [show (renamed n l).locale = l.locale from rfl]
      repeat' (first | rfl | split)
      all_goals simp_all
    simp only [Lexicon.entryLoop]
    cases hfail : is.fail with
    | true => rfl
    | false =>
      simp only [hload]
      cases Lexicon.loadEntry icu l (Lexicon.collapse false (is.getline '\n' line).2) with
      | error e => rfl
      | ok p => exact entryLoop_renamed icu n fuel _ _ _ _

theorem initialize_renamed (icu : Icu) (n n' text : Str) : Lexicon.initialize icu n' text =
    (match Lexicon.initialize icu n text with
     | .error e => .error e
     | .ok l => .ok (renamed n' l)) := by
  unfold Lexicon.initialize
  simp only
  split
  · rfl
  · split
    · rfl
    · split
      · rfl
      · next h =>
        have := entryLoop_renamed icu n'
        rename_i is line inp _ _ lang locale
        rw [show ({ name := n', lang, locale } : Lexicon) = renamed n' { name := n, lang, locale } from rfl, this]
        cases Lexicon.entryLoop icu (text.length + 3) is line inp { name := n, lang, locale } with
        | error e => rfl
        | ok p => rfl

theorem sameLex_renamed (n : Str) (l : Lexicon) : SameLex l (renamed n l) := by
  refine ⟨rfl, rfl, ?_, ?_, ?_⟩
  · unfold Lexicon.regex renamed; simp only; repeat' (first | rfl | split)
  · unfold Lexicon.regexPrefixAtt renamed; simp only; repeat' (first | rfl | split)
  · unfold Lexicon.regexSuffixAtt renamed; simp only; repeat' (first | rfl | split)

/-! ### What the results of the library functions say -/

theorem parse_ok {env : Env F D} {str ltext locale filter : Str} {rows : List ParseRow}
    (h : stdParseAddress env str ltext locale filter = some ⟨some rows, none⟩) :
    ∃ l phrases, loadLexicon env ltext = .ok l ∧ phrasesOf env l locale filter str = .ok phrases ∧
      rows = parseLoop 0 0 phrases := by
  unfold stdParseAddress at h
  cases hl : loadLexicon env ltext with
  | undefined => rw [hl] at h; cases h
  | throws m => rw [hl] at h; cases h
  | ok l =>
    rw [hl] at h
    simp only [parseAddr] at h
    cases hp : phrasesOf env l locale filter str with
    | undefined => rw [hp] at h; cases h
    | throws m => rw [hp] at h; cases h
    | ok ps =>
      rw [hp] at h
      simp only [parseAddrWith] at h
      split at h
      · cases h
      · split at h
        · cases h
        · cases h
          exact ⟨l, ps, rfl, hp, rfl⟩

theorem standardize_loads {env : Env F D} {str gtext ltext locale filter : Str} {v : Option StdAddr}
    (h : stdStandardize env str gtext ltext locale filter = some ⟨v, none⟩) :
    ∃ g l, loadGrammar env gtext = .ok g ∧ loadLexicon env ltext = .ok l ∧
      standardizeAddr env g l locale filter str = some ⟨v, none⟩ := by
  unfold stdStandardize at h
  cases hg : loadGrammar env gtext with
  | undefined => rw [hg] at h; cases h
  | throws m => rw [hg] at h; cases h
  | ok g =>
    rw [hg] at h
    cases hl : loadLexicon env ltext with
    | undefined => rw [hl] at h; cases h
    | throws m => rw [hl] at h; cases h
    | ok l => rw [hl] at h; exact ⟨g, l, rfl, rfl, h⟩

theorem match_ok {env : Env F D} {str gtext ltext locale filter : Str} {rows : List (MatchRow D)} {g : Grammar F} {l : Lexicon}
    {phrases : List (List Token)} (hg : loadGrammar env gtext = .ok g) (hl : loadLexicon env ltext = .ok l)
    (hp : phrasesOf env l locale filter str = .ok phrases)
    (h : stdMatchAddress env str gtext ltext locale filter = some ⟨some rows, none⟩) :
    ∃ toks, searchAndReclassAll g env.dops env.widen phrases = .ok toks ∧
      strictWeakOn (Tester.sortByScoresDesc env.dops) toks = true ∧
      rows = (env.sort (Tester.sortByScoresDesc env.dops) toks).map reported := by
  simp only [stdMatchAddress, hg, hl, matchAddr, hp, matchAddrWith] at h
  cases ht : searchAndReclassAll g env.dops env.widen phrases with
  | undefined => rw [ht] at h; cases h
  | throws m => rw [ht] at h; cases h
  | ok toks =>
    rw [ht] at h
    simp only at h
    split at h
    · next hs =>
      refine ⟨toks, rfl, hs, ?_⟩
      split at h
      · cases h
      · split at h
        · cases h
        · simp only [Option.some.injEq, Ret.mk.injEq, and_true] at h
          exact h.symm
    · cases h

theorem parseTokens_pat (i : Nat) : ∀ (ts : List Token) (j : Nat), ∀ r ∈ (parseTokens i j ts).1, r.pat = i
  | [], _, _, h => by cases h
  | t :: ts, j, r, h => by
    simp only [parseTokens, List.mem_cons] at h
    rcases h with rfl | h
    · rfl
    · exact parseTokens_pat i ts _ r h

theorem parseLoop_pat : ∀ (ps : List (List Token)) (i j : Nat), ∀ r ∈ parseLoop i j ps, i ≤ r.pat
  | [], _, _, _, h => by cases h
  | p :: ps, i, j, r, h => by
    simp only [parseLoop, List.mem_append] at h
    rcases h with h | h
    · exact Nat.le_of_eq (parseTokens_pat i p j r h).symm
    · exact Nat.le_of_succ_le (parseLoop_pat ps _ _ r h)

theorem showRows_first (ts : List Token) (alts : List (List Token)) :
    ShowRows [ts.map shownOf] ((parseLoop 0 0 (ts :: alts)).filter (fun r => r.pat = 0)) := by
  have e : (parseLoop 0 0 (ts :: alts)).filter (fun r => r.pat = 0) = (parseTokens 0 0 ts).1 := by
    simp only [parseLoop, List.filter_append]
    rw [List.filter_eq_self.2 (fun r hr => by simpa using parseTokens_pat 0 ts 0 r hr),
      List.filter_eq_nil_iff.2 (fun r hr => by have := parseLoop_pat _ _ _ r hr; simp; omega), List.append_nil]
  unfold ShowRows
  rw [e, parseTokens_rows]
  simp [shownOf]

theorem parse_renamed {env : Env F D} {w : World} {file str ltext filter : Str} (hf : w.files file = some ltext)
    (ht : env.archive ltext = .notArchive) (name : Str) {rows : List ParseRow}
    (h : stdParseAddress env str ltext c!"en" filter = some ⟨some rows, none⟩) :
    ∃ (l : Lexicon) (ts : List Token), lexiconOfFile env.icu w name file = .ok l ∧
      Tokenizer.getTokens env.icu env.u l (lexRe env l) (InType.asType filter) (env.icu.upper c!"en" (env.icu.norm str)) = some ts ∧
      ShowRows [ts.map shownOf] (rows.filter (fun r => r.pat = 0)) := by
  obtain ⟨l, phrases, hl, hp, rfl⟩ := parse_ok h
  unfold loadLexicon at hl
  rw [ht] at hl
  simp only at hl
  cases hi : Lexicon.initialize env.icu c!"query-lex" ltext with
  | error e => rw [hi] at hl; cases hl
  | ok l0 =>
    rw [hi] at hl
    injection hl with hl
    subst hl
    have hs := sameLex_renamed name l0
    unfold phrasesOf at hp
    simp only at hp
    cases h1 : Tokenizer.getTokens env.icu env.u l0 (lexRe env l0) (InType.asType filter)
        (env.icu.upper c!"en" (env.icu.norm str)) with
    | none => rw [h1] at hp; cases hp
    | some ts =>
      rw [h1] at hp
      simp only at hp
      cases h2 : Tokenizer.getAltTokens env.u l0 ts with
      | none => rw [h2] at hp; cases hp
      | some alts =>
        rw [h2] at hp
        injection hp with hp
        subst hp
        refine ⟨renamed name l0, ts, ?_, ?_, showRows_first ts alts⟩
        · unfold lexiconOfFile
          rw [hf]
          simp only
          rw [initialize_renamed env.icu c!"query-lex", hi]
        · rw [← h1]
          unfold lexRe
          rw [hs.regex, hs.pre, hs.suf, hs.getTokens]

end Tester
end AS
