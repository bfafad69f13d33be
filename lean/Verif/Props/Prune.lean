import Verif.Lemmas.Prune
import Verif.Lemmas.Classified
import Verif.Props.Origin
import Verif.Props.Mirror
import Verif.Props.Samples
import Verif.Props.Compiled
import Verif.Lemmas.PruneCheck
/-
Property C84: where the classes of tokens come from, and rules that cannot match.
-/
namespace AS.Props
open AS AS.Wrapper
variable {F D : Type}

theorem shape_listed {u : UTables} {d c : InType} (hd : d = .WORD ∨ d = .PUNCT) :
    ∀ {s : Str}, FirstShape (shapes u d) s c → c ∈ shapeClasses := by
  intro s h
  simp only [shapes, FirstShape] at h
  unfold shapeClasses
  have : c = .NUMBER ∨ c = .QUAD ∨ c = .QUINT ∨ c = .ATSIGN ∨ c = .SLASH ∨ c = .FRACT ∨ c = .MIXED ∨ c = .PCH ∨ c = .PCT ∨
      c = .WORD ∨ c = .DOUBLE ∨ c = .SINGLE ∨ c = .EMDASH ∨ c = .DASH ∨ c = .AMPERS ∨ c = .SPACE ∨ c = .PUNCT := by
    rcases hd with rfl | rfl <;> grind
  simpa using this

theorem find_listed {l : Lexicon} {key : Str} {e : LexEntry} (h : e ∈ l.find key) : ∃ es ∈ l.lex, e ∈ es.2 := by
  unfold Lexicon.find at h
  split at h
  · next es he => exact ⟨_, omFind_mem' he, h⟩
  · cases h

/-- Every class of a token comes from an entry of the lexicon for its text or is one of those given by the shape of the text,
if there is no tab in the address. -/
theorem C84_classes (env : Env F D) (hk : IcuKeeps env.icu '\t') (l : Lexicon) (locale filter address : Str)
    (hn : '\t' ∉ address) (phrases : List (List Token)) (hp : phrasesOf env l locale filter address = .ok phrases) :
    ∀ phrase ∈ phrases, ∀ t ∈ phrase, t.inclass ≠ [] ∧
      ((∀ c, c ∈ t.inclass ↔ ∃ e ∈ l.find t.text, c ∈ e.type) ∨ ∀ c ∈ t.inclass, c ∈ shapeClasses) := by
  intro phrase hphrase t ht
  obtain ⟨t0, d, h0, hd, rfl⟩ := phrasesOf_fc hk hn hp phrase hphrase t ht
  refine ⟨(C13_total env.u l t0 d).1, ?_⟩
  by_cases he : ∃ c, c ∈ t0.inclass ∨ ∃ e ∈ l.find t0.text, c ∈ e.type
  · obtain ⟨k1, k2⟩ := C13_in_lexicon env.u l t0 d he
    left
    intro c
    have ht : (l.classify env.u t0 d).text = t0.text := by rw [k2]
    rw [k1 c, h0, ht]
    simp
  · right
    intro c hc
    refine shape_listed hd (((C13_by_shape env.u l t0 d h0 ?_).1 c).1 hc)
    intro e hm
    cases htype : e.type with
    | nil => rfl
    | cons c cs => exact absurd ⟨c, Or.inr ⟨e, hm, by rw [htype]; exact List.mem_cons_self⟩⟩ he

/-- So it is listed or given by shape. -/
theorem C84_possible (env : Env F D) (hk : IcuKeeps env.icu '\t') (l : Lexicon) (locale filter address : Str)
    (hn : '\t' ∉ address) (phrases : List (List Token)) (hp : phrasesOf env l locale filter address = .ok phrases) :
    ∀ phrase ∈ phrases, ∀ t ∈ phrase, ∀ c ∈ t.inclass, c ∈ shapeClasses ∨ HasClass l c := by
  intro phrase hphrase t ht c hc
  rcases (C84_classes env hk l locale filter address hn phrases hp phrase hphrase t ht).2 with h | h
  · obtain ⟨e, he, hec⟩ := (h c).1 hc
    exact Or.inr ⟨_, e, he, hec⟩
  · exact Or.inl (h c hc)

/-- A field that only rules fill that have a class neither listed in the lexicon nor given by shape is NULL. -/
theorem C84_null (env : Env F D) (laws : LtLaws env.fo) (signs : SignLaws env.fo)
    (htot : ∀ a b c, env.fo.lt env.fo.zero b = true → env.fo.lt a c = true → env.fo.lt a b = true ∨ env.fo.lt b c = true)
    (h0 : env.fo.le0 env.fo.zero = true) (hk : IcuKeeps env.icu '\t')
    (address grammar lexicon locale filter : Str) (hn : '\t' ∉ address) (a : StdAddr) (err : Option Str)
    (h : stdStandardize env address grammar lexicon locale filter = some ⟨some a, err⟩)
    (g : Grammar F) (hg : loadGrammar env grammar = .ok g) (l : Lexicon) (hl : loadLexicon env lexicon = .ok l) (f : Field)
    (hf : ∀ sec ∈ g.ruleSections, Leads g.metaNames sec.1 → ∀ r ∈ sec.2, ∀ o ∈ r.outClass, fieldOf o = some f →
      ∃ c ∈ r.inClass, c ∉ shapeClasses ∧ ¬ HasClass l c) : a.get f = none := by
  obtain ⟨g', l', phrases, phrase, rs, m, std, k1, k2, k3, k4, hd, hpk, _, _, _, hout, hget, _⟩ :=
    C65_explained env laws signs htot h0 address grammar lexicon locale filter a err h
  rw [hg] at k1; cases k1
  rw [hl] at k2; cases k2
  rw [hget, if_pos]
  unfold wordsFor
  rw [List.map_eq_nil_iff, List.filter_eq_nil_iff]
  intro t ht e
  have e := of_decide_eq_true e
  obtain ⟨r, hr, ho⟩ := (mem_classes hout t.outclass).1 ⟨t, ht, rfl⟩
  obtain ⟨sec, hs, hlead, hrs⟩ := derives_leads hd (fun s hs => by rw [List.mem_singleton.1 hs]; exact .root) r hr
  obtain ⟨c, hc, n1, n2⟩ := hf sec hs hlead r hrs t.outclass ho e
  obtain ⟨s, hs', hcs⟩ := picks_classes hpk c (List.mem_flatMap.2 ⟨r, hr, hc⟩)
  obtain ⟨t', ht', rfl⟩ := List.mem_map.1 hs'
  rcases C84_possible env hk l locale filter address hn phrases k3 phrase k4 t' ht' c hcs with h | h
  · exact n1 h
  · exact n2 h

theorem bestPhrases_congr {G H : Grammar F} (fo : FloatOps F) : ∀ (phrases : List (List Token)),
    (∀ phrase ∈ phrases, search G c!"ADDRESS" phrase = search H c!"ADDRESS" phrase) →
    searchAndReclassBestOf G fo phrases = searchAndReclassBestOf H fo phrases := by
  intro phrases h
  unfold searchAndReclassBestOf
  generalize (⟨[], fo.ofInt (-1), some [], fo.ofInt (-1)⟩ : BestResult F) = b
  induction phrases generalizing b with
  | nil => rfl
  | cons p ps ih =>
    have e : searchAndReclassBest G fo p = searchAndReclassBest H fo p := by
      unfold searchAndReclassBest
      rw [h p List.mem_cons_self]
    simp only [bestPhrases, e]
    split
    · rfl
    · rfl
    · exact ih (fun q hq => h q (List.mem_cons_of_mem _ hq)) _

theorem allPhrases_congr {G H : Grammar F} (dops : FloatOps D) (widen : F → D) (phrases : List (List Token))
    (h : ∀ phrase ∈ phrases, search G c!"ADDRESS" phrase = search H c!"ADDRESS" phrase) :
    searchAndReclassAll G dops widen phrases = searchAndReclassAll H dops widen phrases := by
  have h1 : rowsOfAll G dops widen phrases = rowsOfAll H dops widen phrases := by
    induction phrases with
    | nil => rfl
    | cons p ps ih =>
      simp only [rowsOfAll, h p List.mem_cons_self, ih (fun q hq => h q (List.mem_cons_of_mem _ hq))]
  unfold searchAndReclassAll
  rw [h1]

/-- Leaving such rules out of a grammar, together with the sections from which nothing else can be matched, changes no
address and no match. -/
theorem C84_pruned (env : Env F D) (h0 : env.fo.le0 env.fo.zero = true) (hk : IcuKeeps env.icu '\t')
    (grammar grammar' lexicon : Str) (g g' : Grammar F) (hg : loadGrammar env grammar = .ok g)
    (hg' : loadGrammar env grammar' = .ok g') (l : Lexicon) (hl : loadLexicon env lexicon = .ok l)
    (barren : List Str) (keep : Rule F → Bool)
    (hp : Pruned (fun c => c ∈ shapeClasses ∨ HasClass l c) barren keep g g')
    (address locale filter : Str) (hn : '\t' ∉ address) :
    stdStandardize env address grammar' lexicon locale filter = stdStandardize env address grammar lexicon locale filter ∧
    stdMatchAddress env address grammar' lexicon locale filter = stdMatchAddress env address grammar lexicon locale filter := by
  have init : ∀ {t : Str} {g : Grammar F}, loadGrammar env t = .ok g →
      Grammar.initialize env.u.toCharTables env.fo t = .ok g := by
    intro t g h
    unfold loadGrammar at h
    split at h
    · next g' e => cases h; exact e
    · cases h
  obtain ⟨wf, _, hr⟩ := C29_constructed_wf _ env.fo h0 grammar g (init hg)
  obtain ⟨wf', _, _⟩ := C29_constructed_wf _ env.fo h0 grammar' g' (init hg')
  have hs : ∀ phrases, phrasesOf env l locale filter address = .ok phrases → ∀ phrase ∈ phrases,
      search g' c!"ADDRESS" phrase = search g c!"ADDRESS" phrase := fun phrases hph phrase hm =>
    search_pruned wf wf' hr hp
      (fun t ht c hc => C84_possible env hk l locale filter address hn phrases hph phrase hm t ht c hc)
  constructor
  · unfold stdStandardize
    rw [hg, hg', hl]
    simp only [standardizeAddr, standardizeAddrWith]
    cases hph : phrasesOf env l locale filter address with
    | undefined => rfl
    | throws m => rfl
    | ok phrases => simp only [bestPhrases_congr env.fo phrases (hs phrases hph)]
  · unfold stdMatchAddress
    rw [hg, hg', hl]
    simp only [matchAddr, matchAddrWith]
    cases hph : phrasesOf env l locale filter address with
    | undefined => rfl
    | throws m => rfl
    | ok phrases => simp only [allPhrases_congr env.dops env.widen phrases (hs phrases hph)]

theorem _root_.AS.Pruned.mono {P Q : InType → Prop} {barren : List Str} {keep : Rule F → Bool} {G H : Grammar F}
    (h : Pruned P barren keep G H) (hq : ∀ c, Q c → P c) : Pruned Q barren keep G H where
  root := h.root
  rule := fun sec hs r hr hk => (h.rule sec hs r hr hk).imp fun _ hc => ⟨hc.1, fun q => hc.2 (hq _ q)⟩
  barrenRules := fun sec hs hb r hr => (h.barrenRules sec hs hb r hr).imp fun _ hc => ⟨hc.1, fun q => hc.2 (hq _ q)⟩
  barrenMetas := h.barrenMetas
  metas := h.metas
  rules := h.rules

/-- For grammar texts that pass the check, whatever the tables and numbers: with a lexicon that has none of the classes left
out, the smaller text gives the same. -/
theorem C84_checked (env : Env F D) (hu : Usual env.u.toCharTables env.fo) (hk : IcuKeeps env.icu '\t')
    (dead : List InType) (barren lines lines' : List Str) (hc : checkPruned dead barren lines lines' = true)
    (lexicon : Str) (l : Lexicon) (hl : loadLexicon env lexicon = .ok l)
    (hd : ∀ c ∈ dead, c ∉ shapeClasses ∧ ¬ HasClass l c) (address locale filter : Str) (hn : '\t' ∉ address) :
    stdStandardize env address (unlines lines') lexicon locale filter =
      stdStandardize env address (unlines lines) lexicon locale filter ∧
    stdMatchAddress env address (unlines lines') lexicon locale filter =
      stdMatchAddress env address (unlines lines) lexicon locale filter := by
  obtain ⟨g, g', h1, h2, h3⟩ := pruned_of_check hc hu
  refine C84_pruned env hu.zero hk _ _ lexicon g g' ?_ ?_ l hl barren (lacks dead) (h3.mono ?_) address locale filter hn
  · unfold loadGrammar; rw [h1]
  · unfold loadGrammar; rw [h2]
  · rintro c (h | h) hm
    · exact (hd c hm).1 h
    · exact (hd c hm).2 h

/-- The grammar of the other examples with a rule for a comma and sections that need one. -/
def commaLines : List Str := [c!"[ADDRESS]", c!"@A", c!"@A @C", c!"@A @B", c!"[A]",
  c!"NUMBER CITY TYPE -> HOUSE CITY SUFTYP -> 0.5", c!"NUMBER COMMA CITY -> HOUSE IGNORE CITY -> 0.9",
  c!"NUMBER WORD WORD -> HOUSE STREET STREET -> 0.8", c!"[B]", c!"WORD -> EXTRA -> 0.1", c!"TYPE -> IGNORE -> 0.1",
  c!"[C]", c!"@B @D", c!"@D", c!"[D]", c!"COMMA NUMBER -> IGNORE UNITT -> 0.5"]

theorem townText_comma : ∃ l, loadLexicon exEnv townText = .ok l ∧ ∀ c ∈ [InType.COMMA], c ∉ shapeClasses ∧ ¬ HasClass l c := by
  obtain ⟨l, h1, h2⟩ := of_outcomeIs (o := loadLexicon exEnv townText)
    (p := fun l => l.lex.all (fun es => es.2.all (fun e => e.type.all (· ≠ .COMMA)))) (by decide +kernel)
  refine ⟨l, h1, fun c hc => ?_⟩
  rw [List.mem_singleton.1 hc]
  refine ⟨by decide, ?_⟩
  rintro ⟨w, e, he, hm⟩
  obtain ⟨es, hes, he⟩ := find_listed he
  simp only [List.all_eq_true, decide_eq_true_eq] at h2
  exact h2 es hes e he _ hm rfl

set_option maxRecDepth 100000 in
/-- Without what cannot match it is the grammar of the other examples. -/
example : Usual exEnv.u.toCharTables exEnv.fo ∧ IcuKeeps exEnv.icu '\t' ∧
    (∃ lines, unlines lines = addrText ∧ checkPruned [.COMMA] [c!"C", c!"D"] commaLines lines = true) ∧
    (∃ l, loadLexicon exEnv townText = .ok l ∧ ∀ c ∈ [InType.COMMA], c ∉ shapeClasses ∧ ¬ HasClass l c) ∧
    (∃ g, Grammar.initialize asciiTables ratOps (unlines commaLines) = .ok g ∧ ∀ sec ∈ g.ruleSections, ∀ r ∈ sec.2,
      ∀ o ∈ r.outClass, fieldOf o = some .unit → .COMMA ∈ r.inClass) ∧
    (stdStandardize exEnv c!"12 new york str" (unlines commaLines) townText c!"en" c!"SPACE").map
      (fun r => r.value.map (fun a => [a.house_num, a.city, a.suftype, a.unit])) =
      some (some [some c!"12", some c!"NY", some c!"STRASSE", none]) :=
  ⟨usual_example, asciiIcu_keeps _ (toUpper_low _ (by decide)), ⟨_, rfl, by decide +kernel⟩, townText_comma,
    exists_ok (by decide +kernel), by decide +kernel⟩

/-- The three rules for commas in the grammar of Denmark cannot match with any lexicon that has no commas. -/
example : ∃ lines, lines = Sample.Denmark.sample.lines.filter (fun l => !c!"COMMA".isPrefixOf l) ∧
    lines.length + 3 = Sample.Denmark.sample.lines.length ∧
    checkPruned [.COMMA] [] Sample.Denmark.sample.lines lines = true := ⟨_, rfl, by decide +kernel, by decide +kernel⟩

/-- A tab in the address can give a token a class that is neither listed nor given by shape. -/
example : outcomeIs (phrasesOf exEnv townLexicon c!"en" [] c!"a\t\t-") (fun phrases => phrases.any (fun phrase =>
    phrase.any (fun t => t.inclass.contains .BADTOKEN))) = true ∧ InType.BADTOKEN ∉ shapeClasses := by decide +kernel


end AS.Props
