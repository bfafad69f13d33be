import Verif.Props.Forms
import Verif.Props.ElisionSamples
/-
Property C109: usual addresses with a sample grammar and the lexicon beside it.
-/
namespace AS.Props
open AS AS.Wrapper
variable {F D : Type}

/-! ## C109 -/

/-- The entries of the lexicon beside a sample grammar, one for each line. -/
def entriesOf (icu : Icu) (p : Pair) : List LexEntry := p.lexicon.body.map (fun l => entryOf (canonLine icu p.lexicon.locale l))

/-- The address is, as the SQL functions see it, the words `ws` with single spaces between them, while no word of the lexicon with a
space in it occurs. Each of them is read as itself or as its parts, all together as `vs`. The filter leaves out spaces. -/
structure Spaced (env : Env F D) (p : Pair) (locale filter address : Str) (ws : List Str) (parts : Str → List Str) (vs : List Str) :
    Prop where
  text : textFor env locale p.lexicon.locale address = joinWith c!" " ws
  filter : FilterNames filter .SPACE
  words : ∀ w ∈ ws, WordRead env.u (entriesOf env.icu p) w (parts w) ∧
    (∃ c, w.getLast? = some c ∧ ¬ SepChar env.u c) ∧ ∀ c ∈ w, lineSeparator c = false
  phrases : ∀ e ∈ entriesOf env.icu p, ' ' ∈ e.word → ¬ e.word <:+: (joinWith c!" " ws).map env.u.canon
  read : vs = ws.flatMap parts

/-- What is asked of the libraries: the space is no letter, a tabulator comes from a tabulator only, the lexicon is not taken for a
compiled one, and its words are, after normalising and upper-casing, of characters that no pattern takes for others, and not all
empty. -/
structure ReadsLexicon (env : Env F D) (p : Pair) : Prop where
  patterns : ReadsPatterns env
  space : env.u.isWord ' ' = false ∧ env.u.isWord (env.u.fold ' ') = false ∧ env.u.canon ' ' = ' '
  tab : IcuKeeps env.icu '\t'
  archive : env.archive p.lexicon.text = .notArchive
  chars : ∀ e ∈ entriesOf env.icu p, ∀ c ∈ e.word, c ∉ unescaped ∧ env.u.canon c = c
  word : ∃ e ∈ entriesOf env.icu p, e.word ≠ []

theorem pair_text {icu : Icu} (hk : IcuKeeps icu '\t') {p : Pair} (hp : p ∈ pairs) :
    LexText icu p.lexicon.text p.lexicon.header (entriesOf icu p) ∧ headerLocale p.lexicon.header = p.lexicon.locale := by
  obtain ⟨_, w, hw⟩ := pairs_checked p hp
  obtain ⟨t1, hloc, _⟩ := lexText_of_check hw hk p.lexicon.body (fun _ h => h)
  exact ⟨t1, hloc⟩

theorem spaced_inWords {env : Env F D} {p : Pair} (hp : p ∈ pairs) (hl : ReadsLexicon env p) {locale filter address : Str}
    {ws : List Str} {parts : Str → List Str} {vs : List Str} (h : Spaced env p locale filter address ws parts vs) :
    InWords env.u (entriesOf env.icu p) filter (textFor env locale (headerLocale p.lexicon.header) address) vs := by
  rw [(pair_text hl.tab hp).2, h.text, h.read]
  exact C107_joined _ _ _ h.filter hl.space ws parts h.phrases h.words

/-- With a sample grammar and the lexicon beside it, an address of words, known, unknown or taken apart, whose classes suit one
of the forms of the grammar is standardized as the form says. -/
theorem C109_read (env : Env F D) (laws : LtLaws env.fo) (signs : SignLaws env.fo)
    (htot : ∀ a b c, env.fo.lt env.fo.zero b = true → env.fo.lt a c = true → env.fo.lt a b = true ∨ env.fo.lt b c = true)
    (ha : env.alloc 1 = true) (hu : Usual env.u.toCharTables env.fo)
    {fin : F → Prop} {val : F → Rat} {lo hi : Rat} (R : RoundedArith env.fo fin val (1 / 2 ^ 24) lo hi) (hlo : lo ≤ 1 / 20)
    (hhi : 100 ≤ hi) (ht : TenthsRead env.fo fin val) (p : Pair) (hp : p ∈ pairs) (hl : ReadsLexicon env p) (xs : List Form)
    (hxs : (p.sample, xs) ∈ forms) (x : Form) (hx : x ∈ xs) (locale filter address : Str) (ws : List Str)
    (parts : Str → List Str) (vs : List Str) (h : Spaced env p locale filter address ws parts vs) :
    ∃ cls, ClassLists env.u (entriesOf env.icu p) vs cls ∧
      let kept := vs.filter (fun v => ∀ c ∈ cls v, ¬ FilterNames filter c)
      (x.Fits (kept.map cls) → sizeProd (kept.map cls) < 2 ^ 32 →
        ∃ a, stdStandardize env address (unlines p.sample.lines) p.lexicon.text locale filter = some ⟨some a, none⟩ ∧
          (∀ f, a.get f = asField (fieldWords (entriesOf env.icu p) f kept x.ins x.outs)) ∧ a.pattern = some x.pattern) := by
  have hw := spaced_inWords hp hl h
  obtain ⟨hlex, _⟩ := pair_text hl.tab hp
  obtain ⟨cls, hcl⟩ := C107_classes env hl.patterns _ _ _ hl.archive hlex hl.chars _ _ _ hw
  exact ⟨cls, hcl, fun hc hs => C108_read env laws signs htot ha hl.patterns hu R hlo hhi ht _ hxs x hx _ locale filter address _ cls _
    ⟨hl.archive, hl.chars, hl.word, _, vs, hlex, hw, hcl, rfl⟩ hc hs⟩

/-- A street, a house number, a postcode of four or five digits and a town that the lexicon of the country does not list are put into
these fields as they are. -/
theorem C109_street (env : Env F D) (laws : LtLaws env.fo) (signs : SignLaws env.fo)
    (htot : ∀ a b c, env.fo.lt env.fo.zero b = true → env.fo.lt a c = true → env.fo.lt a b = true ∨ env.fo.lt b c = true)
    (ha : env.alloc 1 = true) (hu : Usual env.u.toCharTables env.fo)
    {fin : F → Prop} {val : F → Rat} {lo hi : Rat} (R : RoundedArith env.fo fin val (1 / 2 ^ 24) lo hi) (hlo : lo ≤ 1 / 20)
    (hhi : 100 ≤ hi) (ht : TenthsRead env.fo fin val) (p : Pair) (hp : p ∈ pairs) (hl : ReadsLexicon env p) (k : Nat)
    (hk : (k = 4 ∧ p.sample ∈ fourDigits) ∨ (k = 5 ∧ p.sample ∈ fiveDigits)) (locale filter address : Str)
    (hf : ∀ c ∈ letterClasses ++ numberClasses, ¬ FilterNames filter c) (street house postcode town : Str)
    (ws : List Str) (parts : Str → List Str) (h : Spaced env p locale filter address ws parts [street, house, postcode, town])
    (hunk : ∀ v ∈ [street, house, postcode, town], Unlisted (entriesOf env.icu p) v) (h1 : IsLetters env.u street)
    (h2 : IsNumber env.u house) (h3 : IsNumber env.u postcode ∧ utf8Bytes postcode = k) (h4 : IsLetters env.u town) :
    ∃ a, stdStandardize env address (unlines p.sample.lines) p.lexicon.text locale filter = some ⟨some a, none⟩ ∧
      a.name = some (upToNul street) ∧ a.house_num = some (upToNul house) ∧ a.postcode = some (upToNul postcode) ∧
      a.city = some (upToNul town) ∧ ∀ f, f ∉ [Field.name, .houseNum, .postcode, .city] → a.get f = none :=
  C108_street env laws signs htot ha hl.patterns hu R hlo hhi ht p.sample k hk _ locale filter address _ _ hl.archive
    (pair_text hl.tab hp).1 hl.chars hl.word hf street house postcode town (spaced_inWords hp hl h) hunk h1 h2 h3 h4

/-- A house number, a street and a town that the lexicon of the country does not list, with a type and a province that it lists, are
put into these fields, the type and the province as the lexicon has them. -/
theorem C109_english (env : Env F D) (laws : LtLaws env.fo) (signs : SignLaws env.fo)
    (htot : ∀ a b c, env.fo.lt env.fo.zero b = true → env.fo.lt a c = true → env.fo.lt a b = true ∨ env.fo.lt b c = true)
    (ha : env.alloc 1 = true) (hu : Usual env.u.toCharTables env.fo)
    {fin : F → Prop} {val : F → Rat} {lo hi : Rat} (R : RoundedArith env.fo fin val (1 / 2 ^ 24) lo hi) (hlo : lo ≤ 1 / 20)
    (hhi : 100 ≤ hi) (ht : TenthsRead env.fo fin val) (p : Pair) (hp : p ∈ pairs) (hl : ReadsLexicon env p) (xs : List Form)
    (hxs : (p.sample, xs) ∈ forms) (x : Form) (hx : x ∈ xs) (hform : EnglishForm x) (locale filter address : Str)
    (hf : ∀ c ∈ .WORD :: numberClasses, ¬ FilterNames filter c) (house street type town prov typeStd provStd : Str)
    (ws : List Str) (parts : Str → List Str) (h : Spaced env p locale filter address ws parts [house, street, type, town, prov])
    (hunk : ∀ v ∈ [house, street, town], Unlisted (entriesOf env.icu p) v) (h1 : IsNumber env.u house)
    (h2 : IsLetters env.u street ∧ 2 < utf8Bytes street) (h3 : IsLetters env.u town ∧ 2 < utf8Bytes town)
    (h4 : standardOf (entriesOf env.icu p) type .TYPE = some typeStd) (h5 : standardOf (entriesOf env.icu p) prov .PROV = some provStd)
    (h6 : ∀ s ∈ x, ∀ c ∈ s.without, (s.taken = .TYPE → standardOf (entriesOf env.icu p) type c = none) ∧
      (s.taken = .PROV → standardOf (entriesOf env.icu p) prov c = none))
    (h7 : ∀ v ∈ [type, prov], ∀ c, standardOf (entriesOf env.icu p) v c ≠ none → ¬ FilterNames filter c)
    (h8 : type ≠ [] ∧ typeStd ≠ [] ∧ provStd ≠ []) :
    ∃ a, stdStandardize env address (unlines p.sample.lines) p.lexicon.text locale filter = some ⟨some a, none⟩ ∧
      a.house_num = some (upToNul house) ∧ a.name = some (upToNul street) ∧ a.suftype = some (upToNul typeStd) ∧
      a.city = some (upToNul town) ∧ a.prov = some (upToNul provStd) ∧
      ∀ f, f ∉ [Field.houseNum, .name, .suftype, .city, .prov] → a.get f = none :=
  C108_english env laws signs htot ha hl.patterns hu R hlo hhi ht (p.sample, xs) hxs x hx hform _ locale filter address _ _ hl.archive
    (pair_text hl.tab hp).1 hl.chars hf house street type town prov typeStd provStd (spaced_inWords hp hl h) hunk h1 h2 h3 h4 h5 h6 h7 h8

/-- A street whose name has a type at its end that the lexicon of the country lists, as one word with it or as two, a house number, a
postcode of four or five digits, and a town, otherwise not in the lexicon, are put into these fields, the name of the street and its
type, as the lexicon has it, apart. -/
theorem C109_compound (env : Env F D) (laws : LtLaws env.fo) (signs : SignLaws env.fo)
    (htot : ∀ a b c, env.fo.lt env.fo.zero b = true → env.fo.lt a c = true → env.fo.lt a b = true ∨ env.fo.lt b c = true)
    (ha : env.alloc 1 = true) (hu : Usual env.u.toCharTables env.fo)
    {fin : F → Prop} {val : F → Rat} {lo hi : Rat} (R : RoundedArith env.fo fin val (1 / 2 ^ 24) lo hi) (hlo : lo ≤ 1 / 20)
    (hhi : 100 ≤ hi) (ht : TenthsRead env.fo fin val) (p : Pair) (hp : p ∈ pairs) (hl : ReadsLexicon env p) (xs : List Form)
    (hxs : (p.sample, xs) ∈ forms) (x : Form) (hx : x ∈ xs) (q : InType) (k : Nat) (hk : (q = .QUAD ∧ k = 4) ∨ (q = .QUINT ∧ k = 5))
    (hform : CompoundForm q x) (locale filter address : Str) (hf : ∀ c ∈ letterClasses ++ numberClasses, ¬ FilterNames filter c)
    (stem type house postcode town typeStd : Str) (ws : List Str) (parts : Str → List Str)
    (h : Spaced env p locale filter address ws parts [stem, type, house, postcode, town])
    (hunk : ∀ v ∈ [stem, house, postcode, town], Unlisted (entriesOf env.icu p) v) (h1 : IsLetters env.u stem)
    (h2 : IsNumber env.u house) (h3 : IsNumber env.u postcode ∧ utf8Bytes postcode = k) (h4 : IsLetters env.u town)
    (h5 : standardOf (entriesOf env.icu p) type .TYPE = some typeStd)
    (h6 : ∀ s ∈ x, ∀ c ∈ s.without, s.taken = .TYPE → standardOf (entriesOf env.icu p) type c = none)
    (h7 : ∀ c, standardOf (entriesOf env.icu p) type c ≠ none → ¬ FilterNames filter c) (h8 : type ≠ [] ∧ typeStd ≠ []) :
    ∃ a, stdStandardize env address (unlines p.sample.lines) p.lexicon.text locale filter = some ⟨some a, none⟩ ∧
      a.name = some (upToNul stem) ∧ a.suftype = some (upToNul typeStd) ∧ a.house_num = some (upToNul house) ∧
      a.postcode = some (upToNul postcode) ∧ a.city = some (upToNul town) ∧
      ∀ f, f ∉ [Field.name, .suftype, .houseNum, .postcode, .city] → a.get f = none :=
  C108_compound env laws signs htot ha hl.patterns hu R hlo hhi ht (p.sample, xs) hxs x hx q k hk hform _ locale filter address _ _
    hl.archive (pair_text hl.tab hp).1 hl.chars hf stem type house postcode town typeStd (spaced_inWords hp hl h) hunk h1 h2 h3 h4 h5 h6
    h7 h8

/-! ### Examples -/

/-- Nothing about the entry is in the way of the unknown words or of the text. -/
def Aside (unknown : List Str) (text : Str) (e : LexEntry) : Prop :=
  (∀ c ∈ e.word, c ∉ unescaped ∧ asciiU.canon c = c) ∧ e.isPrefixAttached = false ∧
  (∀ v ∈ unknown, e.word ≠ v ∧ e.word ≠ v.map asciiU.canon ∧ (e.isSuffixAttached = true → e.word ≠ [] → ¬ e.word.isSuffixOf v = true)) ∧
  (' ' ∈ e.word → ∀ i ∈ List.range (text.length + 1), ¬ e.word.isPrefixOf ((text.map asciiU.canon).drop i) = true)

instance (unknown : List Str) (text : Str) (e : LexEntry) : Decidable (Aside unknown text e) := by unfold Aside; infer_instance

theorem aside_reads {p : Pair} {unknown : List Str} {text : Str} (h : ∀ e ∈ entriesOf asciiIcu p, Aside unknown text e)
    (hw : ∃ e ∈ entriesOf asciiIcu p, e.word ≠ []) : ReadsLexicon formEnv p :=
  ⟨formEnv_meets.2.2.2.2.1, by decide +kernel, asciiIcu_keeps _ (toUpper_low _ (by decide)), rfl, fun e he => (h e he).1, hw⟩

theorem aside_unknown {es : List LexEntry} {unknown : List Str} {text : Str} (h : ∀ e ∈ es, Aside unknown text e) {v : Str}
    (hm : v ∈ unknown) (hv : v ≠ [])
    (hc : (∀ c ∈ v, asciiU.alpha (asciiU.fold c) = true ∧ asciiU.isWord c = true ∧ asciiU.digit c = false ∧ ¬ SepChar asciiU c ∧
      c ≠ '/' ∧ c ≠ ',' ∧ c ≠ '.') ∨ ∀ c ∈ v, asciiU.digit c = true ∧ ¬ SepChar asciiU c ∧ c ≠ '/') :
    Unknown asciiU es v := by
  have hp : NoPrefix asciiU ((es.filter LexEntry.isPrefixAttached).map (·.word)) v := by
    refine ascii_noPrefix _ (List.filter_eq_nil_iff.mpr fun e he => ?_) _
    rw [(h e he).2.1]; decide
  have hl : ∀ e ∈ es, e.word ≠ v ∧ e.word ≠ v.map asciiU.canon := fun e he => ⟨((h e he).2.2.1 v hm).1, ((h e he).2.2.1 v hm).2.1⟩
  have hn : NoSuffix ((es.filter LexEntry.isSuffixAttached).map (·.word)) v := by
    rintro ⟨a, b, hab, hb, _, hne⟩
    obtain ⟨e, he, rfl⟩ := List.mem_map.mp hb
    obtain ⟨he, hs⟩ := List.mem_filter.mp he
    exact ((h e he).2.2.1 v hm).2.2 hs hne (List.isSuffixOf_iff_suffix.mpr ⟨a, hab.symm⟩)
  rcases hc with hc | hc
  · refine (C100_letters asciiU es v v ?_ (Or.inl rfl)).left
    rintro z (rfl | rfl) <;> exact ⟨hv, hc, hl, hp, hn⟩
  · refine (C100_numbers asciiU es v v ?_ (Or.inl rfl)).left
    rintro z (rfl | rfl) <;> exact ⟨hv, hc, hl, hp, hn⟩

theorem aside_phrases {es : List LexEntry} {unknown : List Str} {text : Str} (h : ∀ e ∈ es, Aside unknown text e) :
    ∀ e ∈ es, ' ' ∈ e.word → ¬ e.word <:+: text.map asciiU.canon := by
  rintro e he hs ⟨a, b, hab⟩
  refine (h e he).2.2.2 hs a.length ?_ (List.isPrefixOf_iff_prefix.mpr ⟨b, ?_⟩)
  · have := congrArg List.length hab
    simp only [List.length_append, List.length_map] at this
    exact List.mem_range.mpr (by omega)
  · rw [← hab, List.append_assoc, List.drop_left]

theorem standardOf_filter (es : List LexEntry) (w : Str) (c : InType) :
    standardOf es w c = ((es.filter (fun e => decide (e.word = w))).find? (fun e => decide (c ∈ e.type))).map (·.stdword) := by
  rw [standardOf, List.find?_filter]
  congr 2
  funext e
  simp

set_option maxRecDepth 1000000 in
theorem denmark_aside : (∀ e ∈ entriesOf asciiIcu Sample.Denmark.pair, Aside [c!"NORDKROG", c!"12", c!"4000", c!"ROSKILDE"]
      c!"NORDKROG 12 4000 ROSKILDE" e) ∧ ∃ e ∈ entriesOf asciiIcu Sample.Denmark.pair, e.word ≠ [] := by decide +kernel

theorem denmark_words : ∀ v ∈ [c!"NORDKROG", c!"12", c!"4000", c!"ROSKILDE"], Unknown asciiU (entriesOf asciiIcu Sample.Denmark.pair) v :=
  fun _ hv => aside_unknown denmark_aside.1 hv (by revert hv; decide +revert) (by revert hv; decide +revert)

theorem denmark_spaced : Spaced formEnv Sample.Denmark.pair c!"da" c!"SPACE" c!"Nordkrog 12 4000 Roskilde"
    [c!"NORDKROG", c!"12", c!"4000", c!"ROSKILDE"] (fun v => [v]) [c!"NORDKROG", c!"12", c!"4000", c!"ROSKILDE"] := by
  refine ⟨by decide +kernel, by decide +kernel, fun v hv => ⟨.whole (Or.inr (denmark_words v hv)), ?_⟩, aside_phrases denmark_aside.1, rfl⟩
  simp only [List.mem_cons, List.not_mem_nil, or_false] at hv
  rcases hv with rfl | rfl | rfl | rfl
  · exact ⟨⟨'G', rfl, by decide⟩, by decide⟩
  · exact ⟨⟨'2', rfl, by decide⟩, by decide⟩
  · exact ⟨⟨'0', rfl, by decide⟩, by decide⟩
  · exact ⟨⟨'E', rfl, by decide⟩, by decide⟩

theorem denmark_pair : Sample.Denmark.pair ∈ pairs := by simp only [pairs, List.mem_cons, true_or, or_true]

theorem usa_pair : Sample.Usa.pair ∈ pairs := by simp only [pairs, List.mem_cons, true_or, or_true]

/-- What is found of an address of Denmark. -/
example : ∃ a, stdStandardize formEnv c!"Nordkrog 12 4000 Roskilde" (unlines Sample.Denmark.sample.lines) Sample.Denmark.lexicon.text
      c!"da" c!"SPACE" = some ⟨some a, none⟩ ∧ a.name = some c!"NORDKROG" ∧ a.house_num = some c!"12" ∧ a.postcode = some c!"4000" ∧
      a.city = some c!"ROSKILDE" ∧ a.country = none := by
  obtain ⟨m1, m2, m3, m4, _, m6, m7, m8, _⟩ := formEnv_meets
  obtain ⟨q1, _, q3, _, _, q6, q7, _, q9, _⟩ := form_street
  obtain ⟨a, a1, a2, a3, a4, a5, a6⟩ := C109_street formEnv m1 m2 m3 m4 m6 m7 (by decide +kernel) (by decide +kernel) m8 _ denmark_pair
    (aside_reads denmark_aside.1 denmark_aside.2) 4 (Or.inl ⟨rfl, q1⟩) c!"da" c!"SPACE" c!"Nordkrog 12 4000 Roskilde" q3 _ _ _ _ _ _ denmark_spaced
    (fun v hv => unlisted_of (denmark_words v hv))
    ⟨⟨by decide, by decide⟩, by decide⟩ q6 q7 q9
  exact ⟨a, a1, a2, a3, a4, a5, a6 .country (by decide)⟩

/-- The lexicon does not list the word or the front of it, and attached words it ends with are the given one. -/
def EndsIn (front back : Str) (e : LexEntry) : Prop :=
  e.word ≠ front ∧ e.word ≠ front ++ back ∧ e.word ≠ (front ++ back).map asciiU.canon ∧
  (e.isSuffixAttached = true → e.word ≠ [] → e.word.isSuffixOf (front ++ back) = true → e.word = back)

instance (front back : Str) (e : LexEntry) : Decidable (EndsIn front back e) := by unfold EndsIn; infer_instance

set_option maxRecDepth 1000000 in
theorem algade_aside : (∀ e ∈ entriesOf asciiIcu Sample.Denmark.pair, Aside [c!"12", c!"4000", c!"ROSKILDE"] c!"ALGADE 12 4000 ROSKILDE" e ∧
      EndsIn c!"AL" c!"GADE" e) ∧ ∃ e ∈ entriesOf asciiIcu Sample.Denmark.pair, e.word ≠ [] := by decide +kernel

set_option maxRecDepth 1000000 in
theorem gade_lines : (entriesOf asciiIcu Sample.Denmark.pair).filter (fun e => decide (e.word = c!"GADE")) =
    [⟨c!"GADE", c!"GADE", [.TYPE], [.DET_SUF, .ATT_SUF]⟩] := by decide +kernel

theorem gade_standard (c : InType) : standardOf (entriesOf asciiIcu Sample.Denmark.pair) c!"GADE" c =
    if c = .TYPE then some c!"GADE" else none := by
  rw [standardOf_filter, gade_lines]
  cases c <;> rfl

theorem algade_words : ∀ v ∈ [c!"12", c!"4000", c!"ROSKILDE"], Unknown asciiU (entriesOf asciiIcu Sample.Denmark.pair) v :=
  fun _ hv => aside_unknown (fun e he => (algade_aside.1 e he).1) hv (by revert hv; decide +revert) (by revert hv; decide +revert)

/-- `ALGADE` is not listed, but its end. -/
theorem algade_read : WordRead asciiU (entriesOf asciiIcu Sample.Denmark.pair) c!"ALGADE" [c!"AL", c!"GADE"] := by
  refine .parts ⟨⟨by decide, by decide⟩, by decide, fun e he => (algade_aside.1 e he).2.2.1 |> fun h => ⟨h, (algade_aside.1 e he).2.2.2.1⟩⟩
    (.behind (by rw [shape_letters (by decide) (by decide) (by decide)]; decide)
      (ascii_noPrefix _ (List.filter_eq_nil_iff.mpr fun e he => by rw [(algade_aside.1 e he).1.2.1]; decide) _)
      ⟨⟨rfl, ?_, by decide, by decide⟩, ?_⟩)
  · have hm : (⟨c!"GADE", c!"GADE", [.TYPE], [.DET_SUF, .ATT_SUF]⟩ : LexEntry) ∈
        (entriesOf asciiIcu Sample.Denmark.pair).filter (fun e => decide (e.word = c!"GADE")) := by rw [gade_lines]; simp
    exact List.mem_map.mpr ⟨_, List.mem_filter.mpr ⟨(List.mem_filter.mp hm).1, by decide⟩, rfl⟩
  · rintro a b ⟨hab, hb, _, hne⟩
    obtain ⟨e, he, rfl⟩ := List.mem_map.mp hb
    obtain ⟨he, hs⟩ := List.mem_filter.mp he
    rw [(algade_aside.1 e he).2.2.2.2 hs hne (List.isSuffixOf_iff_suffix.mpr ⟨a, hab.symm⟩)]
    exact Nat.le_refl _

theorem algade_spaced : Spaced formEnv Sample.Denmark.pair c!"da" c!"SPACE" c!"Algade 12 4000 Roskilde"
    [c!"ALGADE", c!"12", c!"4000", c!"ROSKILDE"] (fun v => if v = c!"ALGADE" then [c!"AL", c!"GADE"] else [v])
    [c!"AL", c!"GADE", c!"12", c!"4000", c!"ROSKILDE"] := by
  refine ⟨by decide +kernel, by decide +kernel, fun v hv => ?_, aside_phrases (fun e he => (algade_aside.1 e he).1), by decide⟩
  simp only [List.mem_cons, List.not_mem_nil, or_false] at hv
  rcases hv with rfl | rfl | rfl | rfl
  · exact ⟨algade_read, ⟨'E', rfl, by decide⟩, by decide⟩
  · exact ⟨.whole (Or.inr (algade_words _ (by simp))), ⟨'2', rfl, by decide⟩, by decide⟩
  · exact ⟨.whole (Or.inr (algade_words _ (by simp))), ⟨'0', rfl, by decide⟩, by decide⟩
  · exact ⟨.whole (Or.inr (algade_words _ (by simp))), ⟨'E', rfl, by decide⟩, by decide⟩

/-- The type at the end of the street is found although it is not a word of its own. -/
example : ∃ a, stdStandardize formEnv c!"Algade 12 4000 Roskilde" (unlines Sample.Denmark.sample.lines) Sample.Denmark.lexicon.text
      c!"da" c!"SPACE" = some ⟨some a, none⟩ ∧ a.name = some c!"AL" ∧ a.suftype = some c!"GADE" ∧ a.house_num = some c!"12" ∧
      a.postcode = some c!"4000" ∧ a.city = some c!"ROSKILDE" ∧ a.country = none := by
  obtain ⟨m1, m2, m3, m4, _, m6, m7, m8, _⟩ := formEnv_meets
  obtain ⟨_, _, q3, _, _, q6, q7, _, q9, _⟩ := form_street
  have hx : ∃ x ∈ FormTable.denmark, CompoundForm .QUAD x ∧ ∀ s ∈ x, ∀ c ∈ s.without, s.taken = .TYPE → c ≠ .TYPE := by decide +kernel
  obtain ⟨x, hx, q1, q2⟩ := hx
  obtain ⟨a, a1, a2, a3, a4, a5, a6, a7⟩ := C109_compound formEnv m1 m2 m3 m4 m6 m7 (by decide +kernel) (by decide +kernel) m8 _ denmark_pair
    (aside_reads (fun e he => (algade_aside.1 e he).1) algade_aside.2) FormTable.denmark
    (by simp only [forms, Sample.Denmark.pair, List.mem_cons, true_or, or_true]) x hx .QUAD 4 (Or.inl ⟨rfl, rfl⟩) q1 c!"da" c!"SPACE"
    c!"Algade 12 4000 Roskilde" q3 _ _ _ _ _ c!"GADE" _ _ algade_spaced
    (by
      intro v hv
      rcases List.mem_cons.mp hv with rfl | hv
      · exact fun e he => (algade_aside.1 e he).2.1
      · exact unlisted_of (algade_words v hv))
    ⟨⟨by decide, by decide⟩, by decide⟩ q6 q7 q9 (gade_standard .TYPE)
    (fun s hs c hc e => (gade_standard c).trans (if_neg (q2 s hs c hc e)))
    (by intro c; rw [show entriesOf formEnv.icu Sample.Denmark.pair = entriesOf asciiIcu Sample.Denmark.pair from rfl, gade_standard]; cases c <;> decide +kernel)
    (by decide)
  exact ⟨a, a1, a2, a3, a4, a5, a6, a7 .country (by decide)⟩

set_option maxRecDepth 1000000 in
theorem usa_st_lines : (entriesOf asciiIcu Sample.Usa.pair).filter (fun e => decide (e.word = c!"ST")) =
    [⟨c!"ST", c!"SAINT", [.WORD], []⟩, ⟨c!"ST", c!"STREET", [.TYPE], []⟩] := by decide +kernel

set_option maxRecDepth 1000000 in
theorem usa_il_lines : (entriesOf asciiIcu Sample.Usa.pair).filter (fun e => decide (e.word = c!"IL")) =
    [⟨c!"IL", c!"ILLINOIS", [.WORD, .ROAD, .PROV], []⟩] := by decide +kernel

theorem usa_st (c : InType) : standardOf (entriesOf asciiIcu Sample.Usa.pair) c!"ST" c =
    if c = .TYPE then some c!"STREET" else if c = .WORD then some c!"SAINT" else none := by
  rw [standardOf_filter, usa_st_lines]
  cases c <;> rfl

theorem usa_il (c : InType) : standardOf (entriesOf asciiIcu Sample.Usa.pair) c!"IL" c =
    if c ∈ [InType.PROV, .WORD, .ROAD] then some c!"ILLINOIS" else none := by
  rw [standardOf_filter, usa_il_lines]
  cases c <;> rfl

theorem usa_known : Familiar asciiU (entriesOf asciiIcu Sample.Usa.pair) c!"ST" ∧ Familiar asciiU (entriesOf asciiIcu Sample.Usa.pair) c!"IL" := by
  refine ⟨⟨⟨'S', rfl, by decide⟩, ⟨.TYPE, fun h => ?_⟩, by decide⟩, ⟨⟨'I', rfl, by decide⟩, ⟨.PROV, fun h => ?_⟩, by decide⟩⟩
  · rw [usa_st] at h; cases h
  · rw [usa_il] at h; cases h

set_option maxRecDepth 1000000 in
theorem usa_aside : (∀ e ∈ entriesOf asciiIcu Sample.Usa.pair, Aside [c!"123", c!"MAIN", c!"SPRINGFIELD"]
      c!"123 MAIN ST SPRINGFIELD IL" e) ∧ ∃ e ∈ entriesOf asciiIcu Sample.Usa.pair, e.word ≠ [] := by decide +kernel

theorem usa_words : ∀ v ∈ [c!"123", c!"MAIN", c!"SPRINGFIELD"], Unknown asciiU (entriesOf asciiIcu Sample.Usa.pair) v :=
  fun _ hv => aside_unknown usa_aside.1 hv (by revert hv; decide +revert) (by revert hv; decide +revert)

theorem usa_spaced : Spaced formEnv Sample.Usa.pair c!"en" c!"SPACE" c!"123 Main St Springfield IL"
    [c!"123", c!"MAIN", c!"ST", c!"SPRINGFIELD", c!"IL"] (fun v => [v]) [c!"123", c!"MAIN", c!"ST", c!"SPRINGFIELD", c!"IL"] := by
  refine ⟨by decide +kernel, by decide +kernel, fun v hv => ?_, aside_phrases usa_aside.1, rfl⟩
  simp only [List.mem_cons, List.not_mem_nil, or_false] at hv
  rcases hv with rfl | rfl | rfl | rfl | rfl
  · exact ⟨.whole (Or.inr (usa_words _ (by simp))), ⟨'3', rfl, by decide⟩, by decide⟩
  · exact ⟨.whole (Or.inr (usa_words _ (by simp))), ⟨'N', rfl, by decide⟩, by decide⟩
  · exact ⟨.whole (Or.inl usa_known.1), ⟨'T', rfl, by decide⟩, by decide⟩
  · exact ⟨.whole (Or.inr (usa_words _ (by simp))), ⟨'D', rfl, by decide⟩, by decide⟩
  · exact ⟨.whole (Or.inl usa_known.2), ⟨'L', rfl, by decide⟩, by decide⟩

/-- What is found of an address of the USA, where the type and the province have further classes. -/
example : ∃ a, stdStandardize formEnv c!"123 Main St Springfield IL" (unlines Sample.Usa.sample.lines) Sample.Usa.lexicon.text
      c!"en" c!"SPACE" = some ⟨some a, none⟩ ∧ a.house_num = some c!"123" ∧ a.name = some c!"MAIN" ∧ a.suftype = some c!"STREET" ∧
      a.city = some c!"SPRINGFIELD" ∧ a.prov = some c!"ILLINOIS" ∧ a.postcode = none := by
  obtain ⟨m1, m2, m3, m4, _, m6, m7, m8, _⟩ := formEnv_meets
  have hx : ∃ x ∈ FormTable.usa, EnglishForm x ∧ ∀ s ∈ x, ∀ c ∈ s.without,
      (s.taken = .TYPE → c ∉ [InType.TYPE, .WORD]) ∧ (s.taken = .PROV → c ∉ [InType.PROV, .WORD, .ROAD]) := by decide +kernel
  obtain ⟨x, hx, q1, q2⟩ := hx
  have h6 : ∀ s ∈ x, ∀ c ∈ s.without, (s.taken = .TYPE → standardOf (entriesOf asciiIcu Sample.Usa.pair) c!"ST" c = none) ∧
      (s.taken = .PROV → standardOf (entriesOf asciiIcu Sample.Usa.pair) c!"IL" c = none) := by
    intro s hs c hc
    refine ⟨fun e => ?_, fun e => (usa_il c).trans (if_neg ((q2 s hs c hc).2 e))⟩
    have := (q2 s hs c hc).1 e
    simp only [List.mem_cons, List.not_mem_nil, or_false, not_or] at this
    rw [usa_st, if_neg this.1, if_neg this.2]
  have h7 : ∀ v ∈ [c!"ST", c!"IL"], ∀ c, standardOf (entriesOf asciiIcu Sample.Usa.pair) v c ≠ none → ¬ FilterNames c!"SPACE" c := by
    intro v hv c
    simp only [List.mem_cons, List.not_mem_nil, or_false] at hv
    rcases hv with rfl | rfl
    · rw [usa_st]
      cases c <;> decide +kernel
    · rw [usa_il]
      cases c <;> decide +kernel
  obtain ⟨a, a1, a2, a3, a4, a5, a6, a7⟩ := C109_english formEnv m1 m2 m3 m4 m6 m7 (by decide +kernel) (by decide +kernel) m8 _ usa_pair
    (aside_reads usa_aside.1 usa_aside.2) FormTable.usa (by simp only [forms, Sample.Usa.pair, List.mem_cons, true_or, or_true]) x hx q1 c!"en" c!"SPACE"
    c!"123 Main St Springfield IL" (by decide +kernel) _ _ _ _ _ c!"STREET" c!"ILLINOIS" _ _ usa_spaced
    (fun v hv => unlisted_of (usa_words v hv)) ⟨by decide, by decide⟩
    ⟨⟨⟨by decide, by decide⟩, by decide⟩, by decide⟩ ⟨⟨⟨by decide, by decide⟩, by decide⟩, by decide⟩ (usa_st .TYPE) (usa_il .PROV)
    h6 h7 (by decide)
  exact ⟨a, a1, a2, a3, a4, a5, a6, a7 .postcode (by decide)⟩

end AS.Props
