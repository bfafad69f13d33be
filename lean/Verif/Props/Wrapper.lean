import Verif.Lemmas.Wrapper
/-
Properties C45-C48: the C interface.
-/
namespace AS.Props
open AS AS.Wrapper
variable {F D : Type}

/-! ### An environment for examples -/

/-- ASCII, exact arithmetic, the patterns of `townLexicon`. -/
def exEnv : Env Rat Rat where
  icu := asciiIcu
  u := asciiU
  fo := ratOps
  dops := ratOps
  widen := id
  archive _ := .notArchive
  compile _ _ _ := townRe
  lexWhat _ := c!"bad lexicon"
  gramWhat _ := c!"bad grammar"
  alloc _ := true
  sort := insertionSort

def addrText : Str := unlines [c!"[ADDRESS]", c!"@A", c!"@A @B", c!"[A]", c!"NUMBER CITY TYPE -> HOUSE CITY SUFTYP -> 0.5",
  c!"NUMBER WORD WORD -> HOUSE STREET STREET -> 0.8", c!"[B]", c!"WORD -> EXTRA -> 0.1", c!"TYPE -> IGNORE -> 0.1"]

def outcomeIs {α : Type} (o : Outcome α) (p : α → Bool) : Bool :=
  match o with
  | .ok a => p a
  | _ => false

theorem of_outcomeIs {α : Type} {o : Outcome α} {p : α → Bool} (h : outcomeIs o p = true) :
    ∃ a, o = .ok a ∧ p a = true := by
  cases o with
  | ok a => exact ⟨a, rfl, h⟩
  | throws m => cases h
  | undefined => cases h

/-! ## C45 -/

/-- Every output class except IGNORE belongs to a field. -/
theorem C45_every_class (o : OutType) : fieldOf o = none ↔ o = .IGNORE := by cases o <;> decide

/-- The address built from the tokens of the best match holds them: each field has the standard texts of
exactly the tokens of its classes, in order, with single blanks between; other fields are NULL. -/
theorem C45_fields (l : Lexicon) (ts std : List Token) (matched : Str) (h : ts.map l.standardize = std.map some)
    (hnul : ∀ t ∈ std, NoNul t.stdtext) :
    ∃ v, collect l (List.replicate 16 []) ts = some v ∧ Holds (fill v matched) std := by
  obtain ⟨v, h1, h2⟩ := collect_fields l ts std matched h
  refine ⟨v, h1, fun f => ⟨fun hw => by rw [h2 f, if_pos hw], fun hw => ?_⟩⟩
  rw [h2 f, if_neg hw, cstr_eq]
  have hall : ∀ w ∈ wordsFor f std, NoNul w := by
    intro w hw
    simp only [wordsFor, List.mem_map, List.mem_filter] at hw
    obtain ⟨t, ⟨ht, _⟩, rfl⟩ := hw
    exact hnul t ht
  generalize wordsFor f std = ws at hall
  unfold NoNul at *
  induction ws with
  | nil => simp [joinWith]
  | cons w ws ih =>
    have ih' := ih (fun x hx => hall x (List.mem_cons_of_mem _ hx))
    have hw := hall w (List.mem_cons_self ..)
    cases ws with
    | nil => simpa [joinWith] using hw
    | cons v vs =>
      simp only [joinWith, List.mem_append, not_or]
      exact ⟨⟨hw, by decide⟩, ih'⟩

/-- Whenever `standardize_addr` returns an address, it holds the tokens of the best match, standardized;
standardizing changes only the standard text. A NUL in a standard text ends the field. -/
theorem C45_address (env : Env F D) (g : Grammar F) (l : Lexicon) (locale filter address : Str) (a : StdAddr)
    (err : Option Str) (h : standardizeAddr env g l locale filter address = some ⟨some a, err⟩) :
    ∃ phrases b std, phrasesOf env l locale filter address = .ok phrases ∧
      searchAndReclassBestOf g env.fo phrases = .ok b ∧ b.tokens.map l.standardize = std.map some ∧
      std.map (·.outclass) = b.tokens.map (·.outclass) ∧
      (∀ f, a.get f = if wordsFor f std = [] then none else some (upToNul (joinWith c!" " (wordsFor f std)))) ∧
      ((∀ t ∈ std, NoNul t.stdtext) → Holds a std) ∧ a.pattern = some (upToNul (b.matched.getD [])) := by
  unfold standardizeAddr standardizeAddrWith at h
  cases hp : phrasesOf env l locale filter address with
  | undefined => rw [hp] at h; cases h
  | throws m => rw [hp] at h; cases h
  | ok phrases =>
    rw [hp] at h
    simp only [] at h
    cases hb : searchAndReclassBestOf g env.fo phrases with
    | undefined => rw [hb] at h; cases h
    | throws m => rw [hb] at h; cases h
    | ok b =>
      rw [hb] at h
      simp only [] at h
      split at h
      · split at h
        · cases h
        · next v hv =>
          split at h
          · simp only [Option.some.injEq, Ret.mk.injEq] at h
            obtain ⟨std, hs⟩ := standardize_all_of_collect l _ _ _ hv
            obtain ⟨v', h1, h2⟩ := collect_fields l b.tokens std (b.matched.getD []) hs
            rw [hv] at h1
            cases h1
            refine ⟨phrases, b, std, rfl, hb, hs, ?_, by rw [← h.1]; exact h2, fun hnul => ?_, by rw [← h.1]; rfl⟩
            rotate_left
            · obtain ⟨v', h1, h2⟩ := C45_fields l b.tokens std (b.matched.getD []) hs hnul
              rw [hv] at h1
              cases h1
              rw [← h.1]; exact h2
            have hl : std.length = b.tokens.length := by simpa using (congrArg List.length hs).symm
            apply List.ext_getElem?
            intro i
            have hi := congrArg (fun x => x[i]?) hs
            simp only [List.getElem?_map] at hi ⊢
            cases h3 : b.tokens[i]? with
            | none =>
              rw [h3] at hi
              cases h4 : std[i]? with
              | none => rfl
              | some s => rw [h4] at hi; cases hi
            | some t =>
              rw [h3] at hi
              cases h4 : std[i]? with
              | none => rw [h4] at hi; cases hi
              | some s =>
                rw [h4] at hi
                simp only [Option.map_some, Option.some.injEq] at hi
                simp [standardize_outclass l t s hi]
          · cases h
      · cases h

example : (∀ t ∈ [({ text := c!"STR", inclass := [.TYPE], outclass := .SUFTYP } : Token)],
      ∀ t', townLexicon.standardize t = some t' → NoNul t'.stdtext) ∧
    ∃ v, collect townLexicon (List.replicate 16 []) [{ text := c!"12", inclass := [.NUMBER], outclass := .HOUSE },
        { text := c!"NEW YORK", inclass := [.CITY], outclass := .STREET }, { text := c!"O", inclass := [.WORD], outclass := .STREET },
        { text := c!"X", inclass := [.WORD], outclass := .IGNORE }] = some v ∧
      fill v c!"P" = { house_num := some c!"12", name := some c!"NY O", pattern := some c!"P" } := by
  refine ⟨?_, _, rfl, by decide +kernel⟩
  intro t ht t' h
  rw [List.mem_singleton.1 ht] at h
  have : t' = { text := c!"STR", stdtext := c!"STRASSE", inclass := [.TYPE], outclass := .SUFTYP } := by
    rw [show townLexicon.standardize { text := c!"STR", inclass := [.TYPE], outclass := .SUFTYP } =
      some { text := c!"STR", stdtext := c!"STRASSE", inclass := [.TYPE], outclass := .SUFTYP } by decide +kernel] at h
    exact (Option.some.inj h).symm
  rw [this]
  unfold NoNul
  decide

/-- An address as C45_address takes it. -/
example : outcomeIs (loadGrammar exEnv addrText) (fun g =>
    decide (standardizeAddr exEnv g townLexicon c!"en" c!"SPACE" c!"12 new york str" = some ⟨some
      { house_num := some c!"12", city := some c!"NY", suftype := some c!"STRASSE",
        pattern := some c!"NUMBER CITY TYPE -> HOUSE CITY SUFTYP" }, none⟩)) = true := by decide +kernel

/-! ## C46 -/

theorem parseTokens_seq : ∀ (ts : List Token) (i j : Nat),
    ((parseTokens i j ts).1.map (·.seq)) = List.range' j ts.length
  | [], _, _ => rfl
  | t :: ts, i, j => by simp [parseTokens, parseTokens_seq ts, List.range'_succ]

theorem parseTokens_rows : ∀ (ts : List Token) (i j : Nat),
    ((parseTokens i j ts).1.map (fun r => (r.pat, r.word, r.inclass, r.attached))) =
      ts.map (fun t => (i, upToNul t.text, upToNul (InType.setAsString t.inclass), upToNul (Attach.setAsString t.attached)))
  | [], _, _ => rfl
  | t :: ts, i, j => by simp [parseTokens, parseTokens_rows ts, cstr_upToNul]

theorem parseLoop_seq : ∀ (ps : List (List Token)) (i j : Nat),
    (parseLoop i j ps).map (·.seq) = List.range' j ps.flatten.length
  | [], _, _ => rfl
  | p :: ps, i, j => by
    simp only [parseLoop, List.map_append, parseTokens_seq, parseTokens_snd, parseLoop_seq ps,
      List.flatten_cons, List.length_append]
    rw [← List.range'_append_1]

theorem parseLoop_rows : ∀ (ps : List (List Token)) (i j : Nat),
    (parseLoop i j ps).map (fun r => (r.pat, r.word, r.inclass, r.attached)) =
      (ps.zipIdx i).flatMap (fun p => p.1.map (fun t =>
        (p.2, upToNul t.text, upToNul (InType.setAsString t.inclass), upToNul (Attach.setAsString t.attached))))
  | [], _, _ => rfl
  | p :: ps, i, j => by
    simp only [parseLoop, List.map_append, parseTokens_rows, parseLoop_rows ps, List.zipIdx_cons, List.flatMap_cons]

/-- Rows of `parse`: the alternatives in order, numbered from 0, a row for each token; the sequence number
of a row is its position. No allocation failure and fewer than `2^31` tokens and alternatives. -/
theorem C46_rows (env : Env F D) (phrases : List (List Token)) (ha : env.alloc phrases.flatten.length = true)
    (hn : phrases.flatten.length < 2 ^ 31) (hp : phrases.length < 2 ^ 31) :
    ∃ rows, parseAddrWith env (.ok phrases) = some ⟨some rows, none⟩ ∧
      rows.map (fun r => (r.pat, r.word, r.inclass, r.attached)) =
        (phrases.zipIdx).flatMap (fun p => p.1.map (fun t =>
          (p.2, upToNul t.text, upToNul (InType.setAsString t.inclass), upToNul (Attach.setAsString t.attached)))) ∧
      rows.length = phrases.flatten.length ∧
      ∀ (k : Nat) (r : ParseRow), rows[k]? = some r → r.seq = k := by
  refine ⟨parseLoop 0 0 phrases, ?_, parseLoop_rows phrases 0 0, ?_, ?_⟩
  · have : parseCount 0 phrases = phrases.flatten.length := by rw [parseCount_eq]; omega
    simp only [parseAddrWith, this, ha, not_true_eq_false, ↓reduceIte]
    rw [if_neg (by omega)]
  · have := congrArg List.length (parseLoop_seq phrases 0 0)
    simpa using this
  · intro k r hr
    have := congrArg (fun x => x[k]?) (parseLoop_seq phrases 0 0)
    simp only [List.getElem?_map, hr, Option.map_some] at this
    rw [List.getElem?_range'] at this
    · simpa using this
    · have h1 := (List.getElem?_eq_some_iff.1 hr).1
      have h2 := congrArg List.length (parseLoop_seq phrases 0 0)
      rw [List.length_map, List.length_range'] at h2
      omega

/-- The sequence number alone identifies a row. -/
theorem C46_seq_unique (env : Env F D) (phrases : List (List Token)) (ha : env.alloc phrases.flatten.length = true)
    (hn : phrases.flatten.length < 2 ^ 31) (hp : phrases.length < 2 ^ 31) (rows : List ParseRow)
    (h : parseAddrWith env (.ok phrases) = some ⟨some rows, none⟩) : (rows.map (·.seq)).Nodup := by
  obtain ⟨rows', h1, _, h3, h4⟩ := C46_rows env phrases ha hn hp
  rw [h] at h1
  cases h1
  have : rows.map (·.seq) = List.range rows.length := by
    apply List.ext_getElem?
    intro i
    rw [List.getElem?_map]
    cases hr : rows[i]? with
    | none =>
      have := List.getElem?_eq_none_iff.1 hr
      rw [List.getElem?_eq_none (by simpa using this)]; rfl
    | some r =>
      have := (List.getElem?_eq_some_iff.1 hr).1
      rw [List.getElem?_range this, Option.map_some, h4 i r hr]
  rw [this]
  exact List.nodup_range

/-- The alternatives of an address: number 0 is the tokens of its normalised upper-case text with no phrase
broken up, the others are the ways to break up some of its phrases; every way occurs once. -/
theorem C46_alternatives (env : Env F D) (l : Lexicon) (locale filter address : Str) (ts : List Token)
    (ht : Tokenizer.getTokens env.icu env.u l (lexRe env l) (InType.asType filter)
      (env.icu.upper locale (env.icu.norm address)) = some ts)
    (hm : multiWord ts < 32) :
    ∃ choices : List (List Bool), (∀ c, c ∈ choices ↔ c.length = multiWord ts) ∧ choices.Nodup ∧
      choices.head? = some (List.replicate (multiWord ts) false) ∧
      phrasesOf env l locale filter address = .ok (choices.map (fun c => broken (Tokenizer.wordToken env.u l) c ts)) ∧
      (choices.map (fun c => broken (Tokenizer.wordToken env.u l) c ts)).head? = some ts := by
  obtain ⟨choices, h1, h2, h3, h4⟩ := C10_alternatives env.u l ts hm
  have hnone : ∀ (ts : List Token) (n : Nat), broken (Tokenizer.wordToken env.u l) (List.replicate n false) ts = ts := by
    intro ts
    induction ts with
    | nil => intro n; rfl
    | cons t ts ih =>
      intro n
      rw [broken]
      have hh : (List.replicate n false).head? ≠ some true := by cases n <;> simp [List.replicate_succ]
      rw [if_neg hh, List.tail_replicate, ih, ih]
      split <;> rfl
  refine ⟨List.replicate (multiWord ts) false :: choices, ?_, ?_, rfl, ?_, ?_⟩
  · intro c
    rw [List.mem_cons, h2]
    constructor
    · rintro (rfl | ⟨h, _⟩)
      · simp
      · exact h
    · intro h
      by_cases ht : true ∈ c
      · exact Or.inr ⟨h, ht⟩
      · left
        rw [List.eq_replicate_iff]
        refine ⟨h, fun b hb => ?_⟩
        cases b with
        | false => rfl
        | true => exact absurd hb ht
  · rw [List.nodup_cons]
    refine ⟨fun h => ?_, h1⟩
    have := ((h2 _).1 h).2
    rw [List.mem_replicate] at this
    cases this.2
  · simp only [phrasesOf, ht, h4, List.map_cons, hnone]
  · rw [List.map_cons, hnone]; rfl

example : exEnv.alloc 7 = true ∧
    (parseAddr exEnv townLexicon c!"en" c!"SPACE" c!"12 new york str").map (·.value) = some (some
      [⟨0, 0, c!"12", c!"NUMBER", []⟩, ⟨0, 1, c!"NEW YORK", c!"CITY", []⟩, ⟨0, 2, c!"STR", c!"TYPE", []⟩,
       ⟨1, 3, c!"12", c!"NUMBER", []⟩, ⟨1, 4, c!"NEW", c!"WORD", []⟩, ⟨1, 5, c!"YORK", c!"WORD", []⟩,
       ⟨1, 6, c!"STR", c!"TYPE", []⟩]) ∧
    (Tokenizer.getTokens exEnv.icu exEnv.u townLexicon (lexRe exEnv townLexicon) (InType.asType c!"SPACE")
      (exEnv.icu.upper c!"en" (exEnv.icu.norm c!"12 new york str"))).map multiWord = some 1 :=
  ⟨rfl, by decide +kernel, by decide +kernel⟩

/-! ## C47 -/

/-- A row of the listing as reported. -/
def reported (t : MatchResult D) : MatchRow D := { tokens := upToNul t.matched, score := t.score, nrules := t.nrules }

theorem strictWeak_scores (dops : FloatOps D) (nan : D → Prop) (laws : NanLaws dops nan) (toks : List (MatchResult D))
    (h : ∀ t ∈ toks, ¬ nan t.score) : strictWeakOn (sortByScoresDesc dops) toks = true := by
  rw [strictWeakOn_iff]
  refine ⟨fun a _ => laws.irrefl _, fun a _ b _ c _ h1 h2 => laws.trans _ _ _ h2 h1, ?_⟩
  intro a _ b hb c _ h1 h2 h3 h4
  simp only [sortByScoresDesc] at *
  constructor
  · cases hc : dops.lt c.score a.score with
    | false => rfl
    | true => rcases laws.total _ b.score _ (h b hb) hc with x | x <;> simp_all
  · cases hc : dops.lt a.score c.score with
    | false => rfl
    | true => rcases laws.total _ b.score _ (h b hb) hc with x | x <;> simp_all

/-- Rows of `match`: a permutation of the matches the search lists, no row with a higher score after one
with a lower score, as long as no score is NaN. -/
theorem C47_sorted (env : Env F D) (hsort : SortContract env.sort) (nan : D → Prop) (laws : NanLaws env.dops nan)
    (g : Grammar F) (l : Lexicon) (locale filter address : Str) (phrases : List (List Token))
    (hp : phrasesOf env l locale filter address = .ok phrases) (toks : List (MatchResult D))
    (ht : searchAndReclassAll g env.dops env.widen phrases = .ok toks) (hnan : ∀ t ∈ toks, ¬ nan t.score)
    (ha : env.alloc toks.length = true) (hn : toks.length < 2 ^ 31) :
    ∃ rows, matchAddr env g l locale filter address = some ⟨some rows, none⟩ ∧
      rows.Perm (toks.map reported) ∧ rows.Pairwise (fun a b => env.dops.lt a.score b.score = false) := by
  have hsw := strictWeak_scores env.dops nan laws toks hnan
  obtain ⟨h1, h2, h3⟩ := (strictWeakOn_iff _ _).1 hsw
  obtain ⟨hperm, hpw⟩ := hsort (sortByScoresDesc env.dops) toks h1 h2 h3
  have hlen := hperm.length_eq
  refine ⟨(env.sort (sortByScoresDesc env.dops) toks).map reported, ?_, hperm.map _, ?_⟩
  · simp only [matchAddr, matchAddrWith, hp, ht, hsw, ↓reduceIte, hlen, ha, not_true_eq_false]
    rw [if_neg (by omega)]
    rfl
  · rw [List.pairwise_map]
    exact hpw

/-- For a grammar that could be loaded: the rows are the matches of all alternatives, or the one row that
says there is none. -/
theorem C47_complete (env : Env F D) (hsort : SortContract env.sort) (nan : D → Prop) (laws : NanLaws env.dops nan)
    (h0 : env.fo.le0 env.fo.zero = true) (text : Str) (g : Grammar F) (hg : loadGrammar env text = .ok g)
    (l : Lexicon) (locale filter address : Str) (phrases : List (List Token))
    (hp : phrasesOf env l locale filter address = .ok phrases)
    (halloc : ∀ n, env.alloc n = true)
    (hneg : ¬ nan (env.dops.ofInt (-1))) :
    ∃ rss : List (List (SearchPath F)), phrases.map (search g c!"ADDRESS") = rss.map .ok ∧
      let found := (phrases.zip rss).flatMap (fun q => q.2.map (rowFor env.dops env.widen q.1))
      ((∀ t ∈ found, ¬ nan t.score) → found.length < 2 ^ 31 →
        ∃ rows, matchAddr env g l locale filter address = some ⟨some rows, none⟩ ∧
          rows.Pairwise (fun a b => env.dops.lt a.score b.score = false) ∧
          (found ≠ [] → rows.Perm (found.map reported)) ∧
          (found = [] → rows = [⟨c!"Failed to match to grammar!", env.dops.ofInt (-1), env.dops.ofInt (-1)⟩])) := by
  have hinit : Grammar.initialize env.u.toCharTables env.fo text = .ok g := by
    unfold loadGrammar at hg
    split at hg
    · next g' e => cases hg; exact e
    · cases hg
  obtain ⟨wf, hb, hr⟩ := C29_constructed_wf _ env.fo h0 text g hinit
  obtain ⟨rss, rows, h1, h2, h3, h4, h5⟩ := C43_all_rows env.dops env.widen wf hb hr phrases
  refine ⟨rss, h1, ?_⟩
  intro found hnan hlen
  have hl : phrases.length = rss.length := by simpa using congrArg List.length h1
  have hfound : found ≠ [] ↔ ∃ rs ∈ rss, rs ≠ [] := by
    constructor
    · intro hne
      obtain ⟨x, hx⟩ := List.exists_mem_of_ne_nil _ hne
      obtain ⟨q, hq, hx⟩ := List.mem_flatMap.1 hx
      refine ⟨q.2, (List.of_mem_zip hq).2, ?_⟩
      intro e
      rw [e] at hx
      cases hx
    · rintro ⟨rs, hrs, hne⟩ e
      obtain ⟨i, hi⟩ := List.getElem?_of_mem hrs
      have hi' : i < phrases.length := by rw [hl]; exact (List.getElem?_eq_some_iff.1 hi).1
      have hz : (phrases.zip rss)[i]? = some (phrases[i], rs) := by
        rw [List.getElem?_zip_eq_some]
        exact ⟨List.getElem?_eq_getElem hi', hi⟩
      obtain ⟨p, hpm⟩ := List.exists_mem_of_ne_nil _ hne
      have : rowFor env.dops env.widen phrases[i] p ∈ found :=
        List.mem_flatMap.2 ⟨_, List.mem_of_getElem? hz, List.mem_map.2 ⟨p, hpm, rfl⟩⟩
      rw [e] at this
      cases this
  by_cases hne : found = []
  · have hall : ∀ rs ∈ rss, rs = [] := by
      intro rs hrs
      by_cases h : rs = []
      · exact h
      · exact absurd hne (hfound.2 ⟨rs, hrs, h⟩)
    have hrows := h5 hall
    subst hrows
    obtain ⟨rows', k1, k2, k3⟩ := C47_sorted env hsort nan laws g l locale filter address phrases hp _ h2
      (by intro t ht; rw [List.mem_singleton.1 ht]; exact hneg) (halloc _) (by simp)
    refine ⟨rows', k1, k3, fun h => absurd hne h, fun _ => ?_⟩
    exact List.perm_singleton.1 k2
  · have hrows := h4 (hfound.1 hne)
    rw [hrows] at h2
    obtain ⟨rows', k1, k2, k3⟩ := C47_sorted env hsort nan laws g l locale filter address phrases hp _ h2
      hnan (halloc _) hlen
    exact ⟨rows', k1, k3, fun _ => k2, fun h => absurd h hne⟩

/-- The environment with NaN. -/
def nanEnv : Env (Option Rat) (Option Rat) :=
  { exEnv with fo := nanOps, dops := nanOps, widen := id, gramWhat := fun _ => c!"bad grammar" }

def nanText : Str := unlines [c!"[ADDRESS]", c!"@A", c!"[A]", c!"NUMBER -> HOUSE -> 1", c!"NUMBER -> HOUSE -> nan",
  c!"NUMBER -> HOUSE -> 2"]

/-- A score `nan` is accepted in a grammar; sorting the matches is then undefined behaviour. -/
theorem C47_nan : ∃ g, loadGrammar nanEnv nanText = .ok g ∧
    (∃ toks, searchAndReclassAll g nanOps id [[{ text := c!"12", inclass := [.NUMBER] }]] = .ok toks ∧
      toks.map (·.score) = [some 1, none, some 2]) ∧
    phrasesOf nanEnv townLexicon c!"en" [] c!"12" = .ok [[{ text := c!"12", inclass := [.NUMBER] }]] ∧
    matchAddr nanEnv g townLexicon c!"en" [] c!"12" = none := by
  obtain ⟨g, h1, h2⟩ := of_outcomeIs (o := loadGrammar nanEnv nanText)
    (p := fun g => outcomeIs (searchAndReclassAll g nanOps id [[{ text := c!"12", inclass := [.NUMBER] }]])
        (fun toks => toks.map (·.score) = [some 1, none, some 2]) &&
      decide (matchAddr nanEnv g townLexicon c!"en" [] c!"12" = none)) (by decide +kernel)
  rw [Bool.and_eq_true, decide_eq_true_eq] at h2
  obtain ⟨toks, h3, h4⟩ := of_outcomeIs h2.1
  exact ⟨g, h1, ⟨toks, h3, by simpa using h4⟩, by decide +kernel, h2.2⟩

example : SortContract exEnv.sort ∧ NanLaws exEnv.dops (fun _ => False) ∧ (∀ n, exEnv.alloc n = true) ∧
    outcomeIs (loadGrammar exEnv addrText) (fun g =>
      decide (matchAddr exEnv g townLexicon c!"en" c!"SPACE" c!"1 new york str" = some ⟨some
        [⟨c!"NUMBER CITY TYPE -> HOUSE CITY SUFTYP", 1 / 2, 1⟩,
         ⟨c!"NUMBER WORD WORD TYPE -> HOUSE STREET STREET IGNORE", 9 / 20, 2⟩], none⟩)) = true :=
  ⟨insertionSort_contract,
    { ratOps_laws with
      total := by
        intro a b c _ h
        simp only [exEnv, ratOps, decide_eq_true_eq] at *
        grind
      left := fun _ _ h => h.elim
      right := fun _ _ h => h.elim }, fun _ => rfl, by decide +kernel⟩

/-! ## C48 -/

/-- Whatever the tokenizer and the search do: no address comes with an error message, and there is a
message exactly if one of them throws or memory is exhausted. -/
theorem C48_errors (env : Env F D) (l : Lexicon) (phrases : Outcome (List (List Token)))
    (best : List (List Token) → Outcome (BestResult F)) (r : Ret StdAddr)
    (h : standardizeAddrWith env l phrases best = some r) :
    (r.value ≠ none → r.err = none) ∧
    (r.err ≠ none ↔ (∃ m, phrases = .throws m) ∨ ∃ ps, phrases = .ok ps ∧
      ((∃ m, best ps = .throws m) ∨ ∃ b, best ps = .ok b ∧ env.fo.ge0 b.score = true ∧ env.alloc 1 = false)) ∧
    (r = ⟨none, none⟩ ↔ ∃ ps b, phrases = .ok ps ∧ best ps = .ok b ∧ env.fo.ge0 b.score = false) := by
  unfold standardizeAddrWith at h
  cases phrases with
  | undefined => cases h
  | throws m => cases h; simp
  | ok ps =>
    simp only [] at h
    cases hb : best ps with
    | undefined => rw [hb] at h; cases h
    | throws m => rw [hb] at h; cases h; simp [hb]
    | ok b =>
      rw [hb] at h
      simp only [] at h
      cases hg : env.fo.ge0 b.score with
      | false =>
        rw [hg] at h
        simp only [Bool.false_eq_true, ↓reduceIte, Option.some.injEq] at h
        subst h
        simp [hb, hg]
      | true =>
        rw [hg] at h
        simp only [↓reduceIte] at h
        split at h
        · cases h
        · cases ha : env.alloc 1 with
          | false => rw [ha] at h; cases h; simp [hb, hg]
          | true => rw [ha] at h; cases h; simp [hb, hg]

/-- The messages are those of the exceptions. -/
theorem C48_message (env : Env F D) (l : Lexicon) (m : Str) (best : List (List Token) → Outcome (BestResult F)) :
    standardizeAddrWith env l (.throws m) best = some ⟨none, some (upToNul m)⟩ ∧
    ∀ ps, best ps = .throws m → standardizeAddrWith env l (.ok ps) best = some ⟨none, some (upToNul m)⟩ := by
  refine ⟨rfl, fun ps h => ?_⟩
  simp [standardizeAddrWith, h, cstr_upToNul]

/-- With a grammar that could be loaded nothing is undefined and nothing throws once the tokenizer is
done: there is an address exactly if one of the token lists matches the grammar, and otherwise neither an
address nor a message. -/
theorem C48_address_iff_match (env : Env F D) (laws : LtLaws env.fo) (signs : SignLaws env.fo)
    (h0 : env.fo.le0 env.fo.zero = true) (ha : env.alloc 1 = true) (text : Str) (g : Grammar F)
    (hg : loadGrammar env text = .ok g)
    (l : Lexicon) (locale filter address : Str) (phrases : List (List Token))
    (hp : phrasesOf env l locale filter address = .ok phrases) :
    (∃ a, standardizeAddr env g l locale filter address = some ⟨some a, none⟩ ∧
      ∃ phrase ∈ phrases, (∃ results, search g c!"ADDRESS" phrase = .ok results ∧ results ≠ []) ∧
        ∃ rs m, Derives g [c!"ADDRESS"] rs m ∧ Picks (inputs rs) (phrase.map (·.inclass))) ∨
    (standardizeAddr env g l locale filter address = some ⟨none, none⟩ ∧
      ∀ phrase ∈ phrases, search g c!"ADDRESS" phrase = .ok []) := by
  have hinit : Grammar.initialize env.u.toCharTables env.fo text = .ok g := by
    unfold loadGrammar at hg
    split at hg
    · next g' e => cases hg; exact e
    · cases hg
  obtain ⟨wf, hb, hr⟩ := C29_constructed_wf _ env.fo h0 text g hinit
  obtain ⟨rs, hrs, hc⟩ := C42_first_best_phrase laws signs.neg_lt wf hb hr phrases
  rcases hc with ⟨i, r, hi, _, hm, hbest⟩ | ⟨hall, hbest⟩
  · left
    have hphrase : ∃ phrase ∈ phrases, searchAndReclassBest g env.fo phrase = .ok r := by
      have : Outcome.ok r ∈ phrases.map (searchAndReclassBest g env.fo) := by
        rw [hrs]; exact List.mem_map.2 ⟨r, List.mem_of_getElem? hi, rfl⟩
      obtain ⟨ph, h1, h2⟩ := List.mem_map.1 this
      exact ⟨ph, h1, h2⟩
    obtain ⟨phrase, hmem, hbr⟩ := hphrase
    obtain ⟨results, r', hs, hr', hno, hyes⟩ := C41_no_match_iff laws wf hb hr phrase
    rw [hbr] at hr'
    cases hr'
    have hne : results ≠ [] := by
      intro e
      rw [hno e] at hm
      cases hm
    have hge : env.fo.ge0 r.score = true := by
      rcases (hyes hne).1 with h | h
      · rw [h]; exact signs.zero_ge
      · exact signs.pos_ge _ h
    have hcls : ∀ t ∈ r.tokens, t.inclass ≠ [] := by
      obtain ⟨_, p, score, nrules, _, h', _⟩ := C39_best_is_first_max laws wf hb phrase results hs hne
      rw [hbr] at h'
      cases h'
      exact retag_inclass _ _ _
    obtain ⟨std, hstd⟩ := standardize_all l r.tokens hcls
    obtain ⟨v, hv, _⟩ := collect_fields l r.tokens std (r.matched.getD []) hstd
    refine ⟨fill v (r.matched.getD []), ?_, phrase, hmem, ⟨results, hs, hne⟩, ?_⟩
    · simp only [standardizeAddr, standardizeAddrWith, hp, hbest, hge, hv, ha, ↓reduceIte]
    · obtain ⟨p, hpm⟩ := List.exists_mem_of_ne_nil _ hne
      obtain ⟨⟨m, hd⟩, hpk, _⟩ := C36_search_sound wf _ phrase results hs p hpm
      exact ⟨p.rules, m, hd, hpk⟩
  · right
    refine ⟨?_, hall⟩
    simp [standardizeAddr, standardizeAddrWith, hp, hbest, signs.neg_ge]

/-- `std_standardize` reports a message exactly if a text cannot be loaded, given that memory is not
exhausted and the tokenizer finishes. -/
theorem C48_bad_texts (env : Env F D) (laws : LtLaws env.fo) (signs : SignLaws env.fo)
    (h0 : env.fo.le0 env.fo.zero = true) (ha : env.alloc 1 = true) (address grammar lexicon locale filter : Str)
    (htok : ∀ l, loadLexicon env lexicon = .ok l → ∃ phrases, phrasesOf env l locale filter address = .ok phrases) :
    ∃ r, stdStandardize env address grammar lexicon locale filter = some r ∧
      (r.err = none ↔ (∃ g, loadGrammar env grammar = .ok g) ∧ ∃ l, loadLexicon env lexicon = .ok l) ∧
      (r.value ≠ none → r.err = none) := by
  unfold stdStandardize
  cases hg : loadGrammar env grammar with
  | undefined =>
    unfold loadGrammar at hg
    split at hg <;> cases hg
  | throws m => exact ⟨_, rfl, by simp, by simp⟩
  | ok g =>
    cases hl : loadLexicon env lexicon with
    | undefined =>
      unfold loadLexicon at hl
      split at hl
      · cases hl
      · cases hl
      · split at hl <;> cases hl
    | throws m => exact ⟨_, rfl, by simp, by simp⟩
    | ok l =>
      obtain ⟨phrases, hp⟩ := htok l hl
      rcases C48_address_iff_match env laws signs h0 ha grammar g hg l locale filter address phrases hp with
        ⟨a, h, _⟩ | ⟨h, _⟩
      · exact ⟨_, h, by simp, by simp⟩
      · exact ⟨_, h, by simp, by simp⟩

example : LtLaws exEnv.fo ∧ SignLaws exEnv.fo ∧ exEnv.fo.le0 exEnv.fo.zero = true ∧
    outcomeIs (loadGrammar exEnv addrText) (fun g =>
      decide (standardizeAddr exEnv g townLexicon c!"en" c!"SPACE" c!"12 new york str" = some ⟨some
        { house_num := some c!"12", city := some c!"NY", suftype := some c!"STRASSE",
          pattern := some c!"NUMBER CITY TYPE -> HOUSE CITY SUFTYP" }, none⟩) &&
      decide (standardizeAddr exEnv g townLexicon c!"en" c!"SPACE" c!"12" = some ⟨none, none⟩)) = true ∧
    stdStandardize exEnv c!"12" c!"[ADDRESS]" c!"LEXICON:\tx\n" c!"en" [] = some ⟨none, some c!"bad grammar"⟩ ∧
    stdStandardize exEnv c!"12" addrText c!"LEXENTRY:\tx\n" c!"en" [] = some ⟨none, some c!"bad lexicon"⟩ :=
  ⟨ratOps_laws, ratOps_signs, by decide, by decide +kernel, by decide +kernel, by decide +kernel⟩

end AS.Props
