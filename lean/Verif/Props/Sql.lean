import Verif.Lemmas.Sql
import Verif.Spec.Sql
import Verif.Props.Whole
/-
Properties C63 and C64: the rows the SQL functions return.
-/
namespace AS.Props
open AS AS.Wrapper
variable {F D : Type}

/-! ## C63 -/

/-- The rows of `as_parse`: one for each token of each token list, in order, with the number of the list and the
number of the row counted from one. The first calls deliver the first rows; the function is done with the call
after the last row and then has freed the array, unless there is no row. A query that stops before leaves it. -/
theorem C63_parse (env : Env F D) (address lexicon locale filter : Str) (l : Lexicon) (hl : loadLexicon env lexicon = .ok l)
    (phrases : List (List Token)) (hp : phrasesOf env l locale filter address = .ok phrases)
    (ha : env.alloc phrases.flatten.length = true) (hn : phrases.flatten.length < 2 ^ 31) (hn' : phrases.length < 2 ^ 31) :
    ∃ rows : List Sql.ParseTuple,
      rows.map (fun r => (r.pat, r.word, r.inclass, r.attached)) =
        (phrases.zipIdx 1).flatMap (fun p => p.1.map (fun t =>
          (p.2, upToNul t.text, upToNul (InType.setAsString t.inclass), upToNul (Attach.setAsString t.attached)))) ∧
      rows.map (·.seq) = List.range' 1 phrases.flatten.length ∧
      ∀ k, ∃ c, Sql.asParse env k address lexicon locale filter = some (rows.take k, decide (rows.length < k), c) ∧
        c.freed = if rows.length < k ∧ rows ≠ [] then 1 else 0 := by
  obtain ⟨rows, h1, h2, h3, h4⟩ := C46_rows env phrases ha hn hn'
  have hrows : rows = parseLoop 0 0 phrases := by
    have hc : parseCount 0 phrases = phrases.flatten.length := by rw [parseCount_eq]; omega
    simp only [parseAddrWith, hc, ha, not_true_eq_false, ↓reduceIte] at h1
    rw [if_neg (by omega)] at h1
    injection h1 with h1
    injection h1 with h1
    injection h1 with h1
    exact h1.symm
  have hb : ∀ r ∈ rows, r.pat + 1 < 2 ^ 31 ∧ r.seq + 1 < 2 ^ 31 := by
    intro r hr
    rw [hrows] at hr
    have := Sql.parseLoop_bounds phrases 0 0 r hr
    omega
  have hstd : stdParseAddress env address lexicon locale filter = some ⟨some rows, none⟩ := by
    unfold stdParseAddress parseAddr
    rw [hl]
    simp only
    rw [hp, h1]
  refine ⟨rows.map Sql.tupleOf, ?_, ?_, fun k => ?_⟩
  · have := congrArg (List.map (fun x : Nat × Str × Str × Str => (x.1 + 1, x.2))) h2
    rw [List.map_map] at this ⊢
    refine Eq.trans this ?_
    rw [List.map_flatMap, List.zipIdx_eq_map_add (i := 1), List.flatMap_map]
    simp [List.map_map, Function.comp_def, Nat.add_comm 1]
  · apply List.ext_getElem?
    intro i
    rw [List.map_map, List.getElem?_map]
    cases hr : rows[i]? with
    | none =>
      have := List.getElem?_eq_none_iff.1 hr
      rw [List.getElem?_eq_none (by rw [List.length_range']; omega)]; rfl
    | some r =>
      have := (List.getElem?_eq_some_iff.1 hr).1
      rw [List.getElem?_range' (by omega), Option.map_some]
      simp [Sql.tupleOf, h4 i r hr, Nat.add_comm]
  · unfold Sql.asParse
    rw [hstd]
    simp only [Sql.firstCall]
    rw [Sql.fetch_sends (Sql.parseCall_sends hb) k 0 (Nat.zero_le _)]
    simp only [List.drop_zero, Nat.sub_zero, List.map_take, List.length_map]
    refine ⟨_, rfl, ?_⟩
    by_cases hk : rows.length < k
    · rw [if_pos hk]
      cases rows with
      | nil => simp [Sql.tokensFree]
      | cons r rs =>
        rw [if_pos ⟨hk, by simp⟩]
        simp [Sql.tokensFree]
    · rw [if_neg hk, if_neg (fun h => hk h.1)]

/-- The rows of `as_match` are the pattern texts and scores of all matches of all token lists, best score first, or one
row that says that there is none: never no row. The number of rules is not among the columns. The first calls
deliver the first rows; the call after the last row has freed the array. -/
theorem C63_match (env : Env F D) (hsort : SortContract env.sort) (nan : D → Prop) (laws : NanLaws env.dops nan)
    (h0 : env.fo.le0 env.fo.zero = true) (address grammar lexicon locale filter : Str) (g : Grammar F)
    (hg : loadGrammar env grammar = .ok g) (l : Lexicon) (hl : loadLexicon env lexicon = .ok l)
    (phrases : List (List Token)) (hp : phrasesOf env l locale filter address = .ok phrases)
    (halloc : ∀ n, env.alloc n = true) (hneg : ¬ nan (env.dops.ofInt (-1))) :
    ∃ rss : List (List (SearchPath F)), phrases.map (search g c!"ADDRESS") = rss.map .ok ∧
      let found := (phrases.zip rss).flatMap (fun q => q.2.map (rowFor env.dops env.widen q.1))
      ((∀ t ∈ found, ¬ nan t.score) → found.length < 2 ^ 31 →
        ∃ rows : List (Str × D), rows ≠ [] ∧
          rows.Pairwise (fun a b => env.dops.lt a.2 b.2 = false) ∧
          (found ≠ [] → rows.Perm (found.map (fun t => (upToNul t.matched, t.score)))) ∧
          (found = [] → rows = [(c!"Failed to match to grammar!", env.dops.ofInt (-1))]) ∧
          ∀ k, ∃ c, Sql.asMatch env k address grammar lexicon locale filter =
              some ((rows.map (fun r => [.text r.1, .float8 r.2])).take k, decide (rows.length < k), c) ∧
            c.freed = if rows.length < k then 1 else 0) := by
  obtain ⟨rss, h1, h2⟩ := C47_complete env hsort nan laws h0 grammar g hg l locale filter address phrases hp halloc hneg
  refine ⟨rss, h1, fun hnan hlen => ?_⟩
  obtain ⟨rows, h3, h4, h5, h6⟩ := h2 hnan hlen
  refine ⟨rows.map (fun r => (r.tokens, r.score)), ?_, List.pairwise_map.2 h4, fun hne => ?_, fun he => ?_, fun k => ?_⟩
  · intro h
    have hr := List.map_eq_nil_iff.1 h
    subst hr
    rcases Classical.em ((phrases.zip rss).flatMap (fun q => q.2.map (rowFor env.dops env.widen q.1)) = []) with he | he
    · cases h6 he
    · exact he (List.map_eq_nil_iff.1 (List.nil_perm.1 (h5 he)))
  · have := (h5 hne).map (fun r : MatchRow D => (r.tokens, r.score))
    rw [List.map_map] at this
    exact this
  · rw [h6 he]; rfl
  · have hstd : stdMatchAddress env address grammar lexicon locale filter = some ⟨some rows, none⟩ := by
      unfold stdMatchAddress
      rw [hg, hl]
      exact h3
    unfold Sql.asMatch
    rw [hstd]
    simp only [Sql.firstCall]
    rw [Sql.fetch_sends (Sql.matchCall_sends rows) k 0 (Nat.zero_le _)]
    simp only [List.drop_zero, Nat.sub_zero, List.map_take, List.length_map, List.map_map]
    refine ⟨_, rfl, ?_⟩
    by_cases hk : rows.length < k
    · rw [if_pos hk, if_pos hk]; rfl
    · rw [if_neg hk, if_neg hk]

/-- An error is not reported: the functions return no row. -/
theorem C63_errors_silent (env : Env F D) (address grammar lexicon locale filter m : Str) (k : Nat) :
    ((loadLexicon env lexicon = .throws m ∨
        ∃ l, loadLexicon env lexicon = .ok l ∧ phrasesOf env l locale filter address = .throws m) →
      ∃ c, Sql.asParse env (k + 1) address lexicon locale filter = some ([], true, c)) ∧
    ((loadGrammar env grammar = .throws m ∨ ∃ g, loadGrammar env grammar = .ok g ∧ (loadLexicon env lexicon = .throws m ∨
        ∃ l, loadLexicon env lexicon = .ok l ∧ phrasesOf env l locale filter address = .throws m)) →
      ∃ c, Sql.asMatch env (k + 1) address grammar lexicon locale filter = some ([], true, c)) := by
  refine ⟨?_, ?_⟩
  · rintro (h | ⟨l, hl, hp⟩)
    · unfold Sql.asParse stdParseAddress
      rw [h]
      simp only [Sql.firstCall]
      exact ⟨_, rfl⟩
    · unfold Sql.asParse stdParseAddress parseAddr
      rw [hl]
      simp only
      rw [hp]
      exact ⟨_, rfl⟩
  · rintro (h | ⟨g, hg, h | ⟨l, hl, hp⟩⟩)
    · unfold Sql.asMatch stdMatchAddress
      rw [h]
      exact ⟨_, rfl⟩
    · unfold Sql.asMatch stdMatchAddress
      rw [hg, h]
      exact ⟨_, rfl⟩
    · unfold Sql.asMatch stdMatchAddress matchAddr
      rw [hg, hl]
      simp only
      rw [hp]
      exact ⟨_, rfl⟩

/-- Seven rows, of which a query that stops after five gets five. -/
example : (∃ l, loadLexicon exEnv townText = .ok l ∧
      outcomeIs (phrasesOf exEnv l c!"en" c!"SPACE" c!"12 new york str") (fun ps => ps.flatten.length = 7) = true) ∧
    (Sql.asParse exEnv 5 c!"12 new york str" townText c!"en" c!"SPACE").map (fun r => (r.1, r.2.1, r.2.2.freed)) = some
      ([⟨1, 1, c!"12", c!"NUMBER", []⟩, ⟨1, 2, c!"NEW YORK", c!"CITY", []⟩, ⟨1, 3, c!"STR", c!"TYPE", []⟩,
        ⟨2, 4, c!"12", c!"NUMBER", []⟩, ⟨2, 5, c!"NEW", c!"WORD", []⟩], false, 0) ∧
    (Sql.asParse exEnv 8 c!"12 new york str" townText c!"en" c!"SPACE").map (fun r => (r.1.length, r.2.1, r.2.2.freed)) =
      some (7, true, 1) := by
  refine ⟨?_, by decide +kernel, by decide +kernel⟩
  obtain ⟨l, h1, h2⟩ := of_outcomeIs (o := loadLexicon exEnv townText)
    (p := fun l => outcomeIs (phrasesOf exEnv l c!"en" c!"SPACE" c!"12 new york str") (fun ps => ps.flatten.length = 7)) (by decide +kernel)
  exact ⟨l, h1, h2⟩

example : (Sql.asMatch exEnv 3 c!"1 new york str" addrText townText c!"en" c!"SPACE").map (fun r => (r.1, r.2.1, r.2.2.freed)) = some
      ([[.text c!"NUMBER CITY TYPE -> HOUSE CITY SUFTYP", .float8 (1 / 2)],
        [.text c!"NUMBER WORD WORD TYPE -> HOUSE STREET STREET IGNORE", .float8 (9 / 20)]], true, 1) ∧
    (Sql.asMatch exEnv 2 c!"1" addrText townText c!"en" c!"SPACE").map (fun r => (r.1, r.2.1, r.2.2.freed)) = some
      ([[.text c!"Failed to match to grammar!", .float8 (-1)]], true, 1) ∧
    loadGrammar exEnv c!"[ADDRESS]" = .throws c!"bad grammar" ∧ loadLexicon exEnv c!"LEXENTRY:\tx\n" = .throws c!"bad lexicon" ∧
    (Sql.asMatch exEnv 2 c!"1" c!"[ADDRESS]" townText c!"en" c!"SPACE").map (fun r => (r.1, r.2.1)) = some ([], true) :=
  ⟨by decide +kernel, by decide +kernel, by decide +kernel, by decide +kernel, by decide +kernel⟩

/-! ## C64 -/

theorem sqlRow_null (e : Option Str) : Sql.AllNull (sqlRow ⟨none, e⟩) := by
  unfold Sql.AllNull sqlRow
  exact ⟨rfl, fun v hv => List.eq_of_mem_replicate hv⟩

theorem sqlRow_shows {a : StdAddr} {ts : List Token} {p : Str} (h : Holds a ts) (hp : a.pattern = some p) (e : Option Str) :
    Sql.Shows (sqlRow ⟨some a, e⟩) ts p := by
  refine ⟨rfl, fun f => ?_, by rw [← hp]; rfl⟩
  have : Sql.column (sqlRow ⟨some a, e⟩) (Sql.columnName f) = some (a.get f) := by cases f <;> rfl
  rw [this]
  split
  · next hw => rw [(h f).1 hw]
  · next hw => rw [(h f).2 hw]

theorem shows_not_null {row : List (Option Str)} {ts : List Token} {p : Str} (h : Sql.Shows row ts p) : ¬ Sql.AllNull row := by
  rintro ⟨_, hn⟩
  obtain ⟨_, _, hc⟩ := h
  unfold Sql.column at hc
  have key : ∀ (cs : List Str) (row : List (Option Str)), (∀ v ∈ row, v = none) → ∀ n v, (cs.zip row).lookup n = some v → v = none := by
    intro cs
    induction cs with
    | nil => intro row _ n v h; cases h
    | cons c cs ih =>
      intro row hn n v h
      cases row with
      | nil => cases h
      | cons r row =>
        rw [List.zip_cons_cons, List.lookup_cons] at h
        split at h
        · injection h with h; rw [← h]; exact hn r (List.mem_cons_self ..)
        · exact ih row (fun v hv => hn v (List.mem_cons_of_mem _ hv)) n v h
  cases key _ _ hn _ _ hc

/-- Whatever was called before, `as_standardize` returns the row that shows the standardized tokens of the best match,
each under the declared name of its field, or, if and only if no token list matches, the row of NULLs. -/
theorem C64_as_standardize (env : Env F D) (digest : Str → Str) (newStd newCtx : Cache.State (Lexicon × Grammar F) → Nat)
    (fr : Cache.NewAddresses (cacheEnv env digest newStd newCtx)) (ops : List (Cache.Op Args))
    (s : Cache.State (Lexicon × Grammar F)) (rs : List (Option (Option (List (Option Str)))))
    (hr : Cache.run (cacheEnv env digest newStd newCtx) {} ops = .ok (s, rs)) (pid : Nat) (lexicon grammar : Str) (a : Args)
    (hc : Cache.NoCollision (cacheEnv env digest newStd newCtx) ((lexicon, grammar) :: Cache.requested ops))
    (l : Lexicon) (hl : loadLexicon env lexicon = .ok l) (g : Grammar F) (hg : loadGrammar env grammar = .ok g)
    (laws : LtLaws env.fo) (signs : SignLaws env.fo) (h0 : env.fo.le0 env.fo.zero = true) (ha : env.alloc 1 = true)
    (phrases : List (List Token)) (hp : phrasesOf env l a.locale a.filter a.address = .ok phrases)
    (hk : IcuKeeps env.icu '\x00') (hn : '\x00' ∉ a.address) (hw : ∀ e ∈ l.lex, ∀ x ∈ e.2, '\x00' ∉ x.stdword) :
    ∃ row, resultOf (Cache.call (cacheEnv env digest newStd newCtx) s pid lexicon grammar a) = .ok (some row) ∧
      (Sql.AllNull row ↔ ∀ phrase ∈ phrases, search g c!"ADDRESS" phrase = .ok []) ∧
      (¬ Sql.AllNull row → ∃ b std, searchAndReclassBestOf g env.fo phrases = .ok b ∧
        b.tokens.map l.standardize = std.map some ∧ std.map (·.outclass) = b.tokens.map (·.outclass) ∧
        Sql.Shows row std (upToNul (b.matched.getD []))) := by
  have h1 := C52_as_standardize env digest newStd newCtx fr ops s rs hr pid lexicon grammar a hc ⟨l, hl⟩ ⟨g, hg⟩
  have h2 : stdStandardize env a.address grammar lexicon a.locale a.filter = standardizeAddr env g l a.locale a.filter a.address := by
    unfold stdStandardize
    rw [hg, hl]
  rw [h1, h2]
  rcases C48_address_iff_match env laws signs h0 ha grammar g hg l a.locale a.filter a.address phrases hp with
    ⟨sa, hsa, phrase, hph, ⟨results, hres, hne⟩, _⟩ | ⟨hno, hall⟩
  · obtain ⟨phrases', b, std, k1, k2, k3, k4, k5, k6⟩ := C66_nothing_cut env g l a.locale a.filter a.address sa none hsa hk hn hw
    rw [hp] at k1
    injection k1 with k1
    subst k1
    rw [hsa]
    have hs := sqlRow_shows k5 k6 none
    refine ⟨_, rfl, ⟨fun h => absurd h (shows_not_null hs), fun h => ?_⟩, fun _ => ⟨b, std, k2, k3, k4, hs⟩⟩
    rw [h phrase hph] at hres
    injection hres with hres
    exact absurd hres.symm hne
  · rw [hno]
    exact ⟨_, rfl, ⟨fun _ => hall, fun _ => sqlRow_null none⟩, fun h => absurd (sqlRow_null none) h⟩

/-- The hypotheses of C64, and the row. -/
example : Cache.NewAddresses exCache ∧ Cache.run exCache {} [] = .ok ({}, []) ∧
    Cache.NoCollision exCache ((townText, addrText) :: Cache.requested ([] : List (Cache.Op Args))) ∧
    (∃ l, loadLexicon exEnv townText = .ok l ∧ (∀ e ∈ l.lex, ∀ x ∈ e.2, '\x00' ∉ x.stdword) ∧
      ∃ ps, phrasesOf exEnv l townArgs.locale townArgs.filter townArgs.address = .ok ps) ∧
    (∃ g, loadGrammar exEnv addrText = .ok g) ∧ LtLaws exEnv.fo ∧ SignLaws exEnv.fo ∧ exEnv.fo.le0 exEnv.fo.zero = true ∧
    exEnv.alloc 1 = true ∧ IcuKeeps exEnv.icu '\x00' ∧ '\x00' ∉ townArgs.address ∧
    outcomeIs (resultOf (Cache.call exCache {} 1 townText addrText townArgs)) (fun r => decide (r.map (fun row =>
      [c!"house_num", c!"city", c!"suftype", c!"name"].map (Sql.column row)) = some
        [some (some c!"12"), some (some c!"NY"), some (some c!"STRASSE"), some none])) = true := by
  refine ⟨exCache_fresh, rfl, fun t _ t' _ h1 h2 => Prod.ext h1 h2, ?_, ?_, ratOps_laws, ratOps_signs, by decide, rfl,
    asciiIcu_keeps _ (toUpper_low _ (by decide)), by decide, by decide +kernel⟩
  · obtain ⟨l, h1, h2⟩ := of_outcomeIs (o := loadLexicon exEnv townText)
      (p := fun l => decide (∀ e ∈ l.lex, ∀ x ∈ e.2, '\x00' ∉ x.stdword) &&
        outcomeIs (phrasesOf exEnv l townArgs.locale townArgs.filter townArgs.address) (fun _ => true)) (by decide +kernel)
    rw [Bool.and_eq_true] at h2
    obtain ⟨ps, h3, _⟩ := of_outcomeIs h2.2
    exact ⟨l, h1, of_decide_eq_true h2.1, ps, h3⟩
  · obtain ⟨g, hg, _⟩ := of_outcomeIs (o := loadGrammar exEnv addrText) (p := fun _ => true) (by decide +kernel)
    exact ⟨g, hg⟩

end AS.Props
