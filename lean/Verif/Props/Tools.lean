import Verif.Lemmas.Tools
/-
C101: what is in the table after the statements of tools/load-lex-gmr-files have been run.
-/
namespace AS
namespace Props

open Load Tools

theorem named_codes {dataset : Str} {files : List Source} (h : Named dataset files) :
    ∀ f ∈ files, f.grammar ≠ none → '\'' ∉ f.country ∧ '\'' ∉ countryCode f.lexicon := by
  intro f hf hg
  obtain ⟨hc, hd, code, h1, h2, h3⟩ := h.2 f hf hg
  refine ⟨hc, ?_⟩
  rw [countryCode_eq h1 h2]
  exact h3

/-- The row of a file, as it is after compiling. -/
def compiledRow (comp : Str → Option Str) (v : Values) : Row := { v.row with clexicon := comp v.lexicon }

theorem rows_along (comp : Str → Option Str) (dataset : Str) : ∀ {files : List Source}, Named dataset files →
    Along (FileRow comp dataset) (files.filter (·.grammar.isSome)) ((files.filterMap (valuesOf dataset)).map (compiledRow comp))
  | [], _ => .nil
  | f :: fs, h => by
    have ih := rows_along comp dataset (files := fs) ⟨h.1, fun g hg => h.2 g (by simp [hg])⟩
    cases hg : f.grammar with
    | none =>
      have hv : valuesOf dataset f = none := by simp [valuesOf, hg]
      rw [List.filter_cons_of_neg (by simp [hg]), List.filterMap_cons_none hv]
      exact ih
    | some g =>
      have hv : valuesOf dataset f = some ⟨countryCode f.lexicon, f.country, dataset, f.lexicon, g, c!"PUNCT,SPACE,DASH"⟩ := by
        simp [valuesOf, hg]
      rw [List.filter_cons_of_pos (by simp [hg]), List.filterMap_cons_some hv, List.map_cons]
      obtain ⟨_, hd, code, h1, h2, _⟩ := h.2 f (by simp) (by simp [hg])
      refine .cons ⟨⟨hd, code, h1, h2, ?_⟩, rfl, rfl, rfl, rfl, hg, rfl⟩ ih
      show char2 (countryCode f.lexicon) = char2 code
      rw [countryCode_eq h1 h2]

theorem accepted_values {comp : Str → Option Str} {dataset : Str} {files : List Source} (h : Named dataset files) :
    (∀ f ∈ files, Accepted comp f) ↔
      (∀ v ∈ files.filterMap (valuesOf dataset), Fits v.code) ∧
      ∀ r ∈ (files.filterMap (valuesOf dataset)).map Values.row, comp r.lexicon ≠ none := by
  constructor
  · intro ha
    have key : ∀ v ∈ files.filterMap (valuesOf dataset), Fits v.code ∧ comp v.lexicon ≠ none := by
      intro v hv
      obtain ⟨f, hf, e⟩ := List.mem_filterMap.1 hv
      unfold valuesOf at e
      obtain ⟨g, hg, rfl⟩ := Option.map_eq_some_iff.1 e
      have hne : f.grammar ≠ none := by simp [hg]
      obtain ⟨_, hd, code, h1, h2, _⟩ := h.2 f hf hne
      refine ⟨?_, (ha f hf hne).1⟩
      show Fits (countryCode f.lexicon)
      rw [countryCode_eq h1 h2]
      exact (ha f hf hne).2 hd code h1 h2
    refine ⟨fun v hv => (key v hv).1, fun r hr => ?_⟩
    obtain ⟨v, hv, rfl⟩ := List.mem_map.1 hr
    exact (key v hv).2
  · rintro ⟨hf, hc⟩ f hm hne
    obtain ⟨g, hg⟩ := Option.ne_none_iff_exists'.1 hne
    have hv : (⟨countryCode f.lexicon, f.country, dataset, f.lexicon, g, c!"PUNCT,SPACE,DASH"⟩ : Values) ∈
        files.filterMap (valuesOf dataset) := List.mem_filterMap.2 ⟨f, hm, by simp [valuesOf, hg]⟩
    refine ⟨hc _ (List.mem_map.2 ⟨_, hv, rfl⟩), fun hd code h1 h2 => ?_⟩
    rw [← countryCode_eq h1 h2]
    exact hf _ hv

theorem body_run (comp : Str → Option Str) (dataset : Str) (files : List Source) (rs : List Row) (i : Bool) :
    (((files.filterMap (valuesOf dataset)).map Stmt.insert) ++ [Stmt.compile, Stmt.createIndex]).foldlM
      (fun e st => exec comp st e) (⟨some rs, i⟩ : Db) =
    if ∀ v ∈ files.filterMap (valuesOf dataset), Fits v.code then
      [Stmt.compile, Stmt.createIndex].foldlM (fun e st => exec comp st e)
        (⟨some (rs ++ (files.filterMap (valuesOf dataset)).map Values.row), i⟩ : Db)
    else none := by
  rw [List.foldlM_append, run_inserts]
  split <;> rfl

theorem body_create (comp : Str → Option Str) (dataset : Str) {files : List Source} (h0 : files ≠ []) (d : Db) :
    (bodyOf true dataset files).foldlM (fun e st => exec comp st e) d =
      (((files.filterMap (valuesOf dataset)).map Stmt.insert) ++ [Stmt.compile, Stmt.createIndex]).foldlM
        (fun e st => exec comp st e) (⟨some [], false⟩ : Db) := by
  unfold bodyOf
  cases files with
  | nil => exact absurd rfl h0
  | cons f fs => rfl

theorem body_append (comp : Str → Option Str) (dataset : Str) {create : Bool} {files : List Source} (h0 : create = false ∨ files = [])
    (d : Db) : (bodyOf create dataset files).foldlM (fun e st => exec comp st e) d =
      (((files.filterMap (valuesOf dataset)).map Stmt.insert) ++ [Stmt.compile, Stmt.createIndex]).foldlM
        (fun e st => exec comp st e) d := by
  unfold bodyOf
  rcases h0 with rfl | rfl
  · rfl
  · cases create <;> rfl

/-- With `-c`, whatever was there before: the table has exactly one row for each lexicon that has a grammar beside it, with the
texts of the two files as they are. -/
theorem C101_create (comp : Str → Option Str) {dataset : Str} {files : List Source} (hn : Named dataset files)
    (ha : ∀ f ∈ files, Accepted comp f) (h0 : files ≠ []) (d : Db) :
    ∃ rows, psql comp (script true dataset files) d = ⟨some rows, true⟩ ∧
      Along (FileRow comp dataset) (files.filter (·.grammar.isSome)) rows := by
  obtain ⟨hf, hc⟩ := (accepted_values hn).1 ha
  refine ⟨_, ?_, rows_along comp dataset hn⟩
  rw [psql_script comp true dataset files hn.1 (named_codes hn), body_create comp dataset h0, body_run, if_pos hf, run_end,
    if_pos ⟨by simpa using hc, rfl⟩]
  simp [compiledRow, Values.row, Function.comp_def]

/-- Without `-c`, to a table without the index: the rows are added, and the lexicons of all rows are compiled. -/
theorem C101_append (comp : Str → Option Str) {dataset : Str} {files : List Source} (hn : Named dataset files)
    (ha : ∀ f ∈ files, Accepted comp f) {old : List Row} (ho : ∀ r ∈ old, comp r.lexicon ≠ none) :
    ∃ rows, psql comp (script false dataset files) ⟨some old, false⟩ =
        ⟨some (old.map (fun r => { r with clexicon := comp r.lexicon }) ++ rows), true⟩ ∧
      Along (FileRow comp dataset) (files.filter (·.grammar.isSome)) rows := by
  obtain ⟨hf, hc⟩ := (accepted_values hn).1 ha
  refine ⟨_, ?_, rows_along comp dataset hn⟩
  rw [psql_script comp false dataset files hn.1 (named_codes hn), body_append comp dataset (.inl rfl), body_run, if_pos hf, run_end,
    if_pos ⟨fun r hr => (List.mem_append.1 hr).elim (ho r) (hc r), rfl⟩]
  simp [compiledRow, Values.row, Function.comp_def]

/-- One file that is not accepted, and nothing of any file is loaded; the table remains as it was, also with `-c`. -/
theorem C101_refused (comp : Str → Option Str) (create : Bool) {dataset : Str} {files : List Source} (hn : Named dataset files)
    (hr : ∃ f ∈ files, ¬ Accepted comp f) (d : Db) : psql comp (script create dataset files) d = d := by
  have hno : ¬ ((∀ v ∈ files.filterMap (valuesOf dataset), Fits v.code) ∧
      ∀ r ∈ (files.filterMap (valuesOf dataset)).map Values.row, comp r.lexicon ≠ none) := by
    intro h
    obtain ⟨f, hf, hx⟩ := hr
    exact hx ((accepted_values hn).2 h f hf)
  have hrun : ∀ rs i, (((files.filterMap (valuesOf dataset)).map Stmt.insert) ++ [Stmt.compile, Stmt.createIndex]).foldlM
      (fun e st => exec comp st e) (⟨some rs, i⟩ : Db) = none := by
    intro rs i
    rw [body_run]
    split
    · next hf =>
      rw [run_end, if_neg]
      rintro ⟨hc, _⟩
      exact hno ⟨hf, fun r hr => hc r (List.mem_append_right _ hr)⟩
    · rfl
  have h0 : files ≠ [] := by
    rintro rfl
    obtain ⟨f, hf, _⟩ := hr
    cases hf
  rw [psql_script comp create dataset files hn.1 (named_codes hn)]
  cases create with
  | true => rw [body_create comp dataset h0, hrun]; rfl
  | false =>
    rw [body_append comp dataset (.inl rfl)]
    obtain ⟨t, i⟩ := d
    cases t with
    | none => rw [run_no_table]; rfl
    | some rs => rw [hrun]; rfl

/-- Without `-c`, to a table that has the index, as every earlier run leaves it, or without a table: nothing is loaded. The same
holds with `-c` if there is no file. -/
theorem C101_second (comp : Str → Option Str) {create : Bool} {dataset : Str} {files : List Source} (hn : Named dataset files)
    (h0 : create = false ∨ files = []) {d : Db} (hd : d.index = true ∨ d.table = none) :
    psql comp (script create dataset files) d = d := by
  rw [psql_script comp create dataset files hn.1 (named_codes hn), body_append comp dataset h0]
  obtain ⟨t, i⟩ := d
  cases t with
  | none => rw [run_no_table]; rfl
  | some rs =>
    rcases hd with rfl | hd
    · rw [body_run]
      split
      · rw [run_end, if_neg (by simp)]; rfl
      · rfl
    · cases hd

/-- Two datasets one after the other, the second without `-c`: the second is not there. -/
theorem C101_two_datasets (comp : Str → Option Str) {dataset dataset' : Str} {files files' : List Source}
    (hn : Named dataset files) (hn' : Named dataset' files') (ha : ∀ f ∈ files, Accepted comp f) (h0 : files ≠ []) (d : Db) :
    psql comp (script false dataset' files') (psql comp (script true dataset files) d) = psql comp (script true dataset files) d := by
  obtain ⟨rows, e, _⟩ := C101_create comp hn ha h0 d
  rw [e]
  exact C101_second comp hn' (.inl rfl) (.inl rfl)

/-! ### Examples -/

/-- A lexicon with a quote and a semicolon. -/
def toolLex : Str := c!"LEXICON:\tfr\tFRE\tfr_CI\tx\nLEXENTRY:\tL';\t" ++ c!"L'\tSTOPWORD\tDETACH\n"

def toolFiles : List Source := [⟨c!"ivoire", toolLex, some c!"[ADDRESS]\n'"⟩, ⟨c!"alone", c!"x", none⟩]

theorem toolLex_header : OneHeader toolLex c!"LEXICON:\tfr\tFRE\tfr_CI\tx" := by
  refine ⟨[], [c!"LEXENTRY:\tL';\tL'\tSTOPWORD\tDETACH", []], by decide +kernel, ?_, ?_⟩
  · rw [← found_iff]; decide +kernel
  · intro l hl
    rw [← found_iff]
    have : ∀ l ∈ [c!"LEXENTRY:\tL';\tL'\tSTOPWORD\tDETACH", []], ¬ found c!"LEXICON:" l = true := by decide +kernel
    exact this l (by simpa using hl)

theorem toolLex_code : HeaderCode c!"LEXICON:\tfr\tFRE\tfr_CI\tx" c!"ci" :=
  ⟨c!"fr", c!"CI", by decide, by decide, by decide +kernel, by decide +kernel⟩

theorem toolFiles_named : Named c!"mine" toolFiles := by
  refine ⟨by decide, fun f hf hg => ?_⟩
  simp only [toolFiles, List.mem_cons, List.not_mem_nil, or_false] at hf
  rcases hf with rfl | rfl
  · exact ⟨by decide, _, _, toolLex_header, toolLex_code, by decide⟩
  · exact absurd rfl hg

theorem toolFiles_accepted : ∀ f ∈ toolFiles, Accepted (fun t => some (c!"compiled " ++ t)) f := by
  intro f hf hg
  simp only [toolFiles, List.mem_cons, List.not_mem_nil, or_false] at hf
  rcases hf with rfl | rfl
  · refine ⟨by simp, fun h code h1 h2 => ?_⟩
    rw [← countryCode_eq h1 h2, countryCode_eq toolLex_header toolLex_code]
    decide
  · exact absurd rfl hg

/-- One of the two files has a grammar; its row has the quotes of the two texts. -/
example (d : Db) : psql (fun t => some (c!"compiled " ++ t)) (script true c!"mine" toolFiles) d =
    ⟨some [⟨c!"ci", c!"ivoire", c!"mine", toolLex, some (c!"compiled " ++ toolLex), c!"[ADDRESS]\n'", c!"PUNCT,SPACE,DASH"⟩], true⟩ := by
  obtain ⟨rows, e, hr⟩ := C101_create _ toolFiles_named toolFiles_accepted (by simp [toolFiles]) d
  rw [e]
  cases hr with
  | cons h hs =>
    cases hs
    obtain ⟨⟨h1, code, hh, hc, e1⟩, e2, e3, e4, e5, e6, e7⟩ := h
    next r =>
    have : code = c!"ci" := by rw [← countryCode_eq hh hc, countryCode_eq toolLex_header toolLex_code]
    subst this
    obtain ⟨a, b, c, d, e, f, g⟩ := r
    simp only [Option.some.injEq] at e1 e2 e3 e4 e5 e6 e7
    subst e1 e2 e3 e4 e5 e6 e7
    rfl

/-- The hypotheses of `C101_append` are met by a table with a row. -/
example : ∃ rows, psql (fun t => some t) (script false c!"mine" toolFiles) ⟨some [⟨c!"us", [], [], c!"x", none, [], []⟩], false⟩ =
    ⟨some ([⟨c!"us", [], [], c!"x", some c!"x", [], []⟩] ++ rows), true⟩ ∧ rows.length = 1 := by
  have ha : ∀ f ∈ toolFiles, Accepted (fun t => some t) f := fun f hf hg =>
    ⟨by simp, (toolFiles_accepted f hf hg).2⟩
  obtain ⟨rows, e, hr⟩ := C101_append (fun t => some t) toolFiles_named ha
    (old := [⟨c!"us", [], [], c!"x", none, [], []⟩]) (by simp)
  refine ⟨rows, e, ?_⟩
  cases hr with
  | cons h hs => cases hs; rfl

/-- A lexicon that is not compiled makes the run do nothing, and so does the index of an earlier run. -/
example (d : Db) : psql (fun _ => none) (script true c!"mine" toolFiles) d = d :=
  C101_refused _ true toolFiles_named ⟨_, List.mem_cons_self .., fun h => (h (by simp)).1 rfl⟩ d

example (comp : Str → Option Str) (rs : List Row) : psql comp (script false c!"mine" toolFiles) ⟨some rs, true⟩ = ⟨some rs, true⟩ :=
  C101_second comp toolFiles_named (.inl rfl) (.inl rfl)

/-- The name of a file is not quoted: with an apostrophe in it, nothing is loaded, of no file. -/
theorem C101_apostrophe (comp : Str → Option Str) (d : Db) :
    psql comp (script true c!"mine" [⟨c!"cote d'ivoire", toolLex, some c!"[ADDRESS]\n"⟩]) d = d := by
  have e : ((stmts (script true c!"mine" [⟨c!"cote d'ivoire", toolLex, some c!"[ADDRESS]\n"⟩])).map meaning) =
      [some .encoding, some .begin, some .dropTable, some .createTable, none, none] := by decide +kernel
  unfold psql
  rw [e]
  obtain ⟨t, i⟩ := d
  rfl

end Props
end AS
