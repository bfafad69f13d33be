import Verif.Model.Tools
import Verif.Spec.Tools
import Verif.Lemmas.LexEntry
/-
What the text printed by the model of tools/load-lex-gmr-files means to the data base.
-/
namespace AS
namespace Load

open Tools

/-! ### Reading the text -/

theorem lexGo_plain : ∀ {s : Str} (r : Str), '\'' ∉ s → lexGo none (s ++ r) = plain s ++ lexGo none r
  | [], r, _ => rfl
  | c :: s, r, h => by
    have hc : c ≠ '\'' := fun e => h (by simp [e])
    have hs : '\'' ∉ s := fun e => h (by simp [e])
    rw [List.cons_append, lexGo, if_neg hc, lexGo_plain r hs]
    rfl

theorem dupQuotes_plain : ∀ {s : Str}, '\'' ∉ s → dupQuotes s = s
  | [], _ => rfl
  | c :: s, h => by
    have hc : c ≠ '\'' := fun e => h (by simp [e])
    have hs : '\'' ∉ s := fun e => h (by simp [e])
    rw [dupQuotes, if_neg hc, dupQuotes_plain hs]

theorem lexGo_const (r : Str) (hr : r.head? ≠ some '\'') : ∀ (t b : Str),
    lexGo (some b) (dupQuotes t ++ '\'' :: r) = .const (b.reverse ++ t) :: lexGo none r
  | [], b => by
    cases r with
    | nil => simp [dupQuotes, lexGo]
    | cons d r =>
      have hd : d ≠ '\'' := fun e => hr (by simp [e])
      simp [dupQuotes, lexGo, hd]
  | c :: t, b => by
    unfold dupQuotes
    split
    · next hc =>
      rw [List.cons_append, List.cons_append, lexGo, if_pos rfl, if_pos rfl, lexGo_const r hr t, hc]
      simp
    · next hc =>
      have ih := lexGo_const r hr t (c :: b)
      obtain ⟨d, s, hX⟩ : ∃ d s, dupQuotes t ++ '\'' :: r = d :: s := by
        cases h : dupQuotes t ++ '\'' :: r with
        | nil => simp at h
        | cons d s => exact ⟨d, s, rfl⟩
      rw [List.cons_append, hX, lexGo, if_neg hc, ← hX, ih]
      simp

theorem lex_quoted (t r : Str) (hr : r.head? ≠ some '\'') :
    lexGo none ('\'' :: (dupQuotes t ++ '\'' :: r)) = .const t :: lexGo none r := by
  rw [lexGo, if_pos rfl, lexGo_const r hr]
  rfl

theorem lex_unquoted (t r : Str) (ht : '\'' ∉ t) (hr : r.head? ≠ some '\'') :
    lexGo none ('\'' :: (t ++ '\'' :: r)) = .const t :: lexGo none r := by
  have := lex_quoted t r hr
  rwa [dupQuotes_plain ht] at this

/-! ### Statements -/

theorem splitStmts_ne : ∀ ts, splitStmts ts ≠ []
  | [] => by simp [splitStmts]
  | t :: ts => by
    unfold splitStmts
    split
    · simp
    · split <;> simp

theorem splitStmts_append : ∀ {T : List Tok} (X : List Tok), Tok.chr ';' ∉ T → splitStmts (T ++ .chr ';' :: X) = T :: splitStmts X
  | [], X, _ => by simp [splitStmts]
  | t :: T, X, h => by
    have ht : t ≠ .chr ';' := fun e => h (by simp [e])
    have hT : Tok.chr ';' ∉ T := fun e => h (by simp [e])
    rw [List.cons_append, splitStmts, if_neg ht, splitStmts_append X hT]

/-- The statements of a text already read. -/
def stmtsOf (ts : List Tok) : List (List Tok) := ((splitStmts ts).map trim).filter (· ≠ [])

theorem stmtsOf_line (X : List Tok) : stmtsOf (.chr '\n' :: X) = stmtsOf X := by
  unfold stmtsOf
  rw [splitStmts, if_neg (by decide)]
  cases h : splitStmts X with
  | nil => exact absurd h (splitStmts_ne X)
  | cons x xs => simp [trim]

theorem stmtsOf_stmt {T : List Tok} (X : List Tok) (hT : Tok.chr ';' ∉ T) {t : Tok} (h0 : T.head? = some t) (h1 : t ≠ .chr '\n') :
    stmtsOf (T ++ .chr ';' :: X) = T :: stmtsOf X := by
  unfold stmtsOf
  rw [splitStmts_append X hT]
  cases T with
  | nil => simp at h0
  | cons a T =>
    simp only [List.head?_cons, Option.some.injEq] at h0
    subst h0
    simp [trim, h1]

theorem semi_plain {s : Str} (h : ';' ∉ s) : Tok.chr ';' ∉ plain s := by
  unfold plain
  intro hm
  obtain ⟨c, hc, e⟩ := List.mem_map.1 hm
  cases e
  exact h hc

/-- A statement without constants. -/
theorem stmts_plain (s r : Str) (c : Char) (h0 : s.head? = some c) (h1 : c ≠ '\n') (hq : '\'' ∉ s) (hs : ';' ∉ s) :
    stmtsOf (lexGo none (s ++ (c!";\n" ++ r))) = plain s :: stmtsOf (lexGo none r) := by
  rw [lexGo_plain _ hq, lexGo_plain r (s := c!";\n") (by decide)]
  show stmtsOf (plain s ++ .chr ';' :: (.chr '\n' :: lexGo none r)) = _
  rw [stmtsOf_stmt _ (semi_plain hs) (t := .chr c) (by simp [plain, h0]) (by simpa using h1), stmtsOf_line]

theorem stmts_encoding (r : Str) : stmtsOf (lexGo none (c!"set client_encoding to 'utf8';\n" ++ r)) =
    (plain c!"set client_encoding to " ++ [.const c!"utf8"]) :: stmtsOf (lexGo none r) := by
  have e : c!"set client_encoding to 'utf8';\n" ++ r =
    c!"set client_encoding to " ++ ('\'' :: (c!"utf8" ++ '\'' :: (c!";\n" ++ r))) := rfl
  rw [e, lexGo_plain _ (by decide), lex_unquoted _ _ (by decide) (by simp), lexGo_plain r (s := c!";\n") (by decide)]
  have e2 : plain c!"set client_encoding to " ++ Tok.const c!"utf8" :: (plain c!";\n" ++ lexGo none r) =
    (plain c!"set client_encoding to " ++ [.const c!"utf8"]) ++ .chr ';' :: (.chr '\n' :: lexGo none r) := rfl
  rw [e2, stmtsOf_stmt _ (by decide) (t := .chr 's') rfl (by decide), stmtsOf_line]

theorem stmts_insert (v : Values) (hc : '\'' ∉ v.code) (hn : '\'' ∉ v.country) (hd : '\'' ∉ v.dataset)
    (hf : v.filter = c!"PUNCT,SPACE,DASH") (r : Str) :
    stmtsOf (lexGo none (insertHead ++
      (v.code ++ (c!"', '" ++ (v.country ++ (c!"', '" ++ (v.dataset ++ (c!"', '" ++ (dupQuotes v.lexicon ++ (c!"', '" ++
      (dupQuotes v.grammar ++ (c!"', 'PUNCT,SPACE,DASH' );\n" ++ r)))))))))))) = insertToks v :: stmtsOf (lexGo none r) := by
  have e : insertHead ++
      (v.code ++ (c!"', '" ++ (v.country ++ (c!"', '" ++ (v.dataset ++ (c!"', '" ++ (dupQuotes v.lexicon ++ (c!"', '" ++
      (dupQuotes v.grammar ++ (c!"', 'PUNCT,SPACE,DASH' );\n" ++ r)))))))))) =
      insertText ++
      ('\'' :: (v.code ++ '\'' :: (c!", " ++ ('\'' :: (v.country ++ '\'' :: (c!", " ++ ('\'' :: (v.dataset ++ '\'' ::
      (c!", " ++ ('\'' :: (dupQuotes v.lexicon ++ '\'' :: (c!", " ++ ('\'' :: (dupQuotes v.grammar ++ '\'' :: (c!", " ++
      ('\'' :: (c!"PUNCT,SPACE,DASH" ++ '\'' :: (c!" );\n" ++ r)))))))))))))))))) := by
    have h0 : insertHead = insertText ++ c!"'" := rfl
    rw [h0]
    simp
  rw [e, lexGo_plain _ (by decide), lex_unquoted _ _ hc (by simp), lexGo_plain _ (s := c!", ") (by decide),
    lex_unquoted _ _ hn (by simp), lexGo_plain _ (s := c!", ") (by decide), lex_unquoted _ _ hd (by simp),
    lexGo_plain _ (s := c!", ") (by decide), lex_quoted _ _ (by simp), lexGo_plain _ (s := c!", ") (by decide),
    lex_quoted _ _ (by simp), lexGo_plain _ (s := c!", ") (by decide), lex_unquoted _ _ (by decide) (by simp),
    lexGo_plain r (s := c!" );\n") (by decide), ← hf]
  have e2 : ∀ X, plain c!" );\n" ++ X = plain c!" )" ++ .chr ';' :: (.chr '\n' :: X) := fun _ => rfl
  rw [e2]
  have := stmtsOf_stmt (T := insertToks v) (.chr '\n' :: lexGo none r) (by simp [insertToks, plain]; decide) (t := .chr 'i') rfl (by decide)
  rw [stmtsOf_line] at this
  rw [← this]
  simp only [insertToks, List.append_assoc, List.cons_append, List.nil_append]

theorem consts_plain (s : Str) : consts (plain s) = [] := by
  unfold consts plain
  simp [List.filterMap_map, Function.comp_def]

theorem consts_insert (v : Values) : consts (insertToks v) = [v.code, v.country, v.dataset, v.lexicon, v.grammar, v.filter] := by
  have h := consts_plain
  unfold consts at h
  unfold consts insertToks
  simp only [List.filterMap_append, h]
  rfl

theorem meaning_insert (v : Values) : meaning (insertToks v) = some (.insert v) := by
  have hh : (insertToks v).head? = some (.chr 'i') := rfl
  have ne : ∀ {ts : List Tok} {c : Char}, ts.head? = some (.chr c) → c ≠ 'i' → insertToks v ≠ ts := by
    intro ts c h hc e
    rw [← e, hh] at h
    simp only [Option.some.injEq, Tok.chr.injEq] at h
    exact hc h.symm
  unfold meaning
  rw [if_neg (ne (c := 's') rfl (by decide)), if_neg (ne (c := 'b') rfl (by decide)), if_neg (ne (c := 'd') rfl (by decide)),
    if_neg (ne (c := 'c') rfl (by decide)), if_neg (ne (c := 'u') rfl (by decide)), if_neg (ne (c := 'c') rfl (by decide)),
    if_neg (ne (c := 'c') rfl (by decide)), if_neg (ne (c := 'a') rfl (by decide)), consts_insert]
  simp

/-! ### The script -/

/-- The values of the insert statement for a file. -/
def valuesOf (dataset : Str) (f : Source) : Option Values :=
  f.grammar.map fun g => ⟨countryCode f.lexicon, f.country, dataset, f.lexicon, g, c!"PUNCT,SPACE,DASH"⟩

/-- The statements between `begin` and `commit`. -/
def bodyOf (create : Bool) (dataset : Str) (files : List Source) : List Stmt :=
  (if create && !files.isEmpty then [.dropTable, .createTable] else []) ++ (files.filterMap (valuesOf dataset)).map .insert ++
    [.compile, .createIndex]

theorem stmts_files (dataset : Str) (hd : '\'' ∉ dataset) (r : Str) : ∀ files : List Source,
    (∀ f ∈ files, f.grammar ≠ none → '\'' ∉ f.country ∧ '\'' ∉ countryCode f.lexicon) →
    stmtsOf (lexGo none (files.flatMap (loadFile dataset) ++ r)) =
      (files.filterMap (valuesOf dataset)).map insertToks ++ stmtsOf (lexGo none r)
  | [], _ => rfl
  | f :: fs, h => by
    have ih := stmts_files dataset hd r fs (fun g hg => h g (by simp [hg]))
    rw [List.flatMap_cons, List.append_assoc]
    cases hg : f.grammar with
    | none => simp [loadFile, valuesOf, hg, ih]
    | some g =>
      have hf := h f (by simp) (by simp [hg])
      have := stmts_insert ⟨countryCode f.lexicon, f.country, dataset, f.lexicon, g, c!"PUNCT,SPACE,DASH"⟩ hf.2 hf.1 hd rfl
        (fs.flatMap (loadFile dataset) ++ r)
      have hv : valuesOf dataset f = some ⟨countryCode f.lexicon, f.country, dataset, f.lexicon, g, c!"PUNCT,SPACE,DASH"⟩ := by
        simp [valuesOf, hg]
      rw [List.filterMap_cons_some hv, List.map_cons, List.cons_append, ← ih, ← this]
      unfold loadFile
      rw [hg]
      simp only [List.append_assoc]

theorem stmts_create (r : Str) : stmtsOf (lexGo none (Tools.createTable ++ r)) =
    plain c!"drop table if exists as_config cascade" :: plain tableText :: stmtsOf (lexGo none r) := by
  have e : Tools.createTable ++ r = c!"drop table if exists as_config cascade" ++ (c!";\n" ++ (tableText ++ (c!";\n" ++ r))) := by
    unfold Tools.createTable tableText
    simp only [List.append_assoc]
    rfl
  rw [e, stmts_plain _ _ 'd' rfl (by decide) (by decide) (by decide),
    stmts_plain _ _ 'c' rfl (by decide) (by decide +kernel) (by decide +kernel)]

theorem stmts_end : stmtsOf (lexGo none (c!"update as_config set clexicon=as_compile_lexicon(lexicon);\n" ++
    (c!"create index as_config_countrycode_idx " ++ (c!"on as_config using btree (countrycode);\n" ++ c!"commit;\nanalyze as_config;\n")))) =
    [plain c!"update as_config set clexicon=as_compile_lexicon(lexicon)",
     plain indexText, plain c!"commit",
     plain c!"analyze as_config"] := by
  decide +kernel

theorem meaning_script (create : Bool) (dataset : Str) (files : List Source) (hd : '\'' ∉ dataset)
    (h : ∀ f ∈ files, f.grammar ≠ none → '\'' ∉ f.country ∧ '\'' ∉ countryCode f.lexicon) :
    (stmts (script create dataset files)).map meaning =
      [some .encoding, some .begin] ++ (bodyOf create dataset files).map some ++ [some .commit, some .analyze] := by
  have e : script create dataset files = c!"set client_encoding to 'utf8';\n" ++ (c!"begin" ++ (c!";\n" ++
      ((if create && !files.isEmpty then Tools.createTable else []) ++ (files.flatMap (loadFile dataset) ++
      (c!"update as_config set clexicon=as_compile_lexicon(lexicon);\n" ++
      (c!"create index as_config_countrycode_idx " ++ (c!"on as_config using btree (countrycode);\n" ++
        c!"commit;\nanalyze as_config;\n"))))))) := by
    unfold script
    simp only [List.append_assoc]
    rfl
  have m1 : meaning (plain c!"set client_encoding to " ++ [.const c!"utf8"]) = some .encoding := by decide +kernel
  have m2 : meaning (plain c!"begin") = some .begin := by decide +kernel
  have m3 : meaning (plain c!"drop table if exists as_config cascade") = some .dropTable := by decide +kernel
  have m4 : meaning (plain tableText) = some .createTable := by decide +kernel
  have m5 : meaning (plain c!"update as_config set clexicon=as_compile_lexicon(lexicon)") = some .compile := by decide +kernel
  have m6 : meaning (plain indexText) =
    some .createIndex := by decide +kernel
  have m7 : meaning (plain c!"commit") = some .commit := by decide +kernel
  have m8 : meaning (plain c!"analyze as_config") = some .analyze := by decide +kernel
  have mi : ∀ vs : List Values, (vs.map insertToks).map meaning = (vs.map Stmt.insert).map some := by
    intro vs
    simp [Function.comp_def, meaning_insert]
  show (stmtsOf (lexGo none _)).map meaning = _
  rw [e, stmts_encoding, stmts_plain _ _ 'b' rfl (by decide) (by decide) (by decide)]
  unfold bodyOf
  cases create && !files.isEmpty with
  | true =>
    simp only [if_true]
    rw [stmts_create, stmts_files dataset hd _ files h, stmts_end]
    simp only [List.map_cons, List.map_append, mi, m1, m2, m3, m4, m5, m6, m7, m8, List.map_nil, List.cons_append,
      List.nil_append, List.append_assoc]
  | false =>
    simp only [Bool.false_eq_true, if_false, List.nil_append]
    rw [stmts_files dataset hd _ files h, stmts_end]
    simp only [List.map_cons, List.map_append, mi, m1, m2, m5, m6, m7, m8, List.map_nil, List.cons_append,
      List.nil_append, List.append_assoc]

/-! ### The transaction -/

theorem run_inner (comp : Str → Option Str) (d : Db) : ∀ (sts : List Stmt) (o : Option Db), Stmt.begin ∉ sts → Stmt.commit ∉ sts →
    (sts.map some).foldl (step comp) ⟨d, some o⟩ = ⟨d, some (o.bind fun e => sts.foldlM (fun e st => exec comp st e) e)⟩
  | [], o, _, _ => by cases o <;> rfl
  | st :: sts, o, hb, hc => by
    have hb' : Stmt.begin ∉ sts := fun e => hb (by simp [e])
    have hc' : Stmt.commit ∉ sts := fun e => hc (by simp [e])
    have hs : step comp ⟨d, some o⟩ (some st) = ⟨d, some (o.bind (exec comp st))⟩ := by
      cases st with
      | begin => exact absurd (List.mem_cons_self ..) hb
      | commit => exact absurd (List.mem_cons_self ..) hc
      | _ => rfl
    rw [List.map_cons, List.foldl_cons, hs, run_inner comp d sts _ hb' hc']
    cases o with
    | none => rfl
    | some e => rfl

/-- The statements between `begin` and `commit` are all done, or nothing is. -/
theorem psql_script (comp : Str → Option Str) (create : Bool) (dataset : Str) (files : List Source) (hd : '\'' ∉ dataset)
    (h : ∀ f ∈ files, f.grammar ≠ none → '\'' ∉ f.country ∧ '\'' ∉ countryCode f.lexicon) (d : Db) :
    psql comp (script create dataset files) d =
      ((bodyOf create dataset files).foldlM (fun e st => exec comp st e) d).getD d := by
  have hb : Stmt.begin ∉ bodyOf create dataset files := by
    unfold bodyOf; cases create && !files.isEmpty <;> simp
  have hc : Stmt.commit ∉ bodyOf create dataset files := by
    unfold bodyOf; cases create && !files.isEmpty <;> simp
  unfold psql
  rw [meaning_script create dataset files hd h, List.foldl_append, List.foldl_append]
  have h1 : [some Stmt.encoding, some Stmt.begin].foldl (step comp) ⟨d, none⟩ = ⟨d, some (some d)⟩ := rfl
  rw [h1, run_inner comp d _ _ hb hc]
  simp only [Option.bind_some]
  cases (bodyOf create dataset files).foldlM (fun e st => exec comp st e) d with
  | none =>
    show (if d.table = none then none else some d).getD d = d
    split <;> rfl
  | some e =>
    show (if e.table = none then none else some e).getD e = e
    split <;> rfl

/-! ### The statements of the transaction -/

theorem run_inserts (comp : Str → Option Str) (i : Bool) : ∀ (vs : List Values) (rs : List Row),
    (vs.map Stmt.insert).foldlM (fun e st => exec comp st e) (⟨some rs, i⟩ : Db) =
      if ∀ v ∈ vs, Fits v.code then some ⟨some (rs ++ vs.map Values.row), i⟩ else none
  | [], rs => by simp
  | v :: vs, rs => by
    rw [List.map_cons, List.foldlM_cons]
    have hx : exec comp (.insert v) ⟨some rs, i⟩ = if Fits v.code then some ⟨some (rs ++ [v.row]), i⟩ else none := rfl
    rw [hx]
    by_cases hv : Fits v.code
    · rw [if_pos hv]
      show (vs.map Stmt.insert).foldlM (fun e st => exec comp st e) (⟨some (rs ++ [v.row]), i⟩ : Db) = _
      rw [run_inserts comp i vs]
      simp [hv]
    · rw [if_neg hv, if_neg (fun h => hv (h v (by simp)))]
      rfl

theorem run_no_table (comp : Str → Option Str) (i : Bool) (vs : List Values) :
    ((vs.map Stmt.insert) ++ [Stmt.compile, Stmt.createIndex]).foldlM (fun e st => exec comp st e) (⟨none, i⟩ : Db) = none := by
  cases vs <;> rfl

theorem compileRows_none {comp : Str → Option Str} : ∀ {rs : List Row}, (∃ r ∈ rs, comp r.lexicon = none) → compileRows comp rs = none
  | [], h => by simp at h
  | r :: rs, h => by
    unfold compileRows
    cases hc : comp r.lexicon with
    | none => rfl
    | some c =>
      obtain ⟨x, hx, hn⟩ := h
      rcases List.mem_cons.1 hx with rfl | hx
      · rw [hc] at hn; cases hn
      · rw [compileRows_none ⟨x, hx, hn⟩]

theorem compileRows_some {comp : Str → Option Str} : ∀ {rs : List Row}, (∀ r ∈ rs, comp r.lexicon ≠ none) →
    compileRows comp rs = some (rs.map fun r => { r with clexicon := comp r.lexicon })
  | [], _ => rfl
  | r :: rs, h => by
    unfold compileRows
    cases hc : comp r.lexicon with
    | none => exact absurd hc (h r (by simp))
    | some c =>
      rw [compileRows_some (rs := rs) (fun x hx => h x (by simp [hx]))]
      simp [hc]

theorem run_end (comp : Str → Option Str) (i : Bool) (rs : List Row) :
    [Stmt.compile, .createIndex].foldlM (fun e st => exec comp st e) (⟨some rs, i⟩ : Db) =
      if (∀ r ∈ rs, comp r.lexicon ≠ none) ∧ i = false then
        some ⟨some (rs.map fun r => { r with clexicon := comp r.lexicon }), true⟩ else none := by
  rcases (Classical.em (∀ r ∈ rs, comp r.lexicon ≠ none)) with h | h
  · have hx : exec comp .compile ⟨some rs, i⟩ = some ⟨some (rs.map fun r => { r with clexicon := comp r.lexicon }), i⟩ := by
      simp [exec, compileRows_some h]
    rw [List.foldlM_cons, hx]
    cases i with
    | false => rw [if_pos ⟨h, rfl⟩]; rfl
    | true => rw [if_neg (by simp)]; rfl
  · have hx : exec comp .compile ⟨some rs, i⟩ = none := by
      have : compileRows comp rs = none := by
        apply compileRows_none
        simpa using h
      simp [exec, this]
    rw [List.foldlM_cons, hx, if_neg (fun e => h e.1)]
    rfl

/-! ### The code of the country -/

theorem found_iff (p : Str) : ∀ s : Str, found p s = true ↔ p <:+: s
  | [] => by simp [found]
  | c :: s => by
    rw [found, Bool.or_eq_true, found_iff p s, List.isPrefixOf_iff_prefix, List.infix_cons_iff]

/-- A line as it is printed if it has the text. -/
def grepLine (l : Str) : Str := if found c!"LEXICON:" l then l ++ ['\n'] else []

theorem grepLexicon_eq : ∀ (s line p : Str) (ps : List Str), splitOn '\n' s = p :: ps →
    grepLexicon line s = grepLine (line.reverse ++ p) ++ ps.flatMap grepLine
  | [], line, p, ps, h => by
    simp only [splitOn, List.cons.injEq] at h
    obtain ⟨rfl, rfl⟩ := h
    simp [grepLexicon, grepLine]
  | c :: s, line, p, ps, h => by
    obtain ⟨q, qs, hs⟩ : ∃ q qs, splitOn '\n' s = q :: qs := by
      cases hq : splitOn '\n' s with
      | nil => exact absurd hq (splitOn_ne '\n' s)
      | cons q qs => exact ⟨q, qs, rfl⟩
    unfold splitOn at h
    unfold grepLexicon
    by_cases hc : c = '\n'
    · rw [if_pos hc] at h
      simp only [List.cons.injEq] at h
      obtain ⟨rfl, rfl⟩ := h
      rw [if_pos hc, grepLexicon_eq s [] q qs hs, hs]
      simp only [grepLine, List.append_nil, List.flatMap_cons, List.reverse_nil, List.nil_append]
      rfl
    · rw [if_neg hc, hs] at h
      simp only [List.cons.injEq] at h
      obtain ⟨rfl, rfl⟩ := h
      rw [if_neg hc, grepLexicon_eq s (c :: line) q qs hs]
      simp

theorem grepLine_none : ∀ {ls : List Str}, (∀ l ∈ ls, ¬ c!"LEXICON:" <:+: l) → ls.flatMap grepLine = []
  | [], _ => rfl
  | l :: ls, h => by
    have hl : found c!"LEXICON:" l = false := by
      rw [← Bool.not_eq_true, found_iff]
      exact h l (by simp)
    rw [List.flatMap_cons, grepLine_none (fun x hx => h x (by simp [hx])), grepLine, hl]
    rfl

theorem grep_header {text h : Str} (hh : OneHeader text h) : grepLexicon [] text = h ++ ['\n'] := by
  obtain ⟨pre, post, hs, hi, hn⟩ := hh
  have e : grepLexicon [] text = (splitOn '\n' text).flatMap grepLine := by
    cases hq : splitOn '\n' text with
    | nil => exact absurd hq (splitOn_ne '\n' text)
    | cons q qs =>
      rw [grepLexicon_eq text [] q qs hq]
      rfl
  have hf : grepLine h = h ++ ['\n'] := by
    rw [grepLine, if_pos ((found_iff _ _).2 hi)]
  rw [e, hs, List.flatMap_append, List.flatMap_cons, grepLine_none (fun l hl => hn l (by simp [hl])),
    grepLine_none (fun l hl => hn l (by simp [hl])), hf]
  simp

theorem fieldThree_eq : ∀ (s : Str) (n : Nat), fieldThree n s = (splitOn '\t' s).getD n []
  | [], 0 => rfl
  | [], _ + 1 => rfl
  | c :: s, n => by
    obtain ⟨q, qs, hs⟩ : ∃ q qs, splitOn '\t' s = q :: qs := by
      cases hq : splitOn '\t' s with
      | nil => exact absurd hq (splitOn_ne '\t' s)
      | cons q qs => exact ⟨q, qs, rfl⟩
    have ih := fun n => fieldThree_eq s n
    rw [hs] at ih
    unfold splitOn
    cases n with
    | zero =>
      unfold fieldThree
      split
      · rfl
      · rw [hs, ih]; rfl
    | succ n =>
      unfold fieldThree
      split
      · rw [ih, hs]; rfl
      · rw [ih, hs]; rfl

theorem dropLang_eq {lang cc : Str} (h0 : lang ≠ []) (h : '_' ∉ lang) : dropLang (lang ++ '_' :: cc) = cc := by
  have ha : ∀ a ∈ lang, decide (a ≠ '_') = true := fun a ha => by
    simp only [ne_eq, decide_not, Bool.not_eq_true', decide_eq_false_iff_not]
    rintro rfl
    exact h ha
  unfold dropLang
  rw [List.takeWhile_append_of_pos ha, List.dropWhile_append_of_pos ha]
  cases lang with
  | nil => exact absurd rfl h0
  | cons a as => simp

theorem lc_char (c : Char) :
    (if 'A'.toNat ≤ c.toNat ∧ c.toNat ≤ 'Z'.toNat then Char.ofNat (c.toNat + 32) else c) = c.toLower := by
  split
  · next h =>
    have hall : ∀ n : Fin 91, 65 ≤ n.val → Char.ofNat (n.val + 32) = (Char.ofNat n.val).toLower := by decide
    have h1 : c.toNat ≤ 90 := h.2
    have := hall ⟨c.toNat, by omega⟩ h.1
    simpa using this
  · next h =>
    unfold Char.toLower
    rw [dif_neg]
    intro hc
    exact h ⟨UInt32.le_iff_toNat_le.1 hc.1, UInt32.le_iff_toNat_le.1 hc.2⟩

theorem countryCode_eq {text h code : Str} (hh : OneHeader text h) (hc : HeaderCode h code) : countryCode text = code := by
  obtain ⟨lang, cc, h0, hu, hl, rfl⟩ := hc
  have hch : chomp (h ++ ['\n']) = h := by simp [chomp]
  unfold countryCode
  rw [grep_header hh, hch, fieldThree_eq]
  unfold headerLocale at hl
  rw [hl, dropLang_eq h0 hu]
  unfold lc lower
  simp only [lc_char]

end Load
end AS
