import Verif.Lemmas.PagcLex
import Verif.Props.Pagc
/-
Properties of tools/convert-pagc-lex-gaz.
-/
namespace AS.Props
open AS.Pagc

/-- What the script prints: the header, and one line for each word and standard word in the file, with all the classes given
there. -/
theorem C103_text {nu : Numbers} (hnu : Exact nu) {matched : Str → Str → Option Bool} (hm : MatchesSelf matched)
    {ls : List Str} {rs : List Record} (h : HasRecords ls rs) (hp : ∀ r ∈ rs, ∀ c ∈ r.std, c ∉ special) :
    ∃ es, Collected rs es ∧
      convertLex nu matched ls = some (unlines (c!"LEXICON:\tpagc-converted\tUSA\ten_US\t" :: es.map Entry.line)) :=
  convertLex_eq hnu hm h hp

/-! ### The lexicon -/

theorem className_item (n : Nat) (t : InType) : ItemMeans (className n) (some t) ↔
    n < 34 ∧ (t.code = n ∨ (t = .BADTOKEN ∧ (n = 4 ∨ n = 5))) := by
  have hbad : ItemMeans c!"BADTOKEN" (some .BADTOKEN) :=
    ItemMeans.known 0 0 c!"BADTOKEN" 99 .BADTOKEN (by decide)
  have hu : ∀ {q : Str} {r r' : Option InType}, ItemMeans q r → ItemMeans q r' → r' = r := by
    intro q r r' h h'
    obtain ⟨x, _, hx⟩ := C02_item_meaning q
    rw [hx _ h, hx _ h']
  by_cases hn : n < 34
  · rw [className, if_pos hn]
    have key : ∀ n ∈ List.range 34, (n = 4 ∨ n = 5 → inTable.find? (fun e => e.2.1 == (n : Int)) = none) ∧
        (n ≠ 4 ∧ n ≠ 5 → ∃ e ∈ inTable, inTable.find? (fun e => e.2.1 == (n : Int)) = some e ∧ e.2.2.code = n) := by decide +kernel
    obtain ⟨k1, k2⟩ := key n (List.mem_range.2 hn)
    by_cases h45 : n = 4 ∨ n = 5
    · rw [k1 h45]
      constructor
      · intro h
        have := hu hbad h
        cases this
        exact ⟨hn, Or.inr ⟨rfl, h45⟩⟩
      · rintro ⟨_, h | ⟨rfl, _⟩⟩
        · exfalso
          have : ∀ t : InType, t.code ≠ 4 ∧ t.code ≠ 5 := by intro t; cases t <;> decide
          have := this t
          omega
        · exact hbad
    · obtain ⟨e, k4, he, k5⟩ := k2 (by omega)
      rw [he]
      have hk : ItemMeans e.1 (some e.2.2) := by
        have := ItemMeans.known 0 0 e.1 e.2.1 e.2.2 k4
        simpa using this
      constructor
      · intro h
        have := hu hk h
        cases this
        exact ⟨hn, Or.inl k5⟩
      · rintro ⟨_, h | ⟨_, h⟩⟩
        · rw [(C01_inclass_roundtrip e.2.2).2.2.2 t (h.trans k5.symm)]; exact hk
        · exact absurd h h45
  · rw [className, if_neg hn]
    constructor
    · intro h; cases hu .empty h
    · rintro ⟨h, _⟩; exact absurd h hn

theorem className_chars (n : Nat) : ∀ c ∈ className n, c.toNat < 128 ∧ ¬ c.isLower ∧ c ≠ ' ' ∧ c ≠ ',' ∧ c ≠ '\t' ∧ c ≠ '\n' := by
  by_cases hn : n < 34
  · have : ∀ n ∈ List.range 34, ∀ c ∈ className n, c.toNat < 128 ∧ ¬ c.isLower ∧ c ≠ ' ' ∧ c ≠ ',' ∧ c ≠ '\t' ∧ c ≠ '\n' := by
      decide +kernel
    exact this n (List.mem_range.2 hn)
  · rw [className, if_neg hn]; intro c hc; cases hc

theorem joinWith_chars {P : Char → Prop} (hP : P ',') : ∀ ws : List Str, (∀ w ∈ ws, ∀ c ∈ w, P c) → ∀ c ∈ joinWith c!"," ws, P c
  | [], _, c, hc => by cases hc
  | [w], h, c, hc => by
    simp only [joinWith] at hc
    exact h w List.mem_cons_self c hc
  | w :: v :: ws, h, c, hc => by
    have e : joinWith c!"," (w :: v :: ws) = w ++ ',' :: joinWith c!"," (v :: ws) := by simp [joinWith]
    rw [e] at hc
    rcases List.mem_append.1 hc with hc | hc
    · exact h w List.mem_cons_self c hc
    · rcases List.mem_cons.1 hc with rfl | hc
      · exact hP
      · exact joinWith_chars hP (v :: ws) (fun x hx => h x (List.mem_cons_of_mem _ hx)) c hc

theorem codes_chars (ns : List Nat) : ∀ c ∈ joinWith c!"," (ns.map className),
    c.toNat < 128 ∧ ¬ c.isLower ∧ c ≠ ' ' ∧ c ≠ '\t' ∧ c ≠ '\n' := by
  refine joinWith_chars (by decide) _ ?_
  intro w hw c hc
  obtain ⟨n, _, rfl⟩ := List.mem_map.1 hw
  obtain ⟨h1, h2, h3, _, h5, h6⟩ := className_chars n c hc
  exact ⟨h1, h2, h3, h5, h6⟩

theorem squeeze_noBlank {s : Str} (h : ' ' ∉ s) : squeeze s = s := by
  have : splitOn ' ' s = [s] := splitOn_join ' ' [] s (by simpa using h)
  unfold squeeze
  rw [this]

theorem codes_types {ns : List Nat} (hne : ns ≠ []) : IsSet InType.code (InType.asType (joinWith c!"," (ns.map className))) ∧
    ∀ t, t ∈ InType.asType (joinWith c!"," (ns.map className)) ↔
      ∃ n ∈ ns, n < 34 ∧ (t.code = n ∨ (t = .BADTOKEN ∧ (n = 4 ∨ n = 5))) := by
  cases ns with
  | nil => exact absurd rfl hne
  | cons n ns =>
    obtain ⟨S, h1, h2, h3⟩ := C02_read_class_list (className n) (ns.map className) (by
      intro q hq
      rw [← List.map_cons] at hq
      obtain ⟨m, _, rfl⟩ := List.mem_map.1 hq
      exact fun hc => (className_chars m _ hc).2.2.2.1 rfl)
    rw [List.map_cons]
    unfold InType.asType
    rw [h1]
    refine ⟨h2, fun t => ?_⟩
    show t ∈ S ↔ _
    rw [h3]
    constructor
    · rintro ⟨q, hq, h⟩
      rw [← List.map_cons] at hq
      obtain ⟨m, hm, rfl⟩ := List.mem_map.1 hq
      exact ⟨m, hm, (className_item m t).1 h⟩
    · rintro ⟨m, hm, h⟩
      exact ⟨className m, by rw [← List.map_cons]; exact List.mem_map.2 ⟨m, hm, rfl⟩, (className_item m t).2 h⟩

/-- The entry a line of the text stands for. -/
theorem entry_line {icu : Icu} (hk : IcuKeeps icu '\t') (loc : Str) {e : Entry} (hw : '\t' ∉ e.word) (hs : '\t' ∉ e.std) :
    entryOf (canonLine icu loc e.line) =
      ⟨canonLine icu loc e.word, canonLine icu loc e.std, InType.asType (joinWith c!"," (e.codes.map className)), []⟩ := by
  have hc := codes_chars e.codes
  have hsp : splitOn '\t' e.line = [c!"LEXENTRY:", e.word, e.std, joinWith c!"," (e.codes.map className), []] := by
    have : e.line = c!"LEXENTRY:" ++ '\t' :: (e.word ++ '\t' :: (e.std ++ '\t' :: (joinWith c!"," (e.codes.map className) ++ '\t' :: []))) := by
      simp [Entry.line]
    rw [this, splitOn_append _ _ _ (by decide), splitOn_append _ _ _ hw, splitOn_append _ _ _ hs,
      splitOn_append _ _ _ (fun h => (hc _ h).2.2.2.1 rfl)]
    rfl
  have hcl : canonLine icu loc (joinWith c!"," (e.codes.map className)) = joinWith c!"," (e.codes.map className) := by
    have hq := squeeze_noBlank (fun h => (hc _ h).2.2.1 rfl)
    rw [canonLine_plain, hq]
    rw [hq]
    exact isPlain_iff.2 (fun c h => ⟨(hc c h).1, (hc c h).2.1⟩)
  have hnil : canonLine icu loc [] = [] := canonLine_plain (by decide)
  have hf := canonLine_fields hk loc e.line
  rw [hsp] at hf
  simp only [List.map_cons, List.map_nil, canonLine_tag, hcl, hnil] at hf
  unfold entryOf entryFields
  rw [hf]
  simp only [↓reduceIte, List.getD_cons_zero, List.getD_cons_succ]
  have : Attach.asAttach [] = [] := by decide +kernel
  rw [this]

theorem collected_codes {rs : List Record} {es : List Entry} (hc : Collected rs es) {e : Entry} (he : e ∈ es) :
    e.codes ≠ [] ∧ ∀ n, n ∈ e.codes ↔ ∃ r ∈ rs, r.word = e.word ∧ r.std = e.std ∧ r.code = n := by
  have hn : ∀ n, n ∈ e.codes ↔ ∃ r ∈ rs, r.word = e.word ∧ r.std = e.std ∧ r.code = n := by
    intro n
    rw [hc.2.2 e he, List.mem_map]
    constructor
    · rintro ⟨r, hr, rfl⟩
      obtain ⟨hr, h⟩ := List.mem_filter.1 hr
      obtain ⟨a, b⟩ := of_decide_eq_true h
      exact ⟨r, hr, a, b, rfl⟩
    · rintro ⟨r, hr, a, b, rfl⟩
      exact ⟨r, List.mem_filter.2 ⟨hr, decide_eq_true ⟨a, b⟩⟩, rfl⟩
  refine ⟨?_, hn⟩
  obtain ⟨r, hr, a, b⟩ := (hc.2.1 e.word e.std).1 ⟨e, he, rfl, rfl⟩
  intro h
  have := (hn r.code).2 ⟨r, hr, a, b, rfl⟩
  rw [h] at this
  cases this

theorem pagcLex_text {icu : Icu} (hk : IcuKeeps icu '\t') {rs : List Record} {es : List Entry} (hc : Collected rs es)
    (ht : ∀ r ∈ rs, '\t' ∉ r.word ∧ '\t' ∉ r.std) (hn : ∀ r ∈ rs, '\n' ∉ r.word ∧ '\n' ∉ r.std) :
    (∀ l ∈ es.map Entry.line, '\n' ∉ l) ∧
    ((∀ r ∈ rs, r.code ≠ 4 ∧ r.code ≠ 5) → LexText icu (unlines (lexHeader :: es.map Entry.line)) lexHeader
      ((es.map Entry.line).map (fun l => entryOf (canonLine icu c!"en_US" l)))) ∧
    ((∃ h es', LexText icu (unlines (lexHeader :: es.map Entry.line)) h es') → ∀ r ∈ rs, r.code ≠ 4 ∧ r.code ≠ 5) := by
  have hrec : ∀ e ∈ es, ∃ r ∈ rs, r.word = e.word ∧ r.std = e.std := fun e he => (hc.2.1 e.word e.std).1 ⟨e, he, rfl, rfl⟩
  have hlines : ∀ l ∈ es.map Entry.line, '\n' ∉ l := by
    intro l hl
    obtain ⟨e, he, rfl⟩ := List.mem_map.1 hl
    obtain ⟨r, hr, h1, h2⟩ := hrec e he
    obtain ⟨a, b⟩ := hn r hr
    rw [h1] at a
    rw [h2] at b
    have d := fun h => (codes_chars e.codes '\n' h).2.2.2.2 rfl
    simp only [Entry.line, List.mem_append, not_or]
    exact ⟨⟨⟨⟨⟨⟨by decide, a⟩, by decide⟩, b⟩, by decide⟩, d⟩, by decide⟩
  have hsp : splitOn '\n' (unlines (lexHeader :: es.map Entry.line)) = lexHeader :: (es.map Entry.line ++ [[]]) := by
    rw [splitOn_unlines]
    · rfl
    · intro l hl
      rcases List.mem_cons.1 hl with rfl | hl
      · decide
      · exact hlines l hl
  have hloc : headerLocale lexHeader = c!"en_US" := by decide +kernel
  have htypes : ∀ e ∈ es, entryOf (canonLine icu c!"en_US" e.line) = ⟨canonLine icu c!"en_US" e.word, canonLine icu c!"en_US" e.std,
      InType.asType (joinWith c!"," (e.codes.map className)), []⟩ := by
    intro e he
    obtain ⟨r, hr, h1, h2⟩ := hrec e he
    exact entry_line hk _ (h1 ▸ (ht r hr).1) (h2 ▸ (ht r hr).2)
  have hbad : ∀ e ∈ es, InType.BADTOKEN ∈ (entryOf (canonLine icu c!"en_US" e.line)).type ↔ 4 ∈ e.codes ∨ 5 ∈ e.codes := by
    intro e he
    rw [htypes e he]
    simp only
    rw [(codes_types (collected_codes hc he).1).2]
    constructor
    · rintro ⟨n, hn, h34, h | ⟨_, rfl | rfl⟩⟩
      · have : InType.BADTOKEN.code = 99 := rfl
        omega
      · exact Or.inl hn
      · exact Or.inr hn
    · rintro (h | h)
      · exact ⟨4, h, by decide, Or.inr ⟨rfl, Or.inl rfl⟩⟩
      · exact ⟨5, h, by decide, Or.inr ⟨rfl, Or.inr rfl⟩⟩
  refine ⟨hlines, ?_, ?_⟩
  · intro hg
    refine ⟨lexHeader, _, lexHeader, es.map Entry.line ++ [[]], hsp, .plain (by decide), ⟨[], rfl, by simp, ?_⟩, by simp, ?_, ?_⟩
    · exact List.isPrefixOf_iff_prefix.1 (by decide)
    · decide +kernel
    · rw [hloc, linesRead_snoc]
      refine bodyMeans_of ?_
      intro l hl
      obtain ⟨e, he, rfl⟩ := List.mem_map.1 hl
      refine ⟨⟨c!"\t" ++ (e.word ++ c!"\t" ++ e.std ++ c!"\t" ++ joinWith c!"," (e.codes.map className) ++ c!"\t"), by simp [Entry.line]⟩, ?_⟩
      rw [hbad e he]
      intro h
      rcases h with h | h
      · obtain ⟨r, hr, _, _, e4⟩ := ((collected_codes hc he).2 4).1 h
        exact (hg r hr).1 e4
      · obtain ⟨r, hr, _, _, e4⟩ := ((collected_codes hc he).2 5).1 h
        exact (hg r hr).2 e4
  · rintro ⟨h, es', q, qs, q', body, e1, e2, e3, _, _, e6⟩ r hr
    rw [hsp] at e1
    obtain ⟨rfl, rfl⟩ := List.cons.inj e1
    have hq : q' = lexHeader := by
      generalize hx : lexHeader = x at e2
      cases e2 with
      | plain _ => rfl
      | cut _ => cases hx
      | broken _ => cases hx
    subst hq
    obtain ⟨pre, f1, f2, f3⟩ := e3
    have hl : c!"LEXICON:" <+: lexHeader := List.isPrefixOf_iff_prefix.1 (by decide)
    obtain ⟨_, rfl, rfl⟩ := Lexicon.header_unique (pre := []) f1 (by simp) f2 hl f3
    rw [hloc, linesRead_snoc] at e6
    obtain ⟨e, he, h1, h2⟩ := (hc.2.1 r.word r.std).2 ⟨r, hr, rfl, rfl⟩
    have hb := Lexicon.bodyMeans_lines e6 e.line (List.mem_append_left _ (List.mem_map.2 ⟨e, he, rfl⟩))
    rcases hb with hb | ⟨_, hb⟩
    · simp [Entry.line] at hb
    · rw [hbad e he] at hb
      have := ((collected_codes hc he).2 r.code).2 ⟨r, hr, h1.symm, h2.symm, rfl⟩
      exact ⟨fun h4 => hb (Or.inl (h4 ▸ this)), fun h5 => hb (Or.inr (h5 ▸ this))⟩

/-- The text is a lexicon just if no entry has class 4 or 5, the two numbers PAGC gives to no class or to words that are street
types in its rules (C102). -/
theorem C103_loads {icu : Icu} (hk : IcuKeeps icu '\t') {nu : Numbers} (hnu : Exact nu) {matched : Str → Str → Option Bool}
    (hm : MatchesSelf matched) {ls : List Str} {rs : List Record} (h : HasRecords ls rs)
    (hp : ∀ r ∈ rs, ∀ c ∈ r.std, c ∉ special) (hn : ∀ l ∈ ls, '\n' ∉ l) (name : Str) :
    ∃ text, convertLex nu matched ls = some text ∧
      ((∃ l, Lexicon.initialize icu name text = .ok l) ↔ ∀ r ∈ rs, r.code ≠ 4 ∧ r.code ≠ 5) := by
  obtain ⟨es, hc, ht⟩ := convertLex_eq hnu hm h hp
  refine ⟨_, ht, ?_⟩
  have hn' := records_lines h (P := fun c => c ≠ '\n') (fun l hl c hc e => hn l hl (e ▸ hc))
  obtain ⟨_, h1, h2⟩ := pagcLex_text hk hc (records_tabs h) (fun r hr => ⟨fun hx => (hn' r hr).1 _ hx rfl, fun hx => (hn' r hr).2 _ hx rfl⟩)
  constructor
  · rintro ⟨l, hl⟩; exact h2 (C18_only _ _ _ _ hl)
  · intro hg
    obtain ⟨l, hl, _⟩ := C18_loads icu name _ _ _ (h1 hg)
    exact ⟨l, hl⟩

/-- And if it is, it holds for each word and standard word of the file one entry with just the classes given there. The language
of the lexicon is not known, as the script writes a country in its place. -/
theorem C103_lexicon {icu : Icu} (hk : IcuKeeps icu '\t') {nu : Numbers} (hnu : Exact nu) {matched : Str → Str → Option Bool}
    (hm : MatchesSelf matched) {ls : List Str} {rs : List Record} (h : HasRecords ls rs)
    (hp : ∀ r ∈ rs, ∀ c ∈ r.std, c ∉ special) (hn : ∀ l ∈ ls, '\n' ∉ l) {name text : Str} {l : Lexicon}
    (ht : convertLex nu matched ls = some text) (hl : Lexicon.initialize icu name text = .ok l) :
    l.lang = .UNKNOWN ∧ l.locale = c!"en_US" ∧
    ∀ w e, e ∈ l.find w ↔ ∃ r ∈ rs, canonLine icu c!"en_US" r.word = w ∧ e.word = w ∧
      e.stdword = canonLine icu c!"en_US" r.std ∧ e.attached = [] ∧ IsSet InType.code e.type ∧
      ∀ t, t ∈ e.type ↔ ClassOf rs r.word r.std t := by
  obtain ⟨es, hc, ht'⟩ := convertLex_eq hnu hm h hp
  rw [ht] at ht'
  cases ht'
  have hn' := records_lines h (P := fun c => c ≠ '\n') (fun l hl c hc e => hn l hl (e ▸ hc))
  have htab := records_tabs h
  obtain ⟨_, h1, h2⟩ := pagcLex_text hk hc htab (fun r hr => ⟨fun hx => (hn' r hr).1 _ hx rfl, fun hx => (hn' r hr).2 _ hx rfl⟩)
  have hg := h2 (C18_only _ _ _ _ hl)
  obtain ⟨l', hl', _, k1, k2, k3⟩ := C18_loads icu name _ _ _ (h1 hg)
  rw [hl] at hl'
  cases hl'
  refine ⟨by rw [k1]; decide +kernel, by rw [k2]; decide +kernel, ?_⟩
  have hmem : ∀ w e, e ∈ l.find w ↔ e.word = w ∧ ∃ x ∈ es, e = entryOf (canonLine icu c!"en_US" x.line) := by
    intro w e
    rw [k3, List.mem_filter, (C18_dedup _ e).2.1, List.map_map, List.mem_map]
    simp only [decide_eq_true_eq, Function.comp_apply]
    constructor
    · rintro ⟨⟨x, h1, h2⟩, h3⟩; exact ⟨h3, x, h1, h2.symm⟩
    · rintro ⟨h3, x, h1, h2⟩; exact ⟨⟨x, h1, h2.symm⟩, h3⟩
  have hclass : ∀ x ∈ es, ∀ t, t ∈ InType.asType (joinWith c!"," (x.codes.map className)) ↔ ClassOf rs x.word x.std t := by
    intro x hx t
    rw [(codes_types (collected_codes hc hx).1).2]
    constructor
    · rintro ⟨n, hn, h34, h | ⟨_, h45⟩⟩
      · obtain ⟨r, hr, a, b, rfl⟩ := ((collected_codes hc hx).2 n).1 hn
        exact ⟨r, hr, a, b, h34, h⟩
      · obtain ⟨r, hr, a, b, rfl⟩ := ((collected_codes hc hx).2 n).1 hn
        have := hg r hr
        omega
    · rintro ⟨r, hr, a, b, h34, h⟩
      exact ⟨r.code, ((collected_codes hc hx).2 _).2 ⟨r, hr, a, b, rfl⟩, h34, Or.inl h⟩
  intro w e
  rw [hmem]
  constructor
  · rintro ⟨hw, x, hx, he⟩
    obtain ⟨r, hr, a, b⟩ := (hc.2.1 x.word x.std).1 ⟨x, hx, rfl, rfl⟩
    rw [entry_line hk _ (a ▸ (htab r hr).1) (b ▸ (htab r hr).2)] at he
    subst he
    refine ⟨r, hr, by rw [a]; exact hw, hw, by rw [b], rfl, (codes_types (collected_codes hc hx).1).1, ?_⟩
    intro t
    rw [a, b]
    exact hclass x hx t
  · rintro ⟨r, hr, hw1, hw, hs, ha, hset, ht⟩
    obtain ⟨x, hx, a, b⟩ := (hc.2.1 r.word r.std).2 ⟨r, hr, rfl, rfl⟩
    refine ⟨hw, x, hx, ?_⟩
    rw [entry_line hk _ (a ▸ (htab r hr).1) (b ▸ (htab r hr).2)]
    have htypes : e.type = InType.asType (joinWith c!"," (x.codes.map className)) := by
      refine hset.ext (codes_types (collected_codes hc hx).1).1 ?_
      intro t
      rw [ht, hclass x hx, a, b]
    obtain ⟨ew, es, et, ea⟩ := e
    simp only at hw hs ha htypes
    subst ha
    rw [htypes, a, b, hw, hs, hw1]

/-! ### Examples -/

/-- A word is a pattern that only it matches, but for the sign for one or more. -/
def plusMatched (p s : Str) : Option Bool := some (decide (p = s) && !p.contains '+')

theorem plusMatched_self : MatchesSelf plusMatched := by
  intro s hs
  have : '+' ∉ s := fun h => hs _ h (by decide)
  simp [plusMatched, this]

/-- A standard word with a special character need not match itself. When its word comes with a second class, the script prints
a message before the header, and stops printing entries at the place of that word: its entry is lost, and so are all
entries that follow. The rest is loaded without an error. -/
theorem C103_special :
    convertLex plainNumbers plusMatched [c!"1\tZOO\t24\tZOO", c!"2\tAB\t1\tA+B", c!"3\tAB\t2\tA+B", c!"4\tA\t18\tA"] =
      some (c!"Different stdwords for 'AB': 'A+B' vs ''\n" ++ c!"LEXICON:\tpagc-converted\tUSA\ten_US\t\n" ++
        c!"LEXENTRY:\tA\tA\tSINGLE\t\n") ∧
    ∃ l, Lexicon.initialize asciiIcu c!"pagc" (c!"Different stdwords for 'AB': 'A+B' vs ''\n" ++
      c!"LEXICON:\tpagc-converted\tUSA\ten_US\t\n" ++ c!"LEXENTRY:\tA\tA\tSINGLE\t\n") = .ok l ∧
      l.find c!"A" = [⟨c!"A", c!"A", [.SINGLE], []⟩] ∧ l.find c!"AB" = [] ∧ l.find c!"ZOO" = [] := by
  refine ⟨by decide +kernel, ?_⟩
  have h : (match Lexicon.initialize asciiIcu c!"pagc" (c!"Different stdwords for 'AB': 'A+B' vs ''\n" ++
      c!"LEXICON:\tpagc-converted\tUSA\ten_US\t\n" ++ c!"LEXENTRY:\tA\tA\tSINGLE\t\n") with
      | .ok l => decide (l.find c!"A" = [⟨c!"A", c!"A", [.SINGLE], []⟩] ∧ l.find c!"AB" = [] ∧ l.find c!"ZOO" = [])
      | .error _ => false) = true := by decide +kernel
  split at h
  · exact ⟨_, by assumption, of_decide_eq_true h⟩
  · cases h

/-- A file with a heading, a word with two classes, a word with two standard words, and words not in order. -/
def pagcLexLines : List Str := [c!"COPY lex FROM stdin;", c!"1\tSTREET\t2\tST", c!"2\tSAINT\t1\tST", c!"3\tST\t2\tST", c!"4\tST\t7\tST",
  c!"5\tST\t1\tSAINT"]

def pagcRecords : List Record := [⟨c!"STREET", 2, c!"ST"⟩, ⟨c!"SAINT", 1, c!"ST"⟩, ⟨c!"ST", 2, c!"ST"⟩, ⟨c!"ST", 7, c!"ST"⟩,
  ⟨c!"ST", 1, c!"SAINT"⟩]

theorem pagcLexLines_records : HasRecords pagcLexLines pagcRecords := by
  refine .other (by decide +kernel) ?_
  refine .record ⟨c!"1", c!"2", by decide +kernel, by decide, by decide, by decide⟩ ?_
  refine .record ⟨c!"2", c!"1", by decide +kernel, by decide, by decide, by decide⟩ ?_
  refine .record ⟨c!"3", c!"2", by decide +kernel, by decide, by decide, by decide⟩ ?_
  refine .record ⟨c!"4", c!"7", by decide +kernel, by decide, by decide, by decide⟩ ?_
  exact .record ⟨c!"5", c!"1", by decide +kernel, by decide, by decide, by decide⟩ .nil

/-- The file becomes a lexicon. -/
example : ∃ text, convertLex plainNumbers plusMatched pagcLexLines = some text ∧ ∃ l, Lexicon.initialize asciiIcu c!"" text = .ok l := by
  obtain ⟨text, h1, h2⟩ := C103_loads (icu := asciiIcu) (asciiIcu_keeps _ (toUpper_low _ (by decide))) plainNumbers_exact plusMatched_self
    pagcLexLines_records (by decide) (by decide) c!""
  exact ⟨text, h1, h2.2 (by decide)⟩

/-- What it becomes: the word with two classes has one line, the word with two standard words has two. -/
example : convertLex plainNumbers plusMatched pagcLexLines = some (unlines [c!"LEXICON:\tpagc-converted\tUSA\ten_US\t",
    c!"LEXENTRY:\tSAINT\tST\tWORD\t", c!"LEXENTRY:\tST\tSAINT\tWORD\t", c!"LEXENTRY:\tST\tST\tTYPE,STOPWORD\t",
    c!"LEXENTRY:\tSTREET\tST\tTYPE\t"]) := by decide +kernel

/-- With a street type of the rules it does not. -/
example : ∃ text, convertLex plainNumbers plusMatched [c!"1\tST\t5\tST"] = some text ∧ ¬ ∃ l, Lexicon.initialize asciiIcu c!"" text = .ok l := by
  have h : HasRecords [c!"1\tST\t5\tST"] [⟨c!"ST", 5, c!"ST"⟩] := .record ⟨c!"1", c!"5", by decide +kernel, by decide, by decide, by decide⟩ .nil
  obtain ⟨text, h1, h2⟩ := C103_loads (icu := asciiIcu) (asciiIcu_keeps _ (toUpper_low _ (by decide))) plainNumbers_exact plusMatched_self
    h (by decide) (by decide) c!""
  exact ⟨text, h1, fun hl => absurd (h2.1 hl) (by decide)⟩

end AS.Props
