import Verif.Lemmas.Joint
import Verif.Lemmas.Synonym
import Verif.Props.Further
import Verif.Props.Parts
/-
C96: words that stand for one another.
-/
namespace AS.Props
open AS AS.Tokenizer AS.Wrapper
variable {F D : Type}

theorem joint_words {u : UTables} {words words' : List Str} (hw : ∀ w, w ∈ words ↔ w ∈ words') {a g b : Str}
    (h : Joint u words a g b) : Joint u words' a g b :=
  ⟨h.before, h.nonempty, h.seps, h.after, h.line, h.decimal, fun x y z e h1 h2 hm => h.across x y z e h1 h2 ((hw _).2 hm)⟩

theorem alone_words {u : UTables} {words words' : List Str} (hw : ∀ w, w ∈ words ↔ w ∈ words') {a g v g' b : Str}
    (h : StandsAlone u words a g v g' b) : StandsAlone u words' a g v g' b :=
  ⟨h.first, h.left.imp id (joint_words hw), h.right.imp id (joint_words hw)⟩

theorem splits_exists (u : UTables) {l : Lexicon} {x : LexRe} (hl : PlainLexicon u l) (hx : x.For u l) (s : Str) :
    ∃ rs last, SplitsInto u (lexWords l) s rs last := by
  obtain ⟨rs', rest', qs, h1, h2, _⟩ := rounds_spec u x _ s (Nat.le_refl _)
  exact ⟨_, _, rounds_splits hl hx h2⟩

/-- The token that separators become. -/
def sepToken (u : UTables) (l : Lexicon) (g : Str) : Token := l.classify u ((Token.ofText g).trim 3) .PUNCT

theorem roundTokens_sep {u : UTables} {l : Lexicon} {x : LexRe} {g : Str} (hg : g ≠ []) {r : Round} (hr : r.sep = []) :
    roundTokens u l x { r with sep := g } = roundTokens u l x r ++ [sepToken u l g] := by
  unfold roundTokens sepToken
  simp only [hr, ne_eq, hg, not_false_eq_true, if_true, not_true_eq_false, if_false]
  simp

/-! ## C96 -/

/-- The tokens of a text with separators that nothing reaches across are those of the text before them, one for the separators,
and those of the text behind them; if the tokenizer gives up before them, they are those of the text before them only. -/
theorem C96_tokens (icu : Icu) (u : UTables) (l : Lexicon) (x : LexRe) (filter : List InType) (str strA strB g : Str)
    (hl : PlainLexicon u l) (hx : x.For u l) (hne : ∃ w ∈ lexWords l, w ≠ [])
    (hj : Joint u (lexWords l) (icu.upper l.locale (icu.norm strA)) g (icu.upper l.locale (icu.norm strB)))
    (htext : icu.upper l.locale (icu.norm str) =
      icu.upper l.locale (icu.norm strA) ++ (g ++ icu.upper l.locale (icu.norm strB))) :
    ∃ ta tb, getTokens icu u l x filter strA = some ta ∧ getTokens icu u l x filter strB = some tb ∧
      (WhollyRead u (lexWords l) (icu.upper l.locale (icu.norm strA)) →
        getTokens icu u l x filter str = some (ta ++ applyFilter filter [sepToken u l g] ++ tb)) ∧
      (¬ WhollyRead u (lexWords l) (icu.upper l.locale (icu.norm strA)) → getTokens icu u l x filter str = some ta) := by
  obtain ⟨ra, la, h1, e1⟩ := getTokens_spec icu u l x filter strA
  obtain ⟨rb, lb, h2, e2⟩ := getTokens_spec icu u l x filter strB
  have h1 := rounds_splits hl hx h1
  have h2 := rounds_splits hl hx h2
  rw [show prepare icu l strA = icu.upper l.locale (icu.norm strA) from rfl] at h1
  rw [show prepare icu l strB = icu.upper l.locale (icu.norm strB) from rfl] at h2
  obtain ⟨s1, s2⟩ := splits_joint hne hj h1
  refine ⟨_, _, e1, e2, fun hw => ?_, fun hw => ?_⟩
  · obtain ⟨rs, hw⟩ := hw
    have hla := (splitsInto_unique h1 hw).2
    obtain ⟨pre, r, rfl, hr, s2⟩ := s2 hla
    have s := s2 _ _ h2
    rw [← htext] at s
    rw [tokens_split hl hx filter s]
    simp only [List.flatMap_append, List.flatMap_cons, List.flatMap_nil, List.append_nil, roundTokens_sep hj.nonempty hr,
      applyFilter_append, List.append_assoc]
  · have s := s1 (fun h0 => hw ⟨ra, h0 ▸ h1⟩)
    rw [← htext] at s
    rw [tokens_split hl hx filter s]

theorem trim_front {b p : Str} (hp : p ≠ []) (hb : ∀ c ∈ b, c = ' ') :
    (({ text := b ++ p } : Token).trim 3) = ({ text := p } : Token).trim 3 := by
  have h1 : 0 < p.length := List.length_pos_iff.2 hp
  have h2 : 0 < (b ++ p).length := by rw [List.length_append]; omega
  have e : (b ++ p).dropWhile Token.isTrimmed = p.dropWhile Token.isTrimmed := by
    rw [List.dropWhile_append, dropWhile_all (fun c hc => by rw [hb c hc]; decide)]
    rfl
  have n : (3 : Int) ≠ 2 := by decide
  unfold Token.trim
  simp only [h1, h2, if_true, e, if_pos n]

theorem trim_spaces {b : Str} (h0 : b ≠ []) (hb : ∀ c ∈ b, c = ' ') : (({ text := b } : Token).trim 3) = { text := c!" " } := by
  have hb1 : b.dropWhile Token.isTrimmed = [] := dropWhile_all fun c hc => by rw [hb c hc]; decide
  have : 0 < b.length := List.length_pos_iff.2 h0
  unfold Token.trim
  simp [this, hb1]

theorem sepToken_same {u : UTables} {l : Lexicon} {g g' : Str} (hg : g ≠ []) (hg' : g' ≠ []) (htab : '\t' ∉ g ++ g')
    (h : SameButSpaces g g') : sepToken u l g' = sepToken u l g := by
  obtain ⟨m, b₁, b₂, b₃, b₄, e, e', hb⟩ := h
  have h1 : ∀ c ∈ b₁, c = ' ' := fun c hc => hb c (by simp [hc])
  have h2 : ∀ c ∈ b₂, c = ' ' := fun c hc => hb c (by simp [hc])
  have h3 : ∀ c ∈ b₃, c = ' ' := fun c hc => hb c (by simp [hc])
  have h4 : ∀ c ∈ b₄, c = ' ' := fun c hc => hb c (by simp [hc])
  unfold sepToken
  rw [ofText_plain (fun hc => htab (List.mem_append_left _ hc)), ofText_plain (fun hc => htab (List.mem_append_right _ hc))]
  by_cases hm : m = []
  · rw [trim_spaces hg, trim_spaces hg']
    · intro c hc
      rw [e', hm, List.append_nil] at hc
      exact (List.mem_append.1 hc).elim (h3 c) (h4 c)
    · intro c hc
      rw [e, hm, List.append_nil] at hc
      exact (List.mem_append.1 hc).elim (h1 c) (h2 c)
  · rw [e, e', trim_blanks (by simp [hm]) h2, trim_blanks (by simp [hm]) h4, trim_front hm h1, trim_front hm h3]

/-- The words of the lexicon that a text gives. -/
theorem words_of {l : Lexicon} {es : List LexEntry} (H : Lexicon.Holds l (held (es.map LexOp.ins))) (w : Str) :
    w ∈ lexWords l ↔ w ∈ es.map (·.word) := by
  unfold lexWords; rw [H.key_iff]; simp only [mem_heldIns, List.mem_map]

/-- Two addresses that differ in the number of spaces only, at a place that no word of the lexicon, decimal or fraction reaches
across, have the same results, whether spaces are filtered or not. The spaces may stand around further separators. -/
theorem C96_spacing (env : Env F D) (hread : ReadsPatterns env) (text h : Str) (es : List LexEntry)
    (ha : env.archive text = .notArchive) (ht : LexText env.icu text h es)
    (hp : ∀ e ∈ es, ∀ c ∈ e.word, c ∉ unescaped ∧ env.u.canon c = c) (hne : ∃ e ∈ es, e.word ≠ [])
    (address address' grammar locale filter a g g' b : Str)
    (hj : Joint env.u (es.map (·.word)) a g b) (hj' : Joint env.u (es.map (·.word)) a g' b) (htab : '\t' ∉ g ++ g')
    (hs : SameButSpaces g g')
    (htext : textFor env locale (headerLocale h) address = a ++ (g ++ b))
    (htext' : textFor env locale (headerLocale h) address' = a ++ (g' ++ b)) :
    stdStandardize env address' grammar text locale filter = stdStandardize env address grammar text locale filter ∧
    stdParseAddress env address' text locale filter = stdParseAddress env address text locale filter ∧
    stdMatchAddress env address' grammar text locale filter = stdMatchAddress env address grammar text locale filter := by
  refine same_of_tokens (fun l hl => ?_) grammar
  obtain ⟨l', h1, h2, H, C⟩ := loadLexicon_text ha ht
  rw [hl] at h1; cases h1
  have hpl : PlainLexicon env.u l := plain_of H hp
  have hx := lexRe_for hread hpl C
  have hne' : ∃ w ∈ lexWords l, w ≠ [] := by
    obtain ⟨e, he, hw⟩ := hne
    exact ⟨e.word, (words_of H _).2 (List.mem_map.2 ⟨e, he, rfl⟩), hw⟩
  have hj := joint_words (fun w => (words_of H w).symm) hj
  have hj' := joint_words (fun w => (words_of H w).symm) hj'
  unfold textFor at htext htext'
  rw [← h2] at htext htext'
  obtain ⟨ra, la, sa⟩ := splits_exists env.u hpl hx a
  obtain ⟨rb, lb, sb⟩ := splits_exists env.u hpl hx b
  by_cases hla : la = []
  · obtain ⟨pre, r, e1, e2, e3⟩ := (splits_joint hne' hj sa).2 hla
    obtain ⟨pre', r', e1', e2', e3'⟩ := (splits_joint hne' hj' sa).2 hla
    obtain ⟨rfl, e4⟩ := List.append_inj' (e1.symm.trans e1') rfl
    cases e4
    have k := e3 _ _ sb
    have k' := e3' _ _ sb
    rw [← htext] at k
    rw [← htext'] at k'
    rw [tokens_split hpl hx _ k, tokens_split hpl hx _ k']
    simp only [List.flatMap_append, List.flatMap_cons, roundTokens_sep hj.nonempty e2, roundTokens_sep hj'.nonempty e2,
      sepToken_same hj.nonempty hj'.nonempty htab hs]
  · have k := (splits_joint hne' hj sa).1 hla
    have k' := (splits_joint hne' hj' sa).1 hla
    rw [← htext] at k
    rw [← htext'] at k'
    rw [tokens_split hpl hx _ k, tokens_split hpl hx _ k']

/-! ### Synonyms -/

theorem standard_find {l : Lexicon} {es : List LexEntry} (H : Lexicon.Holds l (held (es.map LexOp.ins))) (v : Str) (c : InType)
    (cs : List InType) : Lexicon.stdLoop (c :: cs) (l.find v) = some (standardOf es v c) := by
  rw [stdLoop_find, H.find, List.find?_filter, find_held]
  unfold standardOf
  simp only [Bool.decide_and, Bool.decide_eq_true]

theorem wordToken_listed {u : UTables} {l : Lexicon} {es : List LexEntry} (H : Lexicon.Holds l (held (es.map LexOp.ins))) {v : Str}
    (htab : '\t' ∉ v) (hc : ∃ c, standardOf es v c ≠ none) : ∃ cs, IsSet InType.code cs ∧ cs ≠ [] ∧
      (∀ c, c ∈ cs ↔ standardOf es v c ≠ none) ∧ wordToken u l v = { text := v, inclass := cs, inlex := true } := by
  have hmem : ∀ c, c ∈ (Lexicon.addTypes (l.find v) { text := v }).inclass ↔ standardOf es v c ≠ none := by
    intro c
    rw [mem_addTypes, ← Option.isSome_iff_ne_none, standardOf_some, H.find]
    constructor
    · rintro (h | ⟨e, he, h⟩)
      · cases h
      · obtain ⟨h1, h2⟩ := List.mem_filter.1 he
        exact ⟨e, (mem_heldIns es e).1 h1, by simpa using h2, h⟩
    · rintro ⟨e, he, h1, h2⟩
      exact Or.inr ⟨e, List.mem_filter.2 ⟨(mem_heldIns es e).2 he, by simpa using h1⟩, h2⟩
  obtain ⟨c, hc⟩ := hc
  have hne : (Lexicon.addTypes (l.find v) { text := v }).inclass ≠ [] := List.ne_nil_of_mem ((hmem c).2 hc)
  refine ⟨_, isSet_addTypes (l.find v) (t := { text := v }) List.Pairwise.nil, hne, hmem, ?_⟩
  unfold wordToken Lexicon.classify
  rw [ofText_plain htab]
  simp only
  rw [if_pos (by simpa using hne), addTypes_rest]

/-- The tokens of two synonyms. -/
theorem wordTokens_alike {u : UTables} {l : Lexicon} {es : List LexEntry} (H : Lexicon.Holds l (held (es.map LexOp.ins)))
    {v w : Str} (hs : Synonyms es v w) : Replaced l v w (wordToken u l v) (wordToken u l w) ∧ (wordToken u l v).inlex = true := by
  have hv : '\t' ∉ v := fun hc => (hs.blanks _ (List.mem_append_left _ hc)).2 rfl
  have hw : '\t' ∉ w := fun hc => (hs.blanks _ (List.mem_append_right _ hc)).2 rfl
  obtain ⟨cs, h1, h2, h3, h4⟩ := wordToken_listed (u := u) H hv hs.classed
  obtain ⟨ds, k1, k2, k3, k4⟩ := wordToken_listed (u := u) H hw (by
    obtain ⟨c, hc⟩ := hs.classed
    exact ⟨c, by rw [← hs.standard]; exact hc⟩)
  have : ds = cs := IsSet.ext k1 h1 fun c => by rw [k3, h3, hs.standard]
  subst this
  rw [h4, k4]
  refine ⟨Or.inr ⟨rfl, rfl, h2, fun c hc => ?_⟩, rfl⟩
  obtain ⟨s, hcs⟩ := Option.ne_none_iff_exists'.1 ((h3 c).1 hc)
  refine ⟨s, fun h0 => hs.named c (by rw [hcs, h0]), fun ds => ?_⟩
  rw [standard_find H, standard_find H, ← hs.standard, hcs]
  exact ⟨rfl, rfl⟩

theorem along_refl {Q : Str → InType → Prop} {v w : Str} : ∀ ts : List Token, Along (Swapped Q v w) ts ts
  | [] => .nil
  | _ :: ts => .cons (Or.inl rfl) (along_refl ts)

theorem roundTokens_alike {u : UTables} {l : Lexicon} {x : LexRe} {es : List LexEntry}
    (H : Lexicon.Holds l (held (es.map LexOp.ins))) {v w s : Str} (hv : v ≠ []) (hw : w ≠ []) (hs : Synonyms es v w) :
    Along (Replaced l v w) (roundTokens u l x ⟨[], [], v, s⟩) (roundTokens u l x ⟨[], [], w, s⟩) := by
  obtain ⟨h1, h2⟩ := wordTokens_alike (u := u) H hs
  have h3 : (wordToken u l w).inlex = true := by
    rcases h1 with h1 | ⟨_, h1, _⟩ <;> rw [h1] <;> exact h2
  unfold roundTokens
  simp only [ne_eq, hv, hw, not_false_eq_true, if_true, h2, h3]
  exact .cons h1 (along_refl _)

/-- The alternatives of two addresses that differ in a word that is read as a whole. -/
theorem phrases_swapped {Q : Str → InType → Prop} {env : Env F D} {l : Lexicon} {x : LexRe} (hpl : PlainLexicon env.u l)
    (hx : x.For env.u l) (hxl : lexRe env l = x) (hne : ∃ w ∈ lexWords l, w ≠ []) {address address' locale filter a g v w g' b : Str}
    (hv : StandsAlone env.u (lexWords l) a g v g' b) (hw : StandsAlone env.u (lexWords l) a g w g' b)
    (sv : SplitsInto env.u (lexWords l) v [⟨[], [], v, []⟩] []) (sw : SplitsInto env.u (lexWords l) w [⟨[], [], w, []⟩] [])
    (hblank : ∀ c ∈ v ++ w, c ≠ ' ')
    (halike : ∀ s, Along (Swapped Q v w) (roundTokens env.u l x ⟨[], [], v, s⟩) (roundTokens env.u l x ⟨[], [], w, s⟩))
    (htext : env.icu.upper l.locale (env.icu.norm (env.icu.upper locale (env.icu.norm address))) = a ++ (g ++ (v ++ (g' ++ b))))
    (htext' : env.icu.upper l.locale (env.icu.norm (env.icu.upper locale (env.icu.norm address'))) = a ++ (g ++ (w ++ (g' ++ b)))) :
    (phrasesOf env l locale filter address = .undefined ∧ phrasesOf env l locale filter address' = .undefined) ∨
    ∃ ps ps', phrasesOf env l locale filter address = .ok ps ∧ phrasesOf env l locale filter address' = .ok ps' ∧
      Along (Along (Swapped Q v w)) ps ps' := by
  subst hxl
  have toks : ∃ ts ts', getTokens env.icu env.u l (lexRe env l) (InType.asType filter)
        (env.icu.upper locale (env.icu.norm address)) = some ts ∧
      getTokens env.icu env.u l (lexRe env l) (InType.asType filter) (env.icu.upper locale (env.icu.norm address')) = some ts' ∧
      Along (Swapped Q v w) ts ts' := by
    rcases splits_alone hne sv sw hv hw (splits_exists env.u hpl hx b)
      (splits_exists env.u hpl hx a) with ⟨rs, la, la', k, k'⟩ | ⟨pre, s, post, la, k, k'⟩
    · rw [← htext] at k
      rw [← htext'] at k'
      exact ⟨_, _, tokens_split hpl hx _ k, tokens_split hpl hx _ k', along_refl _⟩
    · rw [← htext] at k
      rw [← htext'] at k'
      refine ⟨_, _, tokens_split hpl hx _ k, tokens_split hpl hx _ k', applyFilter_replaced _ ?_⟩
      simp only [List.flatMap_append, List.flatMap_cons]
      exact (along_refl _).append ((halike s).append (along_refl _))
  obtain ⟨ts, ts', e1, e2, e3⟩ := toks
  have one : ∀ z, (∀ c ∈ z, c ≠ ' ') → (splitBlanks false [] z).length = 1 := by
    intro z hz
    rw [splitBlanks_eq, splitBlanks_plain (fun hc => hz _ hc rfl)]
    rfl
  unfold phrasesOf
  simp only [e1, e2]
  rcases getAltTokens_replaced env.u l (one v fun c hc => hblank c (List.mem_append_left _ hc))
    (one w fun c hc => hblank c (List.mem_append_right _ hc)) e3 with ⟨k1, k2⟩ | ⟨as, as', k1, k2, k3⟩
  · rw [k1, k2]; exact Or.inl ⟨rfl, rfl⟩
  · rw [k1, k2]; exact Or.inr ⟨_, _, rfl, rfl, .cons e3 k3⟩

/-- The alternatives of two addresses that differ in a word. -/
theorem phrases_alike {env : Env F D} (hread : ReadsPatterns env) {text h : Str} {es : List LexEntry}
    (ha : env.archive text = .notArchive) (ht : LexText env.icu text h es)
    (hp : ∀ e ∈ es, ∀ c ∈ e.word, c ∉ unescaped ∧ env.u.canon c = c) {address address' locale filter a g v w g' b : Str}
    (hs : Synonyms es v w) (hv : StandsAlone env.u (es.map (·.word)) a g v g' b)
    (hw : StandsAlone env.u (es.map (·.word)) a g w g' b)
    (htext : textFor env locale (headerLocale h) address = a ++ (g ++ (v ++ (g' ++ b))))
    (htext' : textFor env locale (headerLocale h) address' = a ++ (g ++ (w ++ (g' ++ b)))) {l : Lexicon}
    (hl : loadLexicon env text = .ok l) :
    (phrasesOf env l locale filter address = .undefined ∧ phrasesOf env l locale filter address' = .undefined) ∨
    ∃ ps ps', phrasesOf env l locale filter address = .ok ps ∧ phrasesOf env l locale filter address' = .ok ps' ∧
      Along (Along (Replaced l v w)) ps ps' := by
  obtain ⟨l', h1, h2, H, C⟩ := loadLexicon_text ha ht
  rw [hl] at h1; cases h1
  have hpl : PlainLexicon env.u l := plain_of H hp
  have hx := lexRe_for hread hpl C
  have hkey := fun w => (words_of H w).symm
  have listed : ∀ z, (∃ c, standardOf es z c ≠ none) → z.map env.u.canon ∈ lexWords l := by
    rintro z ⟨c, hc⟩
    rw [← Option.isSome_iff_ne_none, standardOf_some] at hc
    obtain ⟨e, he, rfl, _⟩ := hc
    have : e.word.map env.u.canon = e.word := by
      rw [List.map_congr_left (g := id) fun c hc => (hp e he c hc).2, List.map_id]
    rw [this]
    exact (words_of H _).2 (List.mem_map.2 ⟨e, he, rfl⟩)
  have hvw := listed v hs.classed
  have hww := listed w (by
    obtain ⟨c, hc⟩ := hs.classed
    exact ⟨c, by rw [← hs.standard]; exact hc⟩)
  have hv0 : v ≠ [] := by
    obtain ⟨c, hc, _⟩ := hv.first
    rintro rfl; cases hc
  have hw0 : w ≠ [] := by
    obtain ⟨c, hc, _⟩ := hw.first
    rintro rfl; cases hc
  have hne : ∃ w ∈ lexWords l, w ≠ [] := ⟨_, hvw, by simpa using hv0⟩
  unfold textFor at htext htext'
  rw [← h2] at htext htext'
  exact phrases_swapped hpl hx rfl hne (alone_words hkey hv) (alone_words hkey hw) (splits_word hvw hv.first)
    (splits_word hww hw.first) (fun c hc => (hs.blanks c hc).1) (fun s => roundTokens_alike H hv0 hw0 hs) htext htext'

/-- Two addresses that differ in a word that stands alone, where the lexicon treats both words alike, are standardized and
matched alike. -/
theorem C96_synonym (env : Env F D) (hread : ReadsPatterns env) (text h : Str) (es : List LexEntry)
    (ha : env.archive text = .notArchive) (ht : LexText env.icu text h es)
    (hp : ∀ e ∈ es, ∀ c ∈ e.word, c ∉ unescaped ∧ env.u.canon c = c) (address address' grammar locale filter a g v w g' b : Str)
    (hs : Synonyms es v w) (hv : StandsAlone env.u (es.map (·.word)) a g v g' b)
    (hw : StandsAlone env.u (es.map (·.word)) a g w g' b)
    (htext : textFor env locale (headerLocale h) address = a ++ (g ++ (v ++ (g' ++ b))))
    (htext' : textFor env locale (headerLocale h) address' = a ++ (g ++ (w ++ (g' ++ b)))) :
    stdStandardize env address' grammar text locale filter = stdStandardize env address grammar text locale filter ∧
    stdMatchAddress env address' grammar text locale filter = stdMatchAddress env address grammar text locale filter := by
  unfold stdStandardize stdMatchAddress
  cases loadGrammar env grammar with
  | undefined => exact ⟨rfl, rfl⟩
  | throws m => exact ⟨rfl, rfl⟩
  | ok G =>
    cases hl : loadLexicon env text with
    | undefined => exact ⟨rfl, rfl⟩
    | throws m => exact ⟨rfl, rfl⟩
    | ok l =>
      simp only
      unfold standardizeAddr matchAddr
      rcases phrases_alike (filter := filter) hread ha ht hp hs hv hw htext htext' hl with ⟨k1, k2⟩ | ⟨ps, ps', k1, k2, k3⟩
      · rw [k1, k2]; exact ⟨rfl, rfl⟩
      · rw [k1, k2]
        constructor
        · unfold standardizeAddrWith searchAndReclassBestOf
          simp only
          rcases bestPhrases_replaced G env.fo k3 (b := { tokens := [], score := env.fo.ofInt (-1), matched := some [], nrules := env.fo.ofInt (-1) })
            (b' := { tokens := [], score := env.fo.ofInt (-1), matched := some [], nrules := env.fo.ofInt (-1) }) ⟨rfl, .nil⟩ with ⟨q1, q2⟩ | ⟨m, q1, q2⟩ | ⟨r, r', q1, q2, q3, q4⟩
          · rw [q1, q2]
          · rw [q1, q2]
          · rw [q1, q2]
            simp only
            have e1 : r'.score = r.score := by rw [q3]
            have e2 : r'.matched = r.matched := by rw [q3]
            rw [e1, e2, collect_replaced q4]
        · unfold matchAddrWith searchAndReclassAll
          simp only [rowsOfAll_replaced G env.dops env.widen k3]

/-- They are also parsed alike: the rows differ in the word only. -/
theorem C96_rows (env : Env F D) (hread : ReadsPatterns env) (text h : Str) (es : List LexEntry)
    (ha : env.archive text = .notArchive) (ht : LexText env.icu text h es)
    (hp : ∀ e ∈ es, ∀ c ∈ e.word, c ∉ unescaped ∧ env.u.canon c = c) (address address' locale filter a g v w g' b : Str)
    (hs : Synonyms es v w) (hv : StandsAlone env.u (es.map (·.word)) a g v g' b)
    (hw : StandsAlone env.u (es.map (·.word)) a g w g' b)
    (htext : textFor env locale (headerLocale h) address = a ++ (g ++ (v ++ (g' ++ b))))
    (htext' : textFor env locale (headerLocale h) address' = a ++ (g ++ (w ++ (g' ++ b)))) :
    stdParseAddress env address' text locale filter = stdParseAddress env address text locale filter ∨
    ∃ rows rows', stdParseAddress env address text locale filter = some ⟨some rows, none⟩ ∧
      stdParseAddress env address' text locale filter = some ⟨some rows', none⟩ ∧ Along (WordReplaced v w) rows rows' := by
  unfold stdParseAddress
  cases hl : loadLexicon env text with
  | undefined => exact Or.inl rfl
  | throws m => exact Or.inl rfl
  | ok l =>
    simp only
    unfold parseAddr
    rcases phrases_alike (filter := filter) hread ha ht hp hs hv hw htext htext' hl with ⟨k1, k2⟩ | ⟨ps, ps', k1, k2, k3⟩
    · rw [k1, k2]; exact Or.inl rfl
    · rw [k1, k2]
      unfold parseAddrWith
      simp only [parseCount_replaced k3, k3.length]
      split
      · exact Or.inl rfl
      · split
        · exact Or.inl rfl
        · exact Or.inr ⟨_, _, rfl, rfl, parseLoop_replaced k3 0 0⟩

/-! ### Examples -/

def eStreet : LexEntry := ⟨c!"STREET", c!"STRASSE", [.TYPE], []⟩
def eYork : LexEntry := ⟨c!"YORK", c!"YORK", [.CITY], []⟩
def eEbor : LexEntry := ⟨c!"EBORACUM", c!"YORK", [.CITY], []⟩

/-- A lexicon with words that stand for one another. -/
def synText : Str := unlines [c!"LEXICON:\tT\tENG\ten\t2", c!"LEXENTRY:\tNEW YORK\tNY\tCITY\t",
  c!"LEXENTRY:\tSTR\tSTRASSE\tTYPE\t", c!"LEXENTRY:\tSTREET\tSTRASSE\tTYPE\t", c!"LEXENTRY:\tYORK\tYORK\tCITY\t",
  c!"LEXENTRY:\tEBORACUM\tYORK\tCITY\t"]

def synEntries : List LexEntry := [eNY, eStr, eStreet, eYork, eEbor]

theorem synText_means : LexText asciiIcu synText c!"LEXICON:\tT\tENG\ten\t2" synEntries := by
  refine ⟨_, _, c!"LEXICON:\tT\tENG\ten\t2", _, rfl, .plain (by decide), ⟨[], rfl, by decide, by decide⟩, by decide, by decide +kernel, ?_⟩
  exact .entry (l := c!"LEXENTRY:\tNEW YORK\tNY\tCITY\t") (Or.inl (by decide)) (by decide +kernel)
    (.entry (l := c!"LEXENTRY:\tSTR\tSTRASSE\tTYPE\t") (Or.inl (by decide)) (by decide +kernel)
      (.entry (l := c!"LEXENTRY:\tSTREET\tSTRASSE\tTYPE\t") (Or.inl (by decide)) (by decide +kernel)
        (.entry (l := c!"LEXENTRY:\tYORK\tYORK\tCITY\t") (Or.inl (by decide)) (by decide +kernel)
          (.entry (l := c!"LEXENTRY:\tEBORACUM\tYORK\tCITY\t") (Or.inl (by decide)) (by decide +kernel) (.blank .nil)))))

/-- Whether a word of the list reaches across, by going through the parts of the text. -/
theorem across_of {words : List Str} {u : UTables} {a g b : Str}
    (h : ∀ i < a.length, ∀ j ≤ (a ++ g ++ b).length, a.length < j → (((a ++ g ++ b).take j).drop i).map u.canon ∉ words) :
    ∀ x y z, a ++ g ++ b = x ++ y ++ z → x.length < a.length → a.length < x.length + y.length → y.map u.canon ∉ words := by
  intro x y z e h1 h2
  have := h x.length h1 (x.length + y.length) (by rw [e]; simp only [List.length_append]; omega) h2
  rw [e, show x.length + y.length = (x ++ y).length by simp, List.take_left' rfl, List.drop_left' rfl] at this
  exact this

instance (u : UTables) (c : Char) : Decidable (SepChar u c) := by unfold SepChar; infer_instance

theorem ascii_space {words : List Str} {a g b : Str} (hg : g ≠ [] ∧ ∀ c ∈ g, c = ' ') (ha : ∃ c, a.getLast? = some c ∧ ¬ SepChar asciiU c)
    (hb : ∃ c, b.head? = some c ∧ ¬ SepChar asciiU c) (hl : ∀ c ∈ a ++ g ++ b, lineSeparator c = false)
    (h : ∀ i < a.length, ∀ j ≤ (a ++ g ++ b).length, a.length < j → (((a ++ g ++ b).take j).drop i).map asciiU.canon ∉ words) :
    Joint asciiU words a g b := by
  refine ⟨ha, hg.1, fun c hc => by rw [hg.2 c hc]; decide, fun c hc => ?_, hl, ?_, across_of h⟩
  · obtain ⟨d, hd, hs⟩ := hb
    rw [hd] at hc; cases hc
    exact hs
  · intro x c d e hx
    have := hg.2 x (by rw [e]; simp)
    subst this
    exact absurd hx (by decide)

theorem syn_synonyms : Synonyms synEntries c!"STR" c!"STREET" ∧ Synonyms synEntries c!"YORK" c!"EBORACUM" := by
  refine ⟨⟨⟨.TYPE, by decide +kernel⟩, ?_, ?_, by decide⟩, ⟨⟨.CITY, by decide +kernel⟩, ?_, ?_, by decide⟩⟩ <;>
    intro c <;> cases c <;> decide +kernel

theorem syn_plain : ∀ e ∈ synEntries, ∀ c ∈ e.word, c ∉ unescaped ∧ asciiU.canon c = c := by decide +kernel

/-- In `12 MAIN STR NEW YORK` and `12 MAIN STREET NEW YORK` the words stand alone. -/
example : ReadsPatterns readingEnv ∧ LexText readingEnv.icu synText c!"LEXICON:\tT\tENG\ten\t2" synEntries ∧
    readingEnv.archive synText = .notArchive ∧
    (∀ e ∈ synEntries, ∀ c ∈ e.word, c ∉ unescaped ∧ readingEnv.u.canon c = c) ∧ Synonyms synEntries c!"STR" c!"STREET" ∧
    StandsAlone readingEnv.u (synEntries.map (·.word)) c!"12 MAIN" c!" " c!"STR" c!" " c!"NEW YORK" ∧
    StandsAlone readingEnv.u (synEntries.map (·.word)) c!"12 MAIN" c!" " c!"STREET" c!" " c!"NEW YORK" ∧
    textFor readingEnv c!"en" (headerLocale c!"LEXICON:\tT\tENG\ten\t2") c!"12 Main Str new york" =
      c!"12 MAIN" ++ (c!" " ++ (c!"STR" ++ (c!" " ++ c!"NEW YORK"))) ∧
    textFor readingEnv c!"en" (headerLocale c!"LEXICON:\tT\tENG\ten\t2") c!"12 Main Street new york" =
      c!"12 MAIN" ++ (c!" " ++ (c!"STREET" ++ (c!" " ++ c!"NEW YORK"))) := by
  refine ⟨readingEnv_reads, synText_means, rfl, syn_plain, syn_synonyms.1, ?_, ?_, rfl, rfl⟩
  · exact ⟨⟨'S', rfl, by decide⟩, Or.inr (ascii_space (by decide) ⟨'N', rfl, by decide⟩ ⟨'S', rfl, by decide⟩ (by decide)
      (by decide +kernel)), Or.inr (ascii_space (by decide) ⟨'R', rfl, by decide⟩ ⟨'N', rfl, by decide⟩ (by decide)
      (by decide +kernel))⟩
  · exact ⟨⟨'S', rfl, by decide⟩, Or.inr (ascii_space (by decide) ⟨'N', rfl, by decide⟩ ⟨'S', rfl, by decide⟩ (by decide)
      (by decide +kernel)), Or.inr (ascii_space (by decide) ⟨'T', rfl, by decide⟩ ⟨'N', rfl, by decide⟩ (by decide)
      (by decide +kernel))⟩

/-- One space and three, or a comma with and without spaces. -/
example : Joint readingEnv.u (synEntries.map (·.word)) c!"12 MAIN" c!" " c!"STR" ∧
    Joint readingEnv.u (synEntries.map (·.word)) c!"12 MAIN" c!"   " c!"STR" ∧ SameButSpaces c!" " c!"   " ∧
    SameButSpaces c!"," c!" , " ∧
    textFor readingEnv c!"en" (headerLocale c!"LEXICON:\tT\tENG\ten\t2") c!"12 main   str" = c!"12 MAIN" ++ (c!"   " ++ c!"STR") :=
  ⟨ascii_space (by decide) ⟨'N', rfl, by decide⟩ ⟨'S', rfl, by decide⟩ (by decide) (by decide +kernel),
    ascii_space (by decide) ⟨'N', rfl, by decide⟩ ⟨'S', rfl, by decide⟩ (by decide) (by decide +kernel),
    ⟨[], c!" ", [], c!" ", c!"  ", rfl, rfl, by decide⟩, ⟨c!",", [], [], c!" ", c!" ", rfl, rfl, by decide⟩, rfl⟩

def synRe : LexRe := ⟨readOf ((trieOf (synEntries.map (·.word))).getRegexp.map asciiU.canon), readOf (trieOf []).getRegexp,
  readOf (trieOf []).getRegexp⟩

def synEnv : Env Rat Rat := { exEnv with compile := fun _ _ _ => synRe }

theorem load_syn (text : Str) : loadLexicon readingEnv text = loadLexicon synEnv text := rfl

theorem reading_syn (address grammar locale filter : Str) :
    stdStandardize readingEnv address grammar synText locale filter = stdStandardize synEnv address grammar synText locale filter ∧
    stdParseAddress readingEnv address synText locale filter = stdParseAddress synEnv address synText locale filter := by
  obtain ⟨l, h1, h2, H, C⟩ := loadLexicon_text (env := readingEnv) (text := synText) rfl synText_means
  have hpl : PlainLexicon asciiU l := plain_of H syn_plain
  have h3 : loadLexicon synEnv synText = .ok l := (load_syn synText).symm.trans h1
  have hs : (lexRe synEnv l).For asciiU l := by
    have : outcomeIs (loadLexicon synEnv synText) (fun l => l.lex = [(c!"EBORACUM", [eEbor]), (c!"NEW YORK", [eNY]), (c!"STR", [eStr]),
      (c!"STREET", [eStreet]), (c!"YORK", [eYork])]) = true := by decide +kernel
    obtain ⟨l', h4, h5⟩ := of_outcomeIs this
    rw [h3] at h4; cases h4
    have h5 : l.lex = [(c!"EBORACUM", [eEbor]), (c!"NEW YORK", [eNY]), (c!"STR", [eStr]), (c!"STREET", [eStreet]),
      (c!"YORK", [eYork])] := by simpa using h5
    have : synRe.For asciiU { lex := [(c!"EBORACUM", [eEbor]), (c!"NEW YORK", [eNY]), (c!"STR", [eStr]), (c!"STREET", [eStreet]),
      (c!"YORK", [eYork])] } :=
      ⟨reads_readOf (by decide +kernel), reads_readOf (by decide +kernel), reads_readOf (by decide +kernel)⟩
    unfold LexRe.For at this ⊢
    rw [h5]
    exact this
  have hx := for_unique (lexRe_for readingEnv_reads hpl C) hs
  unfold stdStandardize stdParseAddress
  rw [h1, h3]
  simp only
  unfold standardizeAddr parseAddr phrasesOf
  rw [hx]
  exact ⟨rfl, rfl⟩

/-- Two such addresses, and what they give. -/
example : stdStandardize readingEnv c!"12 main street" (unlines [c!"[ADDRESS]", c!"NUMBER WORD TYPE -> HOUSE STREET SUFTYP -> 0.4"]) synText
      c!"en" c!"SPACE" = some ⟨some { house_num := some c!"12", name := some c!"MAIN", suftype := some c!"STRASSE", pattern := some c!"NUMBER WORD TYPE -> HOUSE STREET SUFTYP" }, none⟩ ∧
    stdStandardize readingEnv c!"12 main str" (unlines [c!"[ADDRESS]", c!"NUMBER WORD TYPE -> HOUSE STREET SUFTYP -> 0.4"]) synText
      c!"en" c!"SPACE" = some ⟨some { house_num := some c!"12", name := some c!"MAIN", suftype := some c!"STRASSE", pattern := some c!"NUMBER WORD TYPE -> HOUSE STREET SUFTYP" }, none⟩ := by
  rw [(reading_syn _ _ _ _).1, (reading_syn _ _ _ _).1]
  decide +kernel

/-- A word of the lexicon may reach across the space before a word; then another word in its place is not treated alike, although
the lexicon treats both alike and spaces are before them. -/
theorem C96_reaches_across : ∃ (env : Env Rat Rat) (text h : Str) (es : List LexEntry) (a v w grammar locale filter : Str),
    ReadsPatterns env ∧ env.archive text = .notArchive ∧ LexText env.icu text h es ∧
    (∀ e ∈ es, ∀ c ∈ e.word, c ∉ unescaped ∧ env.u.canon c = c) ∧ Synonyms es v w ∧
    textFor env locale (headerLocale h) (a ++ c!" " ++ v) = a ++ c!" " ++ v ∧
    textFor env locale (headerLocale h) (a ++ c!" " ++ w) = a ++ c!" " ++ w ∧
    (∃ x, stdStandardize env (a ++ c!" " ++ v) grammar text locale filter = some ⟨some x, none⟩) ∧
    stdStandardize env (a ++ c!" " ++ w) grammar text locale filter = some ⟨none, none⟩ := by
  refine ⟨readingEnv, synText, _, synEntries, c!"12 NEW", c!"YORK", c!"EBORACUM",
    unlines [c!"[ADDRESS]", c!"NUMBER CITY -> HOUSE CITY -> 0.4"], c!"en", c!"SPACE", readingEnv_reads, rfl, synText_means,
    syn_plain, syn_synonyms.2, rfl, rfl, ⟨{ house_num := some c!"12", city := some c!"NY", pattern := some c!"NUMBER CITY -> HOUSE CITY" }, ?_⟩, ?_⟩ <;>
  rw [(reading_syn _ _ _ _).1] <;> decide +kernel

end AS.Props
