import Verif.Lemmas.LexiconRound
import Verif.Lemmas.Compiled
import Verif.Props.Lexicon
import Verif.Spec.LexSamples
/-
Checking the claims about a sample lexicon.
-/
namespace AS

/-- ASCII without small letters. -/
def isPlain (s : Str) : Bool := s.all (fun c => decide (c.toNat < 128) && !c.isLower)

/-- The classes a line gives, if its third field is plain. -/
def lineTypes (line : Str) : List InType :=
  match splitOn '\t' line with
  | _ :: _ :: _ :: ty :: _ => if isPlain ty && decide (squeeze ty = ty) then InType.asType ty else []
  | _ => []

/-- The line is an entry with at least one of the classes, and no other. -/
def lineOk (classes : List InType) (line : Str) : Bool :=
  c!"LEXENTRY:\t".isPrefixOf line && !line.contains '\n' &&
  match lineTypes line with
  | [] => false
  | c :: cs => (c :: cs).all (fun c => classes.contains c)

/-- The check: language, locale, all lines, and for each class a line that gives it. -/
def checkLex (s : LexSample) (witness : List Nat) : Bool :=
  c!"LEXICON:\t".isPrefixOf s.header && !s.header.contains '\n' && decide (headerLang s.header = s.lang) &&
  decide (headerLocale s.header = s.locale) && !s.classes.contains .BADTOKEN && decide (witness.length = s.classes.length) &&
  (s.classes.zip witness).all (fun p => (lineTypes (s.body.getD p.2 [])).contains p.1) &&
  s.body.all (lineOk s.classes)

theorem canonLine_fields {icu : Icu} (hk : IcuKeeps icu '\t') (loc line : Str) :
    splitOn '\t' (canonLine icu loc line) = (splitOn '\t' line).map (canonLine icu loc) := by
  obtain ⟨p, ps, h1, h2, h3⟩ := splitOn_spec '\t' line
  rw [h1]
  have key : ∀ (ps : List Str) (p : Str), canonLine icu loc (joinWith ['\t'] (p :: ps)) =
      joinWith ['\t'] ((p :: ps).map (canonLine icu loc)) := by
    intro ps
    induction ps with
    | nil => intro p; rfl
    | cons q qs ih =>
      intro p
      have e : joinWith ['\t'] (p :: q :: qs) = p ++ '\t' :: joinWith ['\t'] (q :: qs) := by simp [joinWith]
      rw [e, canonLine_tab, ih]
      simp [joinWith]
  rw [h3, key, List.map_cons]
  refine splitOn_join '\t' _ _ ?_
  intro q hq
  rw [← List.map_cons] at hq
  obtain ⟨r, hr, rfl⟩ := List.mem_map.1 hq
  exact canonLine_free hk loc r (h2 r hr)

theorem isPlain_iff {s : Str} : isPlain s = true ↔ ∀ c ∈ s, c.toNat < 128 ∧ ¬ c.isLower := by
  unfold isPlain
  simp [List.all_eq_true]

theorem canonLine_plain {icu : Icu} {loc s : Str} (h : isPlain (squeeze s) = true) : canonLine icu loc s = squeeze s := by
  have hp := isPlain_iff.1 h
  unfold canonLine
  rw [icu.norm_ascii _ hp, icu.upper_ascii _ _ hp]
  split <;> rfl

theorem canonLine_tag {icu : Icu} {loc : Str} : canonLine icu loc c!"LEXENTRY:" = c!"LEXENTRY:" := by
  have : squeeze c!"LEXENTRY:" = c!"LEXENTRY:" := by decide
  rw [canonLine_plain (by rw [this]; decide), this]

/-- The classes of the entry of a line. -/
theorem entry_types {icu : Icu} (hk : IcuKeeps icu '\t') (loc : Str) {line : Str} (hp : c!"LEXENTRY:\t" <+: line)
    (hne : lineTypes line ≠ []) : (entryOf (canonLine icu loc line)).type = lineTypes line := by
  obtain ⟨rest, rfl⟩ := hp
  have hs : splitOn '\t' (c!"LEXENTRY:\t" ++ rest) = c!"LEXENTRY:" :: splitOn '\t' rest := by
    have : c!"LEXENTRY:\t" ++ rest = c!"LEXENTRY:" ++ '\t' :: rest := by simp
    rw [this, splitOn_append _ _ _ (by decide)]
  have hf := canonLine_fields hk loc (c!"LEXENTRY:\t" ++ rest)
  rw [hs, List.map_cons, canonLine_tag] at hf
  unfold lineTypes at hne ⊢
  rw [hs] at hne ⊢
  split at hne
  · next a b c ty more e =>
    split at hne
    · next hpl =>
      rw [Bool.and_eq_true, decide_eq_true_eq] at hpl
      rw [List.cons.injEq] at e
      rw [e.2] at hf
      unfold entryOf entryFields
      rw [hf]
      have : canonLine icu loc ty = ty := by rw [canonLine_plain (by rw [hpl.2]; exact hpl.1), hpl.2]
      simp [this, hpl.1, hpl.2]
    · exact absurd rfl hne
  · exact absurd rfl hne

theorem splitOn_unlines : ∀ (ls : List Str), (∀ l ∈ ls, '\n' ∉ l) → splitOn '\n' (unlines ls) = ls ++ [[]]
  | [], _ => rfl
  | l :: ls, h => by
    have e : unlines (l :: ls) = l ++ '\n' :: unlines ls := by simp [unlines]
    rw [e, splitOn_append _ _ _ (h l List.mem_cons_self), splitOn_unlines ls (fun x hx => h x (List.mem_cons_of_mem _ hx))]
    rfl

theorem linesRead_snoc (icu : Icu) (loc : Str) : ∀ ls : List Str, linesRead icu loc (ls ++ [[]]) = ls ++ [[]]
  | [] => by simp [linesRead]
  | [l] => by simp [linesRead]
  | _ :: l' :: ls => by
    have := linesRead_snoc icu loc (l' :: ls)
    simp only [List.cons_append] at this ⊢
    rw [linesRead, this]

theorem bodyMeans_of {icu : Icu} {loc : Str} : ∀ {ls : List Str},
    (∀ l ∈ ls, c!"LEXENTRY:" <+: l ∧ InType.BADTOKEN ∉ (entryOf (canonLine icu loc l)).type) →
    BodyMeans icu loc (ls ++ [[]]) (ls.map (fun l => entryOf (canonLine icu loc l)))
  | [], _ => .blank .nil
  | l :: _, h => .entry (Or.inl (h l List.mem_cons_self).1) (h l List.mem_cons_self).2
      (bodyMeans_of (fun x hx => h x (List.mem_cons_of_mem _ hx)))

/-- A sample that passes the check is loaded whatever the normalising and upper-casing, and is as claimed. -/
theorem lexMeets_of_check {s : LexSample} {witness : List Nat} (h : checkLex s witness = true) {icu : Icu}
    (hk : IcuKeeps icu '\t') (name : Str) : ∃ l, Lexicon.initialize icu name s.text = .ok l ∧ LexMeets s icu l := by
  unfold checkLex at h
  simp only [Bool.and_eq_true, decide_eq_true_eq, List.isPrefixOf_iff_prefix, Bool.not_eq_true', List.contains_eq_mem,
    decide_eq_false_iff_not, List.all_eq_true] at h
  obtain ⟨⟨⟨⟨⟨⟨⟨h1, h2⟩, h3⟩, h4⟩, h5⟩, h6⟩, h7⟩, h8⟩ := h
  have hline : ∀ l ∈ s.body, c!"LEXENTRY:\t" <+: l ∧ '\n' ∉ l ∧ lineTypes l ≠ [] ∧ ∀ c ∈ lineTypes l, c ∈ s.classes := by
    intro l hl
    have := h8 l hl
    unfold lineOk at this
    simp only [Bool.and_eq_true, List.isPrefixOf_iff_prefix, Bool.not_eq_true', List.contains_eq_mem,
      decide_eq_false_iff_not] at this
    obtain ⟨⟨a, b⟩, c⟩ := this
    refine ⟨a, b, ?_⟩
    split at c
    · cases c
    · next x xs e =>
      rw [e]
      exact ⟨by simp, by simpa using c⟩
  have htypes : ∀ l ∈ s.body, (entryOf (canonLine icu s.locale l)).type = lineTypes l := fun l hl =>
    entry_types hk s.locale (hline l hl).1 (hline l hl).2.2.1
  have htext : LexText icu s.text s.header (s.body.map (fun l => entryOf (canonLine icu s.locale l))) := by
    have hsp : splitOn '\n' s.text = s.header :: (s.body ++ [[]]) := by
      unfold LexSample.text
      rw [splitOn_unlines]
      · rfl
      · intro l hl
        rcases List.mem_cons.1 hl with rfl | hl
        · exact h2
        · exact (hline l hl).2.1
    obtain ⟨hrest, hh⟩ := h1
    refine ⟨s.header, s.body ++ [[]], s.header, s.body ++ [[]], hsp, .plain ?_, ⟨[], rfl, by simp, ?_⟩, by simp, ?_, ?_⟩
    · rw [← hh]; simp
    · rw [← hh]; exact ⟨'\t' :: hrest, by simp⟩
    · have : s.header = c!"LEXICON:" ++ '\t' :: hrest := by rw [← hh]; simp
      rw [this, splitOn_append _ _ _ (by decide)]
      rfl
    · rw [h4, linesRead_snoc]
      refine bodyMeans_of (fun l hl => ⟨?_, ?_⟩)
      · obtain ⟨r, hr⟩ := (hline l hl).1
        exact ⟨'\t' :: r, by rw [← hr]; simp⟩
      · rw [htypes l hl]
        exact fun hm => h5 ((hline l hl).2.2.2 _ hm)
  obtain ⟨l, hl, _, k1, k2, k3⟩ := Props.C18_loads icu name s.text s.header _ htext
  have hmem : ∀ w e, e ∈ l.find w ↔ e.word = w ∧ ∃ line ∈ s.body, e = entryOf (canonLine icu s.locale line) := by
    intro w e
    rw [k3, List.mem_filter, (Props.C18_dedup _ e).2.1, List.mem_map]
    simp only [decide_eq_true_eq]
    constructor
    · rintro ⟨⟨line, h1, h2⟩, h3⟩; exact ⟨h3, line, h1, h2.symm⟩
    · rintro ⟨h3, line, h1, h2⟩; exact ⟨⟨line, h1, h2.symm⟩, h3⟩
  refine ⟨l, hl, by rw [k1, h3], by rw [k2, h4], ?_, ?_, hmem, ?_⟩
  · intro c
    constructor
    · rintro ⟨w, e, he, hc⟩
      obtain ⟨_, line, hl', rfl⟩ := (hmem w e).1 he
      rw [htypes line hl'] at hc
      exact (hline line hl').2.2.2 c hc
    · intro hc
      obtain ⟨i, hi, hic⟩ := List.getElem_of_mem hc
      have hi' : i < witness.length := by omega
      have hz : (c, witness[i]) ∈ s.classes.zip witness := by
        have := List.getElem_mem (l := s.classes.zip witness) (n := i) (by simp; omega)
        rw [List.getElem_zip, hic] at this
        exact this
      have hw := h7 _ hz
      simp only at hw
      by_cases hlt : witness[i] < s.body.length
      · have hb : s.body.getD witness[i] [] ∈ s.body := by
          rw [List.getD_eq_getElem?_getD, List.getElem?_eq_getElem hlt]
          exact List.getElem_mem hlt
        refine ⟨(entryOf (canonLine icu s.locale (s.body.getD witness[i] []))).word, _,
          (hmem _ _).2 ⟨rfl, _, hb, rfl⟩, ?_⟩
        rw [htypes _ hb]
        exact hw
      · exfalso
        rw [List.getD_eq_getElem?_getD, List.getElem?_eq_none (by omega)] at hw
        simp [lineTypes, splitOn] at hw
  · intro w e he hnil
    obtain ⟨_, line, hl', rfl⟩ := (hmem w e).1 he
    rw [htypes line hl'] at hnil
    exact (hline line hl').2.2.1 hnil
  · intro line hl' hplain
    refine (hmem _ _).2 ⟨rfl, line, hl', ?_⟩
    rw [canonLine_plain]
    refine isPlain_iff.2 (fun c hc => hplain c ?_)
    rw [← collapse_eq_squeeze] at hc
    exact collapse_chars _ _ _ hc

end AS
