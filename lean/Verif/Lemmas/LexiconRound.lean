import Verif.Lemmas.LexiconPrint
/-
Lemmas about loading printed lexicons, texts without final newline, and byte order marks.
-/
namespace AS

/-! ### Lines in canonical form -/

theorem collapse_tab : ∀ (f : Bool) (a b : Str),
    Lexicon.collapse f (a ++ '\t' :: b) = Lexicon.collapse f a ++ '\t' :: Lexicon.collapse false b
  | f, [], b => by simp [Lexicon.collapse]
  | f, c :: a, b => by
    rw [List.cons_append, Lexicon.collapse, Lexicon.collapse]
    by_cases hc : c = ' '
    · rw [if_pos hc, if_pos hc]
      cases f <;> simp [collapse_tab true a b]
    · rw [if_neg hc, if_neg hc, collapse_tab false a b]; rfl

theorem collapse_id : ∀ (s : Str), NoBlankRun s → Lexicon.collapse false s = s ∧ (s.head? ≠ some ' ' → Lexicon.collapse true s = s)
  | [], _ => by simp [Lexicon.collapse]
  | c :: s, h => by
    have hs : NoBlankRun s := by
      intro a b e; exact h (c :: a) b (by rw [e]; rfl)
    obtain ⟨i1, i2⟩ := collapse_id s hs
    by_cases hc : c = ' '
    · subst hc
      have hh : s.head? ≠ some ' ' := by
        intro e
        cases s with
        | nil => simp at e
        | cons d s =>
          simp only [List.head?_cons, Option.some.injEq] at e
          subst e
          exact h [] s rfl
      simp [Lexicon.collapse, i2 hh]
    · simp [Lexicon.collapse, hc, i1]

theorem noBlankRun_of_not_mem {s : Str} (h : ' ' ∉ s) : NoBlankRun s := by
  rintro a b rfl; simp at h

/-- The characters of class names. -/
def NameChar (c : Char) : Prop := c.toNat < 128 ∧ ¬ c.isLower ∧ c ≠ ' ' ∧ c ≠ '\n' ∧ c ≠ '\t'

instance (c : Char) : Decidable (NameChar c) := by unfold NameChar; infer_instance

theorem joinWith_nameChar : ∀ (l : List Str), (∀ s ∈ l, ∀ c ∈ s, NameChar c) → ∀ c ∈ joinWith [','] l, NameChar c
  | [], _, c, h => by simp [joinWith] at h
  | [p], hl, c, h => hl p (List.mem_cons_self ..) c (by simpa [joinWith] using h)
  | p :: q :: l, hl, c, h => by
    simp only [joinWith, List.mem_append, List.mem_singleton] at h
    rcases h with (h | h) | h
    · exact hl p (List.mem_cons_self ..) c h
    · subst h; decide
    · exact joinWith_nameChar (q :: l) (fun s hs => hl s (List.mem_cons_of_mem _ hs)) c h

theorem setAsString_nameChar (S : List InType) : ∀ c ∈ InType.setAsString S, NameChar c := by
  rw [setAsString_eq]
  apply joinWith_nameChar
  intro s hs
  obtain ⟨t, _, rfl⟩ := List.mem_map.1 hs
  cases t <;> decide +kernel

theorem attachAsString_nameChar (S : List Attach) : ∀ c ∈ Attach.setAsString S, NameChar c := by
  rw [attach_setAsString_eq]
  apply joinWith_nameChar
  intro s hs
  obtain ⟨t, _, rfl⟩ := List.mem_map.1 hs
  cases t <;> decide +kernel

/-- A text in the form in which texts are loaded. -/
structure CanonText (icu : Icu) (lo s : Str) : Prop where
  tab : '\t' ∉ s
  nl : '\n' ∉ s
  run : NoBlankRun s
  norm : icu.norm s = s
  upper : lo ≠ [] → icu.upper lo s = s

theorem canonText_name (icu : Icu) (lo : Str) {s : Str} (h : ∀ c ∈ s, NameChar c) : CanonText icu lo s where
  tab := fun x => (h _ x).2.2.2.2 rfl
  nl := fun x => (h _ x).2.2.2.1 rfl
  run := noBlankRun_of_not_mem (fun x => (h _ x).2.2.1 rfl)
  norm := icu.norm_ascii s (fun c hc => ⟨(h c hc).1, (h c hc).2.1⟩)
  upper := fun _ => icu.upper_ascii lo s (fun c hc => ⟨(h c hc).1, (h c hc).2.1⟩)

theorem canonLine_tab (icu : Icu) (lo a b : Str) : canonLine icu lo (a ++ '\t' :: b) = canonLine icu lo a ++ '\t' :: canonLine icu lo b := by
  rw [canonLine_eq, canonLine_eq, canonLine_eq, collapse_tab, icu.norm_tab]
  split
  · exact icu.upper_tab _ _ _
  · rfl

theorem CanonText.line {icu : Icu} {lo s : Str} (h : CanonText icu lo s) : canonLine icu lo s = s := by
  rw [canonLine_eq, (collapse_id s h.run).1, h.norm]
  split
  · rename_i hl; exact h.upper hl
  · rfl

theorem canonLine_print (icu : Icu) (lo : Str) (e : LexEntry) (h1 : CanonText icu lo e.word) (h2 : CanonText icu lo e.stdword) :
    canonLine icu lo e.print = e.print := by
  have hp : e.print = c!"LEXENTRY:" ++ '\t' :: (e.word ++ '\t' :: (e.stdword ++ '\t' :: (InType.setAsString e.type ++ '\t' ::
    Attach.setAsString e.attached))) := by simp [LexEntry.print]
  have ht : CanonText icu lo c!"LEXENTRY:" := canonText_name icu lo (by decide)
  rw [hp, canonLine_tab, canonLine_tab, canonLine_tab, canonLine_tab, ht.line, h1.line, h2.line,
    (canonText_name icu lo (setAsString_nameChar _)).line, (canonText_name icu lo (attachAsString_nameChar _)).line]

theorem print_no_nl (e : LexEntry) (h1 : '\n' ∉ e.word) (h2 : '\n' ∉ e.stdword) : '\n' ∉ e.print := by
  unfold LexEntry.print
  simp only [List.mem_append, not_or]
  refine ⟨⟨⟨⟨⟨⟨⟨⟨by decide, by decide⟩, h1⟩, by decide⟩, h2⟩, by decide⟩, ?_⟩, by decide⟩, ?_⟩
  · exact fun x => (setAsString_nameChar _ _ x).2.2.2.1 rfl
  · exact fun x => (attachAsString_nameChar _ _ x).2.2.2.1 rfl

theorem natDigits_digit (n : Nat) : ∀ c ∈ Lexicon.natDigits n, c.isDigit = true := by
  intro c hc
  unfold Lexicon.natDigits at hc
  rw [Nat.repr_eq_ofList_toDigits] at hc
  simp only [String.toList_ofList] at hc
  exact Nat.isDigit_of_mem_toDigits (by decide) (by decide) hc

theorem unlines_join : ∀ (ls : List Str), ls.flatMap (fun l => l ++ c!"\n") = joinWith ['\n'] (ls ++ [[]])
  | [] => rfl
  | [l] => by simp [joinWith]
  | l :: m :: ls => by
    have ih := unlines_join (m :: ls)
    rw [List.flatMap_cons, ih]
    simp [joinWith]

namespace Lexicon

theorem linesRead_nl (icu : Icu) (lo : Str) : ∀ ls : List Str, linesRead icu lo (ls ++ [[]]) = ls ++ [[]]
  | [] => rfl
  | [l] => by simp [linesRead]
  | l :: m :: ls => by
    have ih := linesRead_nl icu lo (m :: ls)
    simp only [List.cons_append] at ih ⊢
    rw [linesRead_cons, ih]

theorem linesRead_last (icu : Icu) (lo last : Str) (hl : last ≠ []) : ∀ ls : List Str,
    linesRead icu lo (ls ++ [last]) = ls ++ [last, canonLine icu lo last]
  | [] => by simp [linesRead, hl]
  | [l] => by simp [linesRead, hl]
  | l :: m :: ls => by
    have ih := linesRead_last icu lo last hl (m :: ls)
    simp only [List.cons_append] at ih ⊢
    rw [linesRead_cons, ih]

theorem bodyMeans_append {icu : Icu} {lo : Str} : ∀ {ls ms : List Str} {es : List LexEntry},
    BodyMeans icu lo (ls ++ ms) es ↔ ∃ es1 es2, es = es1 ++ es2 ∧ BodyMeans icu lo ls es1 ∧ BodyMeans icu lo ms es2
  | [], ms, es => by
    constructor
    · intro h; exact ⟨[], es, rfl, .nil, h⟩
    · rintro ⟨es1, es2, rfl, h1, h2⟩; cases h1; exact h2
  | l :: ls, ms, es => by
    rw [List.cons_append]
    constructor
    · intro h
      generalize hq : l :: (ls ++ ms) = q at h
      cases h with
      | nil => cases hq
      | blank h =>
        simp only [List.cons.injEq] at hq
        obtain ⟨rfl, rfl⟩ := hq
        obtain ⟨es1, es2, rfl, h1, h2⟩ := bodyMeans_append.1 h
        exact ⟨es1, es2, rfl, .blank h1, h2⟩
      | entry h1 h2 h =>
        simp only [List.cons.injEq] at hq
        obtain ⟨rfl, rfl⟩ := hq
        obtain ⟨es1, es2, rfl, h3, h4⟩ := bodyMeans_append.1 h
        exact ⟨_ :: es1, es2, rfl, .entry h1 h2 h3, h4⟩
    · rintro ⟨es1, es2, rfl, h1, h2⟩
      generalize hq : l :: ls = q at h1
      cases h1 with
      | nil => cases hq
      | blank h =>
        simp only [List.cons.injEq] at hq
        obtain ⟨rfl, rfl⟩ := hq
        exact .blank (bodyMeans_append.2 ⟨es1, es2, rfl, h, h2⟩)
      | entry g1 g2 h =>
        simp only [List.cons.injEq] at hq
        obtain ⟨rfl, rfl⟩ := hq
        exact .entry g1 g2 (bodyMeans_append.2 ⟨_, es2, rfl, h, h2⟩)

theorem bodyMeans_prints {icu : Icu} {lo : Str} : ∀ {es : List LexEntry},
    (∀ e ∈ es, CanonText icu lo e.word ∧ CanonText icu lo e.stdword ∧
      IsSet InType.code e.type ∧ IsSet Attach.code e.attached ∧ InType.BADTOKEN ∉ e.type) →
    BodyMeans icu lo (es.map LexEntry.print ++ [[]]) es
  | [], _ => .blank .nil
  | e :: es, h => by
    obtain ⟨h1, h2, h3, h4, h5⟩ := h e (List.mem_cons_self ..)
    have hr : entryOf (canonLine icu lo e.print) = e := by
      rw [canonLine_print icu lo e h1 h2, ← ofLine_eq_entryOf]
      exact entry_roundtrip e h1.tab h2.tab h3 h4
    have ih := bodyMeans_prints (icu := icu) (lo := lo) (es := es) (fun x hx => h x (List.mem_cons_of_mem _ hx))
    have := BodyMeans.entry (icu := icu) (loc := lo) (l := e.print) (ls := es.map LexEntry.print ++ [[]]) (es := es)
      (Or.inl (by unfold LexEntry.print; simp only [List.append_assoc]; exact List.prefix_append ..)) (by rw [hr]; exact h5) ih
    rw [hr] at this
    exact this

/-- The entries in the order in which they are printed. -/
def allEntries (m : List (Str × List LexEntry)) : List LexEntry := m.flatMap (·.2)

theorem filter_all {m : List (Str × List LexEntry)} (hs : OmSorted m) (hw : ∀ a ∈ m, ∀ e ∈ a.2, e.word = a.1) (w : Str) :
    (allEntries m).filter (fun e => decide (e.word = w)) = (omFind w m).getD [] := by
  unfold allEntries
  induction m with
  | nil => rfl
  | cons a m ih =>
    obtain ⟨k, v⟩ := a
    obtain ⟨h1, h2⟩ := omSorted_cons.1 hs
    have ih := ih h2 (fun a ha => hw a (List.mem_cons_of_mem _ ha))
    rw [List.flatMap_cons, List.filter_append, ih, omFind]
    have hv := hw (k, v) (List.mem_cons_self ..)
    by_cases h : w = k
    · subst h
      have : v.filter (fun e => decide (e.word = w)) = v := by
        apply List.filter_eq_self.2
        intro e he; simpa using hv e he
      simp only [this, if_true, Option.getD_some, omFind_none_of_lt h1, Option.getD_none, List.append_nil]
    · have : v.filter (fun e => decide (e.word = w)) = [] := by
        apply List.filter_eq_nil_iff.2
        intro e he
        simp only [decide_eq_true_eq]
        rw [hv e he]; exact fun x => h x.symm
      rw [this, if_neg h]; rfl

theorem nodup_of_words : ∀ (es : List LexEntry), (∀ w, (es.filter (fun e => decide (e.word = w))).Nodup) → es.Nodup
  | [], _ => List.nodup_nil
  | e :: es, h => by
    rw [List.nodup_cons]
    constructor
    · intro he
      have := h e.word
      rw [List.filter_cons] at this
      simp only [decide_true, if_true] at this
      exact (List.nodup_cons.1 this).1 (by simp [he])
    · apply nodup_of_words
      intro w
      have := h w
      rw [List.filter_cons] at this
      split at this
      · exact (List.nodup_cons.1 this).2
      · exact this

theorem Holds.words {l : Lexicon} {h : List LexEntry} (H : Holds l h) : ∀ a ∈ l.lex, ∀ e ∈ a.2, e.word = a.1 ∧ e ∈ h := by
  rintro ⟨k, v⟩ ha e he
  have hf := H.find k
  rw [find_eq, (omFind_mem H.sorted).2 ha] at hf
  simp only [Option.getD_some] at hf
  simp only at he
  rw [hf] at he
  simp only [List.mem_filter, decide_eq_true_eq] at he
  exact ⟨he.2, he.1⟩

theorem Holds.all {l : Lexicon} {h : List LexEntry} (H : Holds l h) : Holds l (allEntries l.lex) := by
  have hf : ∀ w, (allEntries l.lex).filter (fun e => decide (e.word = w)) = l.find w := by
    intro w
    rw [filter_all H.sorted (fun a ha e he => (H.words a ha e he).1), find_eq]
  refine ⟨H.sorted, H.ne, fun w => (hf w).symm, nodup_of_words _ (fun w => ?_)⟩
  rw [hf, H.find]
  exact H.nodup.filter _

theorem Holds.all_mem {l : Lexicon} {h : List LexEntry} (H : Holds l h) : ∀ e ∈ allEntries l.lex, e ∈ h := by
  intro e he
  obtain ⟨a, ha, he⟩ := List.mem_flatMap.1 he
  exact (H.words a ha e he).2

theorem apply_keeps (l : Lexicon) (op : LexOp) : (op.apply l).name = l.name ∧ (op.apply l).lang = l.lang ∧ (op.apply l).locale = l.locale := by
  cases op with
  | ins e => exact ⟨insert_name .., insert_lang .., insert_locale ..⟩
  | rem e =>
    rw [LexOp.apply]
    unfold Lexicon.remove
    simp only
    split
    · exact ⟨rfl, rfl, rfl⟩
    · split
      · exact ⟨rfl, rfl, rfl⟩
      · split <;> exact ⟨rfl, rfl, rfl⟩

theorem run_keeps : ∀ (ops : List LexOp) (l : Lexicon), (ops.foldl LexOp.apply l).name = l.name ∧
    (ops.foldl LexOp.apply l).lang = l.lang ∧ (ops.foldl LexOp.apply l).locale = l.locale
  | [], _ => ⟨rfl, rfl, rfl⟩
  | op :: ops, l => by
    rw [List.foldl_cons]
    obtain ⟨a, b, c⟩ := run_keeps ops (op.apply l)
    obtain ⟨a', b', c'⟩ := apply_keeps l op
    exact ⟨a.trans a', b.trans b', c.trans c'⟩

/-- The printed header, without its newline. -/
def headerText (l : Lexicon) : Str :=
  joinWith ['\t'] [c!"LEXICON:", l.name, l.lang.asString, l.locale, natDigits l.size]

theorem print_join (l : Lexicon) :
    l.print = joinWith ['\n'] (headerText l :: ((allEntries l.lex).map LexEntry.print ++ [[]])) := by
  have e1 : l.lex.flatMap (fun e => e.2.flatMap (fun d => d.print ++ c!"\n")) =
      ((allEntries l.lex).map LexEntry.print).flatMap (fun x => x ++ c!"\n") := by
    unfold allEntries
    rw [List.flatMap_map, List.flatMap_assoc]
  have e2 : joinWith ['\n'] (headerText l :: ((allEntries l.lex).map LexEntry.print ++ [[]])) =
      headerText l ++ '\n' :: joinWith ['\n'] ((allEntries l.lex).map LexEntry.print ++ [[]]) := by
    cases h : (allEntries l.lex).map LexEntry.print ++ [[]] with
    | nil => simp at h
    | cons a as => simp [joinWith]
  rw [e2, ← unlines_join, ← e1]
  unfold print headerText
  simp [joinWith]

theorem langString_chars (la : Lang) : ∀ c ∈ la.asString, NameChar c := by cases la <;> decide +kernel

theorem roundtrip (icu : Icu) (n : Str) (la : Lang) (lo : Str) (ops : List LexOp)
    (hn : '\t' ∉ n ∧ '\n' ∉ n) (hlo : '\t' ∉ lo ∧ '\n' ∉ lo)
    (hword : ∀ e ∈ held ops, ∀ s ∈ [e.word, e.stdword], '\t' ∉ s ∧ '\n' ∉ s ∧ NoBlankRun s ∧ icu.norm s = s ∧
      (lo ≠ [] → icu.upper lo s = s))
    (hset : ∀ e ∈ held ops, IsSet InType.code e.type ∧ IsSet Attach.code e.attached ∧ InType.BADTOKEN ∉ e.type) :
    let l := ops.foldl LexOp.apply { name := n, lang := la, locale := lo }
    ∃ l', «initialize» icu n l.print = .ok l' ∧ l'.name = n ∧ l'.lang = la ∧ l'.locale = lo ∧
      (∀ w, l'.find w = l.find w) ∧ l'.print = l.print := by
  intro l
  have H : Holds l (held ops) := (holds_empty n la lo [] [] [] []).run ops
  obtain ⟨k1, k2, k3⟩ := run_keeps ops { name := n, lang := la, locale := lo }
  have k1 : l.name = n := k1
  have k2 : l.lang = la := k2
  have k3 : l.locale = lo := k3
  have hdig : ∀ c ∈ natDigits l.size, c ≠ '\t' ∧ c ≠ '\n' := by
    intro c hc
    have := natDigits_digit _ c hc
    constructor <;> (rintro rfl; simp at this)
  have hfields : ∀ q ∈ [c!"LEXICON:", l.name, l.lang.asString, l.locale, natDigits l.size], '\t' ∉ q ∧ '\n' ∉ q := by
    intro q hq
    simp only [List.mem_cons, List.not_mem_nil, or_false] at hq
    rcases hq with rfl | rfl | rfl | rfl | rfl
    · decide
    · rw [k1]; exact hn
    · exact ⟨fun x => (langString_chars _ _ x).2.2.2.2 rfl, fun x => (langString_chars _ _ x).2.2.2.1 rfl⟩
    · rw [k3]; exact hlo
    · exact ⟨fun x => (hdig _ x).1 rfl, fun x => (hdig _ x).2 rfl⟩
  have hsplit : splitOn '\t' (headerText l) = [c!"LEXICON:", l.name, l.lang.asString, l.locale, natDigits l.size] :=
    splitOn_join '\t' _ _ (fun q hq => (hfields q hq).1)
  have hlang : headerLang (headerText l) = la := by
    unfold headerLang
    rw [hsplit]
    simp [List.getD, k2, (Props.C04_lang_roundtrip la).1]
  have hloc : headerLocale (headerText l) = lo := by
    unfold headerLocale
    rw [hsplit]
    simp [List.getD, k3]
  have hhnl : '\n' ∉ headerText l := by
    unfold headerText
    intro h
    simp only [joinWith, List.mem_append, List.mem_singleton] at h
    have f1 := hfields l.name (by simp)
    have f2 := hfields l.lang.asString (by simp)
    have f3 := hfields l.locale (by simp)
    have f4 := hfields (natDigits l.size) (by simp)
    rcases h with (h | h) | (h | h) | (h | h) | (h | h) | h
    · exact absurd h (by decide)
    · exact absurd h (by decide)
    · exact f1.2 h
    · exact absurd h (by decide)
    · exact f2.2 h
    · exact absurd h (by decide)
    · exact f3.2 h
    · exact absurd h (by decide)
    · exact f4.2 h
  have hall := H.all_mem
  have hcanon : ∀ e ∈ allEntries l.lex, CanonText icu lo e.word ∧ CanonText icu lo e.stdword ∧
      IsSet InType.code e.type ∧ IsSet Attach.code e.attached ∧ InType.BADTOKEN ∉ e.type := by
    intro e he
    have he := hall e he
    obtain ⟨a1, a2, a3, a4, a5⟩ := hword e he e.word (by simp)
    obtain ⟨b1, b2, b3, b4, b5⟩ := hword e he e.stdword (by simp)
    exact ⟨⟨a1, a2, a3, a4, a5⟩, ⟨b1, b2, b3, b4, b5⟩, hset e he⟩
  have hlines : splitOn '\n' l.print = headerText l :: ((allEntries l.lex).map LexEntry.print ++ [[]]) := by
    rw [print_join]
    apply splitOn_join
    intro q hq
    simp only [List.mem_cons, List.mem_append, List.mem_map, List.not_mem_nil, or_false] at hq
    rcases hq with rfl | ⟨e, he, rfl⟩ | rfl
    · exact hhnl
    · exact print_no_nl e (hcanon e he).1.nl (hcanon e he).2.1.nl
    · simp
  have hpre : c!"LEXICON:" <+: headerText l := by
    unfold headerText
    simp only [joinWith, List.append_assoc]
    exact List.prefix_append ..
  have hbom : (headerText l).head? ≠ some '\uFEFF' := by
    obtain ⟨t, ht⟩ := hpre
    rw [← ht]; simp
  have ht : LexText icu l.print (headerText l) (allEntries l.lex) := by
    refine ⟨_, _, _, _, hlines, .plain hbom, ⟨[], rfl, by simp, hpre⟩, by simp, by rw [hsplit]; rfl, ?_⟩
    rw [hloc, linesRead_nl]
    exact bodyMeans_prints hcanon
  obtain ⟨l', h1, h2, h3, h4, h5⟩ := loads icu n l.print _ _ ht
  have hfind : ∀ w, l'.find w = l.find w := by
    intro w
    rw [h5, held_ins, inserts_nodup _ _ H.all.nodup (by simp), H.all.find]
    rfl
  refine ⟨l', h1, h2, by rw [h3, hlang], by rw [h4, hloc], hfind, ?_⟩
  have hlex : l'.lex = l.lex := by
    obtain ⟨p, ps, p', body, hd, inp, es, _, _, _, _, _, _, e⟩ := (load_ok icu n l.print l').1 h1
    have H' := inserts_holds es (holds_empty n (headerLang hd) (headerLocale hd) [] [] [] [])
    have H'' : Holds l' (es.foldl (fun h e => if e ∈ h then h else h ++ [e]) []) := by
      rw [e]
      exact ⟨H'.sorted, H'.ne, H'.find, H'.nodup⟩
    have H3 : Holds l' (allEntries l.lex) := ⟨H''.sorted, H''.ne, fun w => by rw [hfind]; exact H.all.find w, H.all.nodup⟩
    exact H3.lex_eq H.all
  unfold print size
  rw [h2, h3, h4, hlex, hlang, hloc, k1, k2, k3]

/-! ### Final newline -/

theorem splitOn_snoc (d : Char) (s : Str) : splitOn d (s ++ [d]) = splitOn d s ++ [[]] := by
  induction s with
  | nil => simp [splitOn]
  | cons c s ih =>
    rw [List.cons_append, splitOn, splitOn, ih]
    split
    · rfl
    · have := splitOn_ne d s
      cases h : splitOn d s with
      | nil => exact absurd h this
      | cons a as => rfl

theorem header_body {pre body lines : List Str} {h last : Str} (e : pre ++ h :: body = lines ++ [last])
    (hh : h ≠ last) : ∃ b0, body = b0 ++ [last] ∧ lines = pre ++ h :: b0 := by
  rcases List.eq_nil_or_concat body with rfl | ⟨b0, x, rfl⟩
  · obtain ⟨_, e2⟩ := List.append_inj' e rfl
    simp only [List.cons.injEq, and_true] at e2
    exact absurd e2 hh
  · have e' : (pre ++ h :: b0) ++ [x] = lines ++ [last] := by rw [← e]; simp
    obtain ⟨e1, e2⟩ := List.append_inj' e' rfl
    simp only [List.cons.injEq, and_true] at e2
    exact ⟨b0, by rw [e2]; simp, e1.symm⟩

theorem newline_texts (icu : Icu) (text h last : Str) (lines : List Str) (es : List LexEntry)
    (htext : splitOn '\n' text = lines ++ [last]) (hbody : c!"LEXENTRY:" <+: last)
    (hbody' : c!"LEXENTRY:" <+: canonLine icu (headerLocale h) last)
    (hidem : canonLine icu (headerLocale h) (canonLine icu (headerLocale h) last) = canonLine icu (headerLocale h) last)  :
    LexText icu (text ++ c!"\n") h es ↔
      ∃ es0, es = es0 ++ [entryOf (canonLine icu (headerLocale h) last)] ∧
        LexText icu text h (es ++ [entryOf (canonLine icu (headerLocale h) last)]) := by
  have hlast : last ≠ [] := by rintro rfl; simp at hbody
  have hsnoc := splitOn_snoc '\n' text
  rw [htext] at hsnoc
  have hne : c!"LEXICON:" <+: h → h ≠ last := by
    rintro h8 rfl; exact not_both h8 hbody
  have hbom : last.head? ≠ some '\uFEFF' := by
    obtain ⟨t, ht⟩ := hbody
    rw [← ht]; simp
  -- the lines before the last
  have hfirst : ∀ (p : Str) (ps : List Str) (p' : Str) (more : List Str), (lines ++ [last]) ++ more = p :: ps → AfterBom p p' →
      ∃ lines', p' :: ps = lines' ++ [last] ++ more ∧
        ((lines = [] ∧ lines' = [] ∧ p = last ∧ p' = last) ∨ ∃ ls, lines = p :: ls ∧ lines' = p' :: ls) := by
    intro p ps p' more e hb
    cases lines with
    | nil =>
      simp only [List.nil_append, List.cons_append, List.cons.injEq] at e
      obtain ⟨rfl, rfl⟩ := e
      have := afterBom_unique hb (.plain hbom)
      subst this
      exact ⟨[], rfl, Or.inl ⟨rfl, rfl, rfl, rfl⟩⟩
    | cons a as =>
      simp only [List.cons_append, List.cons.injEq] at e
      obtain ⟨rfl, rfl⟩ := e
      exact ⟨p' :: as, by simp, Or.inr ⟨as, rfl, rfl⟩⟩
  have single : ∀ es1, BodyMeans icu (headerLocale h) [last] es1 ↔
      (InType.BADTOKEN ∉ (entryOf (canonLine icu (headerLocale h) last)).type ∧ es1 = [entryOf (canonLine icu (headerLocale h) last)]) := by
    intro es1
    constructor
    · intro hb
      generalize hq : [last] = q at hb
      cases hb with
      | nil => cases hq
      | blank _ => simp only [List.cons.injEq] at hq; exact absurd hq.1 hlast
      | entry _ h2 h3 =>
        simp only [List.cons.injEq] at hq
        obtain ⟨rfl, rfl⟩ := hq
        cases h3
        exact ⟨h2, rfl⟩
    · rintro ⟨h2, rfl⟩; exact .entry (Or.inl hbody) h2 .nil
  have single' : BodyMeans icu (headerLocale h) [last] [entryOf (canonLine icu (headerLocale h) last)] →
      BodyMeans icu (headerLocale h) [canonLine icu (headerLocale h) last] [entryOf (canonLine icu (headerLocale h) last)] := by
    intro hb
    have h2 := ((single _).1 hb).1
    have := BodyMeans.entry (icu := icu) (loc := headerLocale h) (l := canonLine icu (headerLocale h) last) (Or.inl hbody')
      (by rw [hidem]; exact h2) .nil
    rw [hidem] at this
    exact this
  have blank1 : ∀ es1, BodyMeans icu (headerLocale h) [[]] es1 ↔ es1 = [] := by
    intro es1
    constructor
    · intro hb
      generalize hq : [([] : Str)] = q at hb
      cases hb with
      | nil => cases hq
      | blank hb' =>
        simp only [List.cons.injEq, true_and] at hq
        subst hq
        cases hb'; rfl
      | entry h1 _ _ =>
        simp only [List.cons.injEq] at hq
        obtain ⟨rfl, _⟩ := hq
        simp at h1
    · rintro rfl; exact .blank .nil
  constructor
  · rintro ⟨p, ps, p', body, h1, h2, ⟨pre, a1, a2, a3⟩, h4, h5, h6⟩
    rw [hsnoc] at h1
    obtain ⟨lines', l1, l2⟩ := hfirst p ps p' [[]] h1 h2
    rw [l1] at a1
    have hh0 : h ≠ [] := by rintro rfl; simp at a3
    obtain ⟨b1, rfl, e1⟩ := header_body a1.symm hh0
    obtain ⟨b0, rfl, e2⟩ := header_body e1.symm (hne a3)
    have hl2 := linesRead_nl icu (headerLocale h) (b0 ++ [last])
    rw [hl2] at h6
    obtain ⟨e01, e3, rfl, hb01, hb3⟩ := bodyMeans_append.1 h6
    obtain ⟨e0, e1', rfl, hb0, hb1⟩ := bodyMeans_append.1 hb01
    have := (blank1 _).1 hb3
    subst this
    obtain ⟨hbad, rfl⟩ := (single _).1 hb1
    refine ⟨e0, by simp, ?_⟩
    have htx : LexText icu text h (e0 ++ ([entryOf (canonLine icu (headerLocale h) last)] ++ [entryOf (canonLine icu (headerLocale h) last)])) := by
      rcases l2 with ⟨_, hl, _, _⟩ | ⟨ls, hl, hl'⟩
      · rw [hl] at e2; simp at e2
      · refine ⟨p, ls ++ [last], p', b0 ++ [last], by rw [htext, hl]; rfl, h2, ⟨pre, ?_, a2, a3⟩, by simp, h5, ?_⟩
        · have : p' :: (ls ++ [last]) = lines' ++ [last] := by rw [hl']; rfl
          rw [this, e2]; simp
        · rw [linesRead_last _ _ _ hlast]
          have : b0 ++ [last, canonLine icu (headerLocale h) last] = b0 ++ ([last] ++ [canonLine icu (headerLocale h) last]) := by simp
          rw [this]
          exact bodyMeans_append.2 ⟨e0, _, rfl, hb0, bodyMeans_append.2 ⟨_, _, rfl, hb1, single' hb1⟩⟩
    have e : e0 ++ [entryOf (canonLine icu (headerLocale h) last)] ++ [] ++ [entryOf (canonLine icu (headerLocale h) last)] =
      (e0 ++ ([entryOf (canonLine icu (headerLocale h) last)] ++ [entryOf (canonLine icu (headerLocale h) last)])) := by simp
    rw [e]; exact htx
  · rintro ⟨es0, rfl, p, ps, p', body, h1, h2, ⟨pre, a1, a2, a3⟩, h4, h5, h6⟩
    rw [htext] at h1
    obtain ⟨lines', l1, l2⟩ := hfirst p ps p' [] (by simpa using h1) h2
    simp only [List.append_nil] at l1
    rw [l1] at a1
    obtain ⟨b0, rfl, e2⟩ := header_body a1.symm (hne a3)
    rw [linesRead_last _ _ _ hlast] at h6
    have : b0 ++ [last, canonLine icu (headerLocale h) last] = b0 ++ [last] ++ [canonLine icu (headerLocale h) last] := by simp
    rw [this] at h6
    obtain ⟨e01, e3, he, hb01, hb3⟩ := bodyMeans_append.1 h6
    obtain ⟨e0, e1', rfl, hb0, hb1⟩ := bodyMeans_append.1 hb01
    obtain ⟨hbad, rfl⟩ := (single _).1 hb1
    have h3 := bodyMeans_unique (single' hb1) hb3
    subst h3
    have he' := List.append_inj_left' he rfl
    rcases l2 with ⟨_, hl, _, _⟩ | ⟨ls, hl, hl'⟩
    · rw [hl] at e2; simp at e2
    · refine ⟨p, ls ++ [last, []], p', b0 ++ [last] ++ [[]], by rw [hsnoc, hl]; simp, h2, ⟨pre, ?_, a2, a3⟩, by simp, h5, ?_⟩
      · have : p' :: (ls ++ [last, []]) = lines' ++ [last, []] := by rw [hl']; rfl
        rw [this, e2]; simp
      · rw [linesRead_nl, he']
        exact bodyMeans_append.2 ⟨_, [], by simp, bodyMeans_append.2 ⟨_, _, rfl, hb0, hb1⟩, .blank .nil⟩

theorem newline_back (icu : Icu) (text h last : Str) (lines : List Str) (es : List LexEntry)
    (htext : splitOn '\n' text = lines ++ [last]) (hbody : c!"LEXENTRY:" <+: last)
    (hbody' : c!"LEXENTRY:" <+: canonLine icu (headerLocale h) last)
    (hidem : canonLine icu (headerLocale h) (canonLine icu (headerLocale h) last) = canonLine icu (headerLocale h) last)
    (ht : LexText icu text h es) : ∃ es', es = es' ++ [entryOf (canonLine icu (headerLocale h) last)] ∧ LexText icu (text ++ c!"\n") h es' := by
  have hlast : last ≠ [] := by rintro rfl; simp at hbody
  have hht := ht
  obtain ⟨p, ps, p', body, h1, h2, ⟨pre, a1, a2, a3⟩, h4, h5, h6⟩ := ht
  have hne : h ≠ last := by rintro rfl; exact not_both a3 hbody
  have hlb : ∃ l', p' :: ps = l' ++ [last] := by
    rw [htext] at h1
    cases lines with
    | nil =>
      simp only [List.nil_append, List.cons.injEq] at h1
      obtain ⟨rfl, rfl⟩ := h1
      have hbom : last.head? ≠ some '\uFEFF' := by
        obtain ⟨t, ht⟩ := hbody
        rw [← ht]; simp
      exact ⟨[], by rw [afterBom_unique h2 (.plain hbom)]; rfl⟩
    | cons a as =>
      simp only [List.cons_append, List.cons.injEq] at h1
      exact ⟨p' :: as, by rw [← h1.2]; rfl⟩
  obtain ⟨l', hl'⟩ := hlb
  rw [a1] at hl'
  obtain ⟨b0, rfl, -⟩ := header_body hl' hne
  rw [linesRead_last _ _ _ hlast] at h6
  have e : b0 ++ [last, canonLine icu (headerLocale h) last] = (b0 ++ [last]) ++ [canonLine icu (headerLocale h) last] := by simp
  rw [e] at h6
  obtain ⟨e1, e2, rfl, hb1, hb2⟩ := bodyMeans_append.1 h6
  obtain ⟨e3, e4, rfl, _, hb4⟩ := bodyMeans_append.1 hb1
  have one : ∀ (x : Str) (es : List LexEntry), c!"LEXENTRY:" <+: x → BodyMeans icu (headerLocale h) [x] es →
      es = [entryOf (canonLine icu (headerLocale h) x)] := by
    intro x es hx hb
    generalize hq : [x] = q at hb
    cases hb with
    | nil => cases hq
    | blank _ =>
      simp only [List.cons.injEq] at hq
      obtain ⟨rfl, _⟩ := hq
      simp at hx
    | entry _ _ h3 =>
      simp only [List.cons.injEq] at hq
      obtain ⟨rfl, rfl⟩ := hq
      cases h3; rfl
  have := one _ _ hbody hb4
  subst this
  have := one _ _ hbody' hb2
  rw [hidem] at this
  subst this
  exact ⟨_, rfl, (newline_texts icu text h last lines _ htext hbody hbody' hidem).2 ⟨e3, rfl, hht⟩⟩

theorem held_again (es : List LexEntry) (e : LexEntry) (h : e ∈ es) :
    held ((es ++ [e]).map LexOp.ins) = held (es.map LexOp.ins) := by
  rw [List.map_append, List.map_singleton, held_snoc, heldStep, if_pos]
  rw [mem_held]
  obtain ⟨a, b, rfl⟩ := List.append_of_mem h
  exact ⟨a.map .ins, b.map .ins, by simp, by simp⟩

/-! ### Byte order mark -/

theorem headerLines_inp (x : Str) : ∀ (ps : List Str) (cur inp : Str),
    headerLines cur ps (x ++ inp) = (headerLines cur ps inp).map (fun r => (r.1, r.2.1, x ++ r.2.2))
  | [], cur, inp => by
    rw [headerLines, headerLines]
    split
    · rfl
    · split <;> rfl
  | q :: qs, cur, inp => by
    rw [headerLines, headerLines]
    split
    · rfl
    · split
      · rfl
      · rw [List.append_assoc, headerLines_inp x qs q]

theorem loadBody_inp (icu : Icu) (name : Str) (body : List Str) (h x inp : Str) :
    loadBody icu name body h (x ++ inp) = (loadBody icu name body h inp).map (fun l => { l with md5in := x ++ l.md5in }) := by
  unfold loadBody
  split
  · cases body with
    | nil => rfl
    | cons q qs =>
      simp only
      split
      · rfl
      · simp [Except.map, List.append_assoc]
  · rfl

theorem bom_swallows (icu : Icu) (name text : Str) (c : Char) (hc : c ≠ '\n') (ha : c.toNat < 128)
    (hb : text.head? ≠ some '\uFEFF') :
    «initialize» icu name ('\uFEFF' :: c :: text) =
      («initialize» icu name text).map (fun l => { l with md5in := '\uFEFF' :: c :: l.md5in }) := by
  obtain ⟨p, ps, e, h, ht⟩ := splitOn_spec '\n' text
  have h' : ∀ q ∈ ('\uFEFF' :: c :: p) :: ps, '\n' ∉ q := by
    intro q hq
    rcases List.mem_cons.1 hq with rfl | hq
    · simp only [List.mem_cons, not_or]
      exact ⟨by decide, fun x => hc x.symm, h p (List.mem_cons_self ..)⟩
    · exact h q (List.mem_cons_of_mem _ hq)
  have ht' : '\uFEFF' :: c :: text = joinWith ['\n'] (('\uFEFF' :: c :: p) :: ps) := by
    rw [ht]; cases ps <;> simp [joinWith]
  have hp : stripBom p = .ok p := by
    rw [← afterBom_iff]
    apply AfterBom.plain
    rw [ht] at hb
    cases p with
    | nil => simp
    | cons d ds => cases ps <;> simpa [joinWith] using hb
  rw [ht', initialize_lines icu name _ ps h', ht, initialize_lines icu name p ps h, hp]
  have hp' : stripBom ('\uFEFF' :: c :: p) = .ok p := by simp [stripBom, ha]
  rw [hp']
  simp only
  have := headerLines_inp ['\uFEFF', c] ps p p
  rw [show '\uFEFF' :: c :: p = ['\uFEFF', c] ++ p from rfl, this]
  cases headerLines p ps p with
  | error e => rfl
  | ok r =>
    obtain ⟨body, hd, inp⟩ := r
    simp only [Except.map]
    rw [loadBody_inp]
    rfl

theorem bom_header (icu : Icu) (name rest : Str) (h : ∀ l ∈ (splitOn '\n' rest).drop 1, ¬ c!"LEXICON:" <+: l) :
    ∃ e, «initialize» icu name ('\uFEFF' :: (c!"LEXICON:" ++ rest)) = .error e := by
  cases hi : «initialize» icu name ('\uFEFF' :: (c!"LEXICON:" ++ rest)) with
  | error e => exact ⟨e, rfl⟩
  | ok l =>
    exfalso
    obtain ⟨p, ps, hs, _⟩ := splitOn_spec '\n' rest
    have hs' : splitOn '\n' ('\uFEFF' :: (c!"LEXICON:" ++ rest)) = ('\uFEFF' :: (c!"LEXICON:" ++ p)) :: ps := by
      simp [splitOn, hs]
    obtain ⟨hd, es, q, qs, q', body, e1, e2, ⟨pre, a1, a2, a3⟩, _⟩ := loads_only icu name _ l hi
    rw [hs'] at e1
    obtain ⟨rfl, rfl⟩ := List.cons.inj e1
    have hq : q' = c!"EXICON:" ++ p := afterBom_unique e2 (.cut (by decide))
    subst hq
    rw [hs] at h
    simp only [List.drop_one, List.tail_cons] at h
    cases pre with
    | nil =>
      simp only [List.nil_append, List.cons.injEq] at a1
      rw [← a1.1] at a3
      simp [List.cons_prefix_cons] at a3
    | cons a pre =>
      simp only [List.cons_append, List.cons.injEq] at a1
      exact h hd (by rw [a1.2]; simp) a3

end Lexicon
end AS
