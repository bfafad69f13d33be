import Verif.Lemmas.Lexicon
/-
Lemmas about loading a lexicon text.
-/
namespace AS

/-! ### Blanks -/

/-- `squeeze` of what follows a blank. -/
def squeezeRest : List Str → Str
  | [] => []
  | [p] => p
  | p :: q :: qs => if p = [] then squeezeRest (q :: qs) else p ++ ' ' :: squeezeRest (q :: qs)

theorem collapse_pieces : ∀ s : Str, ∃ p ps, splitOn ' ' s = p :: ps ∧
    Lexicon.collapse true s = squeezeRest (p :: ps) ∧
    Lexicon.collapse false s = match ps with | [] => p | q :: qs => p ++ ' ' :: squeezeRest (q :: qs)
  | [] => ⟨[], [], rfl, rfl, rfl⟩
  | c :: cs => by
    obtain ⟨p, ps, h1, h2, h3⟩ := collapse_pieces cs
    by_cases hc : c = ' '
    · subst hc
      refine ⟨[], p :: ps, by rw [splitOn, if_pos rfl, h1], ?_, ?_⟩
      · simp [Lexicon.collapse, squeezeRest, h2]
      · simp [Lexicon.collapse, h2]
    · refine ⟨c :: p, ps, by rw [splitOn, if_neg hc, h1], ?_, ?_⟩
      · simp only [Lexicon.collapse, hc, if_false, h3]
        cases ps <;> simp [squeezeRest]
      · simp only [Lexicon.collapse, hc, if_false, h3]
        cases ps <;> simp

theorem squeezeRest_eq : ∀ (q : Str) (qs : List Str),
    squeezeRest (q :: qs) = joinWith [' '] ((q :: qs).dropLast.filter (fun x => x ≠ []) ++ [(q :: qs).getLast (by simp)])
  | q, [] => by simp [squeezeRest, joinWith]
  | q, r :: rs => by
    have ih := squeezeRest_eq r rs
    rw [squeezeRest]
    by_cases h : q = []
    · subst h
      rw [if_pos rfl, ih]
      simp [List.getLast_cons]
    · rw [if_neg h, ih]
      simp only [List.dropLast_cons_cons, List.filter_cons, ne_eq, h, not_false_eq_true, decide_true, if_true,
        List.getLast_cons_cons, List.cons_append]
      cases hx : (r :: rs).dropLast.filter (fun x => decide (x ≠ [])) ++ [(r :: rs).getLast (by simp)] with
      | nil => simp at hx
      | cons a as =>
        simp [joinWith]

theorem collapse_eq_squeeze (s : Str) : Lexicon.collapse false s = squeeze s := by
  obtain ⟨p, ps, h1, _, h3⟩ := collapse_pieces s
  unfold squeeze
  rw [h1, h3]
  cases ps with
  | nil => rfl
  | cons q qs =>
    simp only
    rw [squeezeRest_eq]
    rw [List.cons_append]
    cases hx : (q :: qs).dropLast.filter (fun x => decide (x ≠ [])) ++ [(q :: qs).getLast (by simp)] with
    | nil => simp at hx
    | cons a as =>
      simp [joinWith]

theorem collapse_prefix (w : Str) (hw : ' ' ∉ w) : ∀ s : Str, w <+: Lexicon.collapse false s ↔ w <+: s := by
  induction w with
  | nil => intro s; simp
  | cons c w ih =>
    simp only [List.mem_cons, not_or] at hw
    intro s
    cases s with
    | nil => simp [Lexicon.collapse]
    | cons d s =>
      by_cases hd : d = ' '
      · subst hd
        have : ¬ c = ' ' := fun e => hw.1 e.symm
        simp [Lexicon.collapse, List.cons_prefix_cons, this]
      · simp [Lexicon.collapse, hd, List.cons_prefix_cons, ih hw.2]

theorem take_eq_iff_prefix {w s : Str} {n : Nat} (h : w.length = n) : s.take n = w ↔ w <+: s := by
  subst h
  rw [List.prefix_iff_eq_take]
  exact eq_comm

theorem collapse_eq_nil (s : Str) : Lexicon.collapse false s = [] ↔ s = [] := by
  cases s with
  | nil => simp [Lexicon.collapse]
  | cons c s => by_cases h : c = ' ' <;> simp [Lexicon.collapse, h]

theorem canonLine_eq (icu : Icu) (loc line : Str) :
    canonLine icu loc line =
      (if loc ≠ [] then icu.upper loc (icu.norm (Lexicon.collapse false line)) else icu.norm (Lexicon.collapse false line)) := by
  unfold canonLine
  rw [collapse_eq_squeeze]
  by_cases h : loc = [] <;> simp [h]

namespace Lexicon

theorem insert_locale (l : Lexicon) (e : LexEntry) : (l.insert e).locale = l.locale := by
  unfold Lexicon.insert; simp only; split <;> rfl
theorem insert_name (l : Lexicon) (e : LexEntry) : (l.insert e).name = l.name := by
  unfold Lexicon.insert; simp only; split <;> rfl
theorem insert_lang (l : Lexicon) (e : LexEntry) : (l.insert e).lang = l.lang := by
  unfold Lexicon.insert; simp only; split <;> rfl

theorem inserts_keep (es : List LexEntry) : ∀ l : Lexicon, (es.foldl Lexicon.insert l).name = l.name ∧
    (es.foldl Lexicon.insert l).lang = l.lang ∧ (es.foldl Lexicon.insert l).locale = l.locale := by
  induction es with
  | nil => intro l; exact ⟨rfl, rfl, rfl⟩
  | cons e es ih =>
    intro l
    rw [List.foldl_cons]
    obtain ⟨a, b, c⟩ := ih (l.insert e)
    exact ⟨a.trans (insert_name ..), b.trans (insert_lang ..), c.trans (insert_locale ..)⟩

/-! ### Entry lines -/

/-- What one line does. -/
theorem loadEntry_spec (icu : Icu) (l : Lexicon) (line : Str) :
    loadEntry icu l (collapse false line) =
      if line = [] then .ok (l, [])
      else if (c!"LEXENTRY:" <+: line ∨ c!"LexEntry:" <+: line) then
        if InType.BADTOKEN ∈ (entryOf (canonLine icu l.locale line)).type then
          .error (.invalidLexEntry (canonLine icu l.locale line))
        else .ok (l.insert (entryOf (canonLine icu l.locale line)), canonLine icu l.locale line)
      else .error (.invalidLexEntry (squeeze line)) := by
  unfold loadEntry
  by_cases h0 : line = []
  · subst h0; rfl
  · have h0' : ¬ (collapse false line).length = 0 := by
      rw [List.length_eq_zero_iff, collapse_eq_nil]; exact h0
    rw [if_neg h0', if_neg h0]
    have e1 : (collapse false line).take 9 = c!"LEXENTRY:" ↔ c!"LEXENTRY:" <+: line := by
      rw [take_eq_iff_prefix (by decide), collapse_prefix _ (by decide)]
    have e2 : (collapse false line).take 9 = c!"LexEntry:" ↔ c!"LexEntry:" <+: line := by
      rw [take_eq_iff_prefix (by decide), collapse_prefix _ (by decide)]
    by_cases hp : (c!"LEXENTRY:" <+: line ∨ c!"LexEntry:" <+: line)
    · rw [if_pos hp, if_pos (by rw [e1, e2]; exact hp)]
      simp only [← canonLine_eq, ofLine_eq_entryOf, LexEntry.isInClass, List.contains_iff_mem]
    · rw [if_neg hp, if_neg (by rw [e1, e2]; exact hp), collapse_eq_squeeze]

/-- The loop over the lines that are read. -/
def entryLines (icu : Icu) : Lexicon → List Str → Except Error Lexicon
  | l, [] => .ok l
  | l, p :: ps =>
    match loadEntry icu l (collapse false p) with
    | .error e => .error e
    | .ok (l, _) => entryLines icu l ps

theorem loadEntry_keeps {icu : Icu} {l l' : Lexicon} {line line' : Str}
    (h : loadEntry icu l (collapse false line) = .ok (l', line')) :
    l'.locale = l.locale ∧ (line ≠ [] → line' = canonLine icu l.locale line) ∧ (line = [] → line' = []) := by
  rw [loadEntry_spec] at h
  split at h
  · rename_i h0
    cases h; exact ⟨rfl, fun hn => absurd h0 hn, fun _ => rfl⟩
  · rename_i h0
    split at h
    · split at h
      · cases h
      · cases h; exact ⟨insert_locale .., fun _ => rfl, fun hn => absurd hn h0⟩
    · cases h

theorem linesRead_cons (icu : Icu) (loc p q : Str) (qs : List Str) :
    linesRead icu loc (p :: q :: qs) = p :: linesRead icu loc (q :: qs) := rfl

theorem entryLoop_lines (icu : Icu) : ∀ (ps : List Str) (p : Str) (fuel : Nat) (old inp : Str) (l : Lexicon),
    (∀ q ∈ p :: ps, '\n' ∉ q) → ps.length + 3 ≤ fuel →
    entryLoop icu fuel (IStream.ofStr (joinWith ['\n'] (p :: ps))) old inp l =
      (match entryLines icu l (linesRead icu l.locale (p :: ps)) with
        | .error e => .error e
        | .ok l' => .ok (l', inp ++ (linesRead icu l.locale (p :: ps)).flatten))
  | [], p, fuel + 3, old, inp, l, h, _ => by
    rw [entryLoop]
    have hf : ∀ s, (IStream.ofStr s).fail = false := fun _ => rfl
    have hg := getline_last '\n' p old (h p (List.mem_cons_self ..))
    simp only [hf, Bool.false_eq_true, ↓reduceIte, joinWith, hg]
    by_cases hp : p = []
    · subst hp
      simp only [linesRead, ↓reduceIte, entryLines]
      cases h1 : loadEntry icu l (collapse false []) with
      | error e => rfl
      | ok r => simp only; rw [entryLoop]; simp
    · have hpe : p.isEmpty = false := by simpa using hp
      simp only [linesRead, hp, ↓reduceIte, entryLines, hpe]
      cases h1 : loadEntry icu l (collapse false p) with
      | error e => rfl
      | ok r =>
        obtain ⟨l1, line1⟩ := r
        obtain ⟨k1, k2, _⟩ := loadEntry_keeps h1
        have k2 := k2 hp
        subst k2
        simp only
        rw [entryLoop, if_neg (by simp)]
        rw [getline_bad _ _ _ (by rfl)]
        simp only
        cases loadEntry icu l1 (collapse false (canonLine icu l.locale p)) with
        | error e => rfl
        | ok r2 => simp only; rw [entryLoop]; simp
  | q :: qs, p, fuel + 1, old, inp, l, h, hf => by
    rw [entryLoop]
    have hfl : ∀ s, (IStream.ofStr s).fail = false := fun _ => rfl
    have hg := getline_append '\n' p (joinWith ['\n'] (q :: qs)) old (h p (List.mem_cons_self ..))
    have ej : joinWith ['\n'] (p :: q :: qs) = p ++ '\n' :: joinWith ['\n'] (q :: qs) := by simp [joinWith]
    rw [← ej] at hg
    simp only [hfl, Bool.false_eq_true, ↓reduceIte, hg, linesRead_cons, entryLines]
    cases h1 : loadEntry icu l (collapse false p) with
    | error e => rfl
    | ok r =>
      obtain ⟨l1, line1⟩ := r
      obtain ⟨k1, _, _⟩ := loadEntry_keeps h1
      simp only
      rw [entryLoop_lines icu qs q fuel line1 (inp ++ p) l1 (fun x hx => h x (List.mem_cons_of_mem _ hx))
        (by simp only [List.length_cons] at hf; omega), k1]
      cases entryLines icu l1 (linesRead icu l.locale (q :: qs)) <;> simp
  | [], p, 0, _, _, _, _, hf => by simp at hf
  | [], p, 1, _, _, _, _, hf => by simp at hf
  | [], p, 2, _, _, _, _, hf => by simp at hf
  | q :: qs, p, 0, _, _, _, _, hf => by simp at hf

theorem entryLines_ok (icu : Icu) : ∀ (ls : List Str) (l L : Lexicon),
    entryLines icu l ls = .ok L ↔ ∃ es, BodyMeans icu l.locale ls es ∧ L = es.foldl Lexicon.insert l
  | [], l, L => by
    simp only [entryLines, Except.ok.injEq]
    constructor
    · rintro rfl; exact ⟨[], .nil, rfl⟩
    · rintro ⟨es, h, rfl⟩; cases h; rfl
  | p :: ps, l, L => by
    rw [entryLines, loadEntry_spec]
    by_cases hp : p = []
    · subst hp
      simp only [if_true]
      rw [entryLines_ok icu ps l L]
      constructor
      · rintro ⟨es, h, rfl⟩; exact ⟨es, .blank h, rfl⟩
      · rintro ⟨es, h, rfl⟩
        generalize hq : ([] : Str) :: ps = q at h
        cases h with
        | nil => simp at hq
        | blank h => simp only [List.cons.injEq, true_and] at hq; subst hq; exact ⟨es, h, rfl⟩
        | entry h1 h2 h3 =>
          simp only [List.cons.injEq] at hq
          obtain ⟨rfl, rfl⟩ := hq
          simp at h1
    · rw [if_neg hp]
      by_cases he : (c!"LEXENTRY:" <+: p ∨ c!"LexEntry:" <+: p)
      · rw [if_pos he]
        by_cases hb : InType.BADTOKEN ∈ (entryOf (canonLine icu l.locale p)).type
        · rw [if_pos hb]
          simp only
          constructor
          · intro h; cases h
          · rintro ⟨es, h, rfl⟩
            cases h with
            | blank h => exact absurd rfl hp
            | entry h1 h2 h3 => exact absurd hb h2
        · rw [if_neg hb]
          simp only
          rw [entryLines_ok icu ps _ L, insert_locale]
          constructor
          · rintro ⟨es, h, rfl⟩; exact ⟨_ :: es, .entry he hb h, rfl⟩
          · rintro ⟨es, h, rfl⟩
            cases h with
            | blank h => exact absurd rfl hp
            | entry h1 h2 h3 => exact ⟨_, h3, rfl⟩
      · rw [if_neg he]
        simp only
        constructor
        · intro h; cases h
        · rintro ⟨es, h, rfl⟩
          cases h with
          | blank h => exact absurd rfl hp
          | entry h1 h2 h3 => exact absurd h1 he

theorem entryLines_not_diverges (icu : Icu) : ∀ (ls : List Str) (l : Lexicon), ∀ e, entryLines icu l ls = .error e →
    ∃ line, e = .invalidLexEntry line
  | [], l, e, h => by simp [entryLines] at h
  | p :: ps, l, e, h => by
    rw [entryLines, loadEntry_spec] at h
    split at h
    · rename_i e' h'
      simp only [Except.error.injEq] at h; subst h
      split at h'
      · cases h'
      · split at h'
        · split at h'
          · cases h'; exact ⟨_, rfl⟩
          · cases h'
        · cases h'; exact ⟨_, rfl⟩
    · exact entryLines_not_diverges icu ps _ e h

/-! ### The header -/

/-- The search for the header over lines. -/
def headerLines : Str → List Str → Str → Except Error (List Str × Str × Str)
  | cur, [], inp =>
    if c!"LEXICON:" <+: cur then .ok ([], cur, inp)
    else if c!"LEXENTRY:" <+: cur then .error .entryBeforeLexicon
    else .error .invalidFileFormat
  | cur, q :: qs, inp =>
    if c!"LEXICON:" <+: cur then .ok (q :: qs, cur, inp)
    else if c!"LEXENTRY:" <+: cur then .error .entryBeforeLexicon
    else headerLines q qs (inp ++ q)

/-- The stream after a line has been read, with the given lines to come. -/
def StreamAt (ps : List Str) (is : IStream) : Prop :=
  match ps with
  | [] => is.good = false ∧ is.fail = false
  | q :: qs => is = IStream.ofStr (joinWith ['\n'] (q :: qs))

/-- The same, the line read being possibly the last empty one. -/
def StreamFrom (cur : Str) (ps : List Str) (is : IStream) : Prop :=
  match ps with
  | [] => is.good = false ∧ (is.fail = true → cur = [])
  | q :: qs => is = IStream.ofStr (joinWith ['\n'] (q :: qs))

theorem take8 (s : Str) : s.take 8 = c!"LEXICON:" ↔ c!"LEXICON:" <+: s := take_eq_iff_prefix (by decide)
theorem take9 (s : Str) : s.take 9 = c!"LEXENTRY:" ↔ c!"LEXENTRY:" <+: s := take_eq_iff_prefix (by decide)

theorem headerLoop_last (fuel : Nat) (is : IStream) (cur inp : Str) (hg : is.good = false) (hfl : is.fail = true → cur = []) :
    match headerLines cur [] inp with
    | .error e => headerLoop (fuel + 2) is cur inp = .error e
    | .ok (ps', h, inp') => ∃ is', headerLoop (fuel + 2) is cur inp = .ok (is', h, inp') ∧ StreamAt ps' is' := by
  rw [headerLines]
  by_cases hf : is.fail = true
  · have := hfl hf
    subst this
    simp only [List.prefix_nil]
    rw [if_neg (by decide), if_neg (by decide)]
    simp only
    rw [headerLoop, if_pos hf]
  · by_cases h8 : c!"LEXICON:" <+: cur
    · rw [if_pos h8]
      simp only
      refine ⟨is, ?_, hg, by simpa using hf⟩
      rw [headerLoop, if_neg hf, if_neg (by rw [ne_eq, take8]; exact fun h => h h8)]
    · rw [if_neg h8]
      by_cases h9 : c!"LEXENTRY:" <+: cur
      · rw [if_pos h9]
        simp only
        rw [headerLoop, if_neg hf, if_pos (by rw [ne_eq, take8]; exact h8), if_pos ((take9 _).2 h9)]
      · rw [if_neg h9]
        simp only
        rw [headerLoop, if_neg hf, if_pos (by rw [ne_eq, take8]; exact h8), if_neg (by rw [take9]; exact h9)]
        rw [getline_bad _ _ _ hg]
        simp only
        rw [headerLoop, if_pos rfl]

theorem headerLoop_lines : ∀ (ps : List Str) (cur : Str) (fuel : Nat) (is : IStream) (inp : Str),
    (∀ q ∈ ps, '\n' ∉ q) → ps.length + 3 ≤ fuel →
    StreamFrom cur ps is →
    match headerLines cur ps inp with
    | .error e => headerLoop fuel is cur inp = .error e
    | .ok (ps', h, inp') => ∃ is', headerLoop fuel is cur inp = .ok (is', h, inp') ∧ StreamAt ps' is'
  | [], cur, fuel, is, inp, _, hf, hs => by
    obtain ⟨f, rfl⟩ : ∃ f, fuel = f + 2 := ⟨fuel - 2, by simp at hf; omega⟩
    exact headerLoop_last f is cur inp hs.1 hs.2
  | q :: qs, cur, fuel + 1, is, inp, h, hf, hs => by
    rw [StreamFrom] at hs
    subst hs
    have hnf : ∀ s, ¬ (IStream.ofStr s).fail = true := by intro s; simp [IStream.ofStr]
    rw [headerLines]
    by_cases h8 : c!"LEXICON:" <+: cur
    · rw [if_pos h8]
      simp only
      refine ⟨_, ?_, rfl⟩
      rw [headerLoop, if_neg (hnf _), if_neg (by rw [ne_eq, take8]; exact fun h => h h8)]
    · rw [if_neg h8]
      by_cases h9 : c!"LEXENTRY:" <+: cur
      · rw [if_pos h9]
        simp only
        rw [headerLoop, if_neg (hnf _), if_pos (by rw [ne_eq, take8]; exact h8), if_pos ((take9 _).2 h9)]
      · rw [if_neg h9, headerLoop, if_neg (hnf _), if_pos (by rw [ne_eq, take8]; exact h8), if_neg (by rw [take9]; exact h9)]
        have hq := h q (List.mem_cons_self ..)
        cases qs with
        | nil =>
          have hg := getline_last '\n' q cur hq
          simp only [joinWith]
          rw [hg]
          simp only
          exact headerLoop_lines [] q fuel _ _ (by simp) (by simp only [List.length_cons, List.length_nil] at hf ⊢; omega)
            ⟨rfl, fun h => by simpa using h⟩
        | cons r rs =>
          have hg := getline_append '\n' q (joinWith ['\n'] (r :: rs)) cur hq
          have ej : joinWith ['\n'] (q :: r :: rs) = q ++ '\n' :: joinWith ['\n'] (r :: rs) := by simp [joinWith]
          rw [← ej] at hg
          rw [hg]
          simp only
          exact headerLoop_lines (r :: rs) q fuel _ _ (fun x hx => h x (List.mem_cons_of_mem _ hx))
            (by simp only [List.length_cons] at hf ⊢; omega) rfl
  | q :: qs, cur, 0, is, inp, _, hf, _ => by simp at hf

theorem headerLines_ok : ∀ (ps : List Str) (cur inp h inp' : Str) (body : List Str),
    headerLines cur ps inp = .ok (body, h, inp') ↔
      ∃ pre, cur :: ps = pre ++ h :: body ∧ (∀ l ∈ pre, ¬ c!"LEXICON:" <+: l ∧ ¬ c!"LEXENTRY:" <+: l) ∧ c!"LEXICON:" <+: h ∧
        inp' = inp ++ ((pre ++ [h]).drop 1).flatten
  | ps, cur, inp, h, inp', body => by
    have base : c!"LEXICON:" <+: cur → ((body = ps ∧ h = cur ∧ inp' = inp) ↔
      ∃ pre, cur :: ps = pre ++ h :: body ∧ (∀ l ∈ pre, ¬ c!"LEXICON:" <+: l ∧ ¬ c!"LEXENTRY:" <+: l) ∧ c!"LEXICON:" <+: h ∧
        inp' = inp ++ ((pre ++ [h]).drop 1).flatten) := by
      intro h8
      constructor
      · rintro ⟨rfl, rfl, rfl⟩
        exact ⟨[], rfl, by simp, h8, by simp⟩
      · rintro ⟨pre, e1, e2, e3, e4⟩
        cases pre with
        | nil =>
          simp only [List.nil_append, List.cons.injEq] at e1
          simp only [List.nil_append, List.drop_one, List.tail_cons, List.flatten_nil, List.append_nil] at e4
          exact ⟨e1.2.symm, e1.1.symm, e4⟩
        | cons a pre =>
          simp only [List.cons_append, List.cons.injEq] at e1
          obtain ⟨rfl, _⟩ := e1
          exact absurd h8 (e2 _ (List.mem_cons_self ..)).1
    have other : ¬ c!"LEXICON:" <+: cur → c!"LEXENTRY:" <+: cur → ¬
      ∃ pre, cur :: ps = pre ++ h :: body ∧ (∀ l ∈ pre, ¬ c!"LEXICON:" <+: l ∧ ¬ c!"LEXENTRY:" <+: l) ∧ c!"LEXICON:" <+: h ∧
        inp' = inp ++ ((pre ++ [h]).drop 1).flatten := by
      rintro h8 h9 ⟨pre, e1, e2, e3, e4⟩
      cases pre with
      | nil =>
        simp only [List.nil_append, List.cons.injEq] at e1
        rw [e1.1] at h8; exact h8 e3
      | cons a pre =>
        simp only [List.cons_append, List.cons.injEq] at e1
        obtain ⟨rfl, _⟩ := e1
        exact (e2 _ (List.mem_cons_self ..)).2 h9
    cases ps with
    | nil =>
      rw [headerLines]
      by_cases h8 : c!"LEXICON:" <+: cur
      · rw [if_pos h8, ← base h8]
        simp only [Except.ok.injEq, Prod.mk.injEq]
        constructor
        · rintro ⟨rfl, rfl, rfl⟩; exact ⟨rfl, rfl, rfl⟩
        · rintro ⟨rfl, rfl, rfl⟩; exact ⟨rfl, rfl, rfl⟩
      · rw [if_neg h8]
        by_cases h9 : c!"LEXENTRY:" <+: cur
        · rw [if_pos h9]
          constructor
          · intro x; cases x
          · intro x; exact absurd x (other h8 h9)
        · rw [if_neg h9]
          constructor
          · intro x; cases x
          · rintro ⟨pre, e1, e2, e3, e4⟩
            cases pre with
            | nil =>
              simp only [List.nil_append, List.cons.injEq] at e1
              rw [e1.1] at h8; exact absurd e3 h8
            | cons a pre => simp at e1
    | cons q qs =>
      rw [headerLines]
      by_cases h8 : c!"LEXICON:" <+: cur
      · rw [if_pos h8, ← base h8]
        simp only [Except.ok.injEq, Prod.mk.injEq]
        constructor
        · rintro ⟨rfl, rfl, rfl⟩; exact ⟨rfl, rfl, rfl⟩
        · rintro ⟨rfl, rfl, rfl⟩; exact ⟨rfl, rfl, rfl⟩
      · rw [if_neg h8]
        by_cases h9 : c!"LEXENTRY:" <+: cur
        · rw [if_pos h9]
          constructor
          · intro x; cases x
          · intro x; exact absurd x (other h8 h9)
        · rw [if_neg h9, headerLines_ok qs q (inp ++ q) h inp' body]
          constructor
          · rintro ⟨pre, e1, e2, e3, e4⟩
            refine ⟨cur :: pre, by rw [List.cons_append, e1], ?_, e3, ?_⟩
            · intro l hl
              rcases List.mem_cons.1 hl with rfl | hl
              · exact ⟨h8, h9⟩
              · exact e2 l hl
            · rw [e4]
              cases pre with
              | nil =>
                simp only [List.nil_append, List.cons.injEq] at e1
                simp [e1.1]
              | cons a pre =>
                simp only [List.cons_append, List.cons.injEq] at e1
                simp [e1.1]
          · rintro ⟨pre, e1, e2, e3, e4⟩
            cases pre with
            | nil =>
              simp only [List.nil_append, List.cons.injEq] at e1
              rw [e1.1] at h8; exact absurd e3 h8
            | cons a pre =>
              simp only [List.cons_append, List.cons.injEq] at e1
              obtain ⟨rfl, e1⟩ := e1
              refine ⟨pre, e1, fun l hl => e2 l (List.mem_cons_of_mem _ hl), e3, ?_⟩
              rw [e4]
              cases pre with
              | nil =>
                simp only [List.nil_append, List.cons.injEq] at e1
                simp [e1.1]
              | cons b pre =>
                simp only [List.cons_append, List.cons.injEq] at e1
                simp [e1.1]
termination_by ps => ps.length

theorem headerLines_err : ∀ (ps : List Str) (cur inp : Str) (e : Error), headerLines cur ps inp = .error e →
    e = .entryBeforeLexicon ∨ e = .invalidFileFormat
  | [], cur, inp, e, h => by
    rw [headerLines] at h
    split at h
    · cases h
    · split at h
      · cases h; exact Or.inl rfl
      · cases h; exact Or.inr rfl
  | q :: qs, cur, inp, e, h => by
    rw [headerLines] at h
    split at h
    · cases h
    · split at h
      · cases h; exact Or.inl rfl
      · exact headerLines_err qs q _ e h

theorem readHeader_spec (h : Str) (h8 : c!"LEXICON:" <+: h) :
    readHeader h [] = if (splitOn '\t' h).head? = some c!"LEXICON:" then .ok (headerLang h, headerLocale h)
      else .error (.invalidDataFormat h) := by
  obtain ⟨p, ps, e, hn, hl⟩ := splitOn_spec '\t' h
  have hs : fieldStream '\t' (p :: ps) (IStream.ofStr h) := by rw [fieldStream, hl]
  obtain ⟨a1, a2⟩ := field_next hn hs []
  have hps : ∀ q ∈ ps, '\t' ∉ q := fun q hq => hn q (List.mem_cons_of_mem _ hq)
  have hne : p ≠ c!"Lexicon:" := by
    rintro rfl
    have : c!"Lexicon:" <+: h := by
      rw [hl]
      cases ps with
      | nil => exact List.prefix_rfl
      | cons q qs => simp only [joinWith, List.append_assoc]; exact List.prefix_append ..
    rw [← take8] at h8
    rw [← take_eq_iff_prefix (n := 8) (by decide)] at this
    rw [h8] at this
    exact absurd this (by decide)
  unfold readHeader
  simp only [a1, e, List.head?_cons, Option.some.injEq]
  by_cases hp : p = c!"LEXICON:"
  · rw [if_neg (by simp [hp]), if_pos hp]
    obtain ⟨b1, b2⟩ := field_any hps a2 p
    obtain ⟨c1, c2⟩ := field_any (fun q hq => hps q (List.mem_of_mem_drop hq)) b2 (ps.getD 0 p)
    obtain ⟨d1, _⟩ := field_any (fun q hq => hps q (List.mem_of_mem_drop (List.mem_of_mem_drop hq))) c2 ([] : Str)
    rw [b1, c1, d1]
    unfold headerLang headerLocale
    rw [e]
    simp only [Except.ok.injEq, Prod.mk.injEq]
    constructor
    · congr 1
      cases ps with
      | nil => rfl
      | cons q qs =>
        cases qs with
        | nil => rfl
        | cons r rs => simp [List.getD]
    · cases ps with
      | nil => rfl
      | cons q qs =>
        cases qs with
        | nil => rfl
        | cons r rs =>
          cases rs <;> simp [List.getD]
  · rw [if_pos ⟨hp, hne⟩, if_neg hp]

/-! ### The whole text -/

/-- Loading after the header has been found. -/
def loadBody (icu : Icu) (name : Str) (body : List Str) (h inp : Str) : Except Error Lexicon :=
  if (splitOn '\t' h).head? = some c!"LEXICON:" then
    match body with
    | [] => .error (.invalidLexEntry (squeeze h))
    | _ :: _ =>
      match entryLines icu { name, lang := headerLang h, locale := headerLocale h } (linesRead icu (headerLocale h) body) with
      | .error e => .error e
      | .ok l => .ok { l with md5in := inp ++ (linesRead icu (headerLocale h) body).flatten }
  else .error (.invalidDataFormat h)

theorem initialize_lines (icu : Icu) (name : Str) (p : Str) (ps : List Str) (hn : ∀ q ∈ p :: ps, '\n' ∉ q) :
    «initialize» icu name (joinWith ['\n'] (p :: ps)) =
      match stripBom p with
      | .error e => .error e
      | .ok cur =>
        match headerLines cur ps p with
        | .error e => .error e
        | .ok (body, h, inp) => loadBody icu name body h inp := by
  have hlen : ps.length ≤ (joinWith ['\n'] (p :: ps)).length := by
    have := joinWith_length '\n' p ps; omega
  generalize hL : (joinWith ['\n'] (p :: ps)).length = N at hlen
  have hp := hn p (List.mem_cons_self ..)
  have hps : ∀ q ∈ ps, '\n' ∉ q := fun q hq => hn q (List.mem_cons_of_mem _ hq)
  have hstart : ∃ is, (IStream.ofStr (joinWith ['\n'] (p :: ps))).getline '\n' [] = (is, p) ∧
      StreamFrom p ps is := by
    cases ps with
    | nil =>
      simp only [joinWith]
      rw [getline_last '\n' p [] hp]
      exact ⟨_, rfl, rfl, fun h => by simpa using h⟩
    | cons q qs =>
      have ej : joinWith ['\n'] (p :: q :: qs) = p ++ '\n' :: joinWith ['\n'] (q :: qs) := by simp [joinWith]
      rw [ej, getline_append '\n' p _ [] hp]
      exact ⟨_, rfl, rfl⟩
  obtain ⟨is, hs1, hs2⟩ := hstart
  unfold «initialize»
  rw [hs1, hL]
  simp only
  cases hb : stripBom p with
  | error e => rfl
  | ok cur =>
    simp only
    have hs3 : StreamFrom cur ps is := by
      cases ps with
      | nil =>
        refine ⟨hs2.1, fun h => ?_⟩
        have := hs2.2 h
        subst this
        simp only [stripBom, Except.ok.injEq] at hb
        exact hb.symm
      | cons q qs => exact hs2
    have key := headerLoop_lines ps cur (N + 3) is p hps (by omega) hs3
    cases hh : headerLines cur ps p with
    | error e => rw [hh] at key; simp only at key ⊢; rw [key]
    | ok r =>
      obtain ⟨body, h, inp⟩ := r
      rw [hh] at key
      obtain ⟨is', k1, k2⟩ := key
      simp only
      rw [k1]
      simp only
      obtain ⟨pre, e1, _, h8, _⟩ := (headerLines_ok ps cur p h inp body).1 hh
      have hsub : ∀ x ∈ body, x ∈ ps := by
        intro x hx
        cases pre with
        | nil =>
          simp only [List.nil_append, List.cons.injEq] at e1
          rw [e1.2]; exact hx
        | cons a pre =>
          simp only [List.cons_append, List.cons.injEq] at e1
          rw [e1.2]; simp [hx]
      have hblen : body.length ≤ ps.length := by
        have := congrArg List.length e1
        simp only [List.length_cons, List.length_append] at this
        omega
      rw [readHeader_spec h h8]
      unfold loadBody
      by_cases hf : (splitOn '\t' h).head? = some c!"LEXICON:"
      · rw [if_pos hf, if_pos hf]
        simp only
        cases body with
        | nil =>
          have hne : h ≠ [] := by rintro rfl; simp at h8
          have hbad : ¬ (c!"LEXENTRY:" <+: h ∨ c!"LexEntry:" <+: h) := by
            rw [← take8] at h8
            rintro (h' | h')
            · have : h.take 8 = c!"LEXENTRY" := by
                have := (take_eq_iff_prefix (n := 9) (by decide)).2 h'
                have h'' := congrArg (List.take 8) this
                rw [List.take_take] at h''
                exact h''
              rw [h8] at this; exact absurd this (by decide)
            · have : h.take 8 = c!"LexEntry" := by
                have := (take_eq_iff_prefix (n := 9) (by decide)).2 h'
                have h'' := congrArg (List.take 8) this
                rw [List.take_take] at h''
                exact h''
              rw [h8] at this; exact absurd this (by decide)
          rw [entryLoop, if_neg (by rw [k2.2]; simp), getline_bad _ _ _ k2.1]
          simp only
          rw [loadEntry_spec, if_neg hne, if_neg hbad]
        | cons q qs =>
          rw [StreamAt] at k2
          subst k2
          rw [entryLoop_lines icu qs q _ _ _ _ (fun x hx => hps x (hsub x hx)) (by simp only [List.length_cons] at hblen; omega)]
          simp only
          cases entryLines icu { name, lang := headerLang h, locale := headerLocale h }
            (linesRead icu (headerLocale h) (q :: qs)) <;> rfl
      · rw [if_neg hf, if_neg hf]

end Lexicon
end AS
