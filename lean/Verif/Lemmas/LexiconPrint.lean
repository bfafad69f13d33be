import Verif.Lemmas.LexiconLoad
/-
Lemmas about lexicon texts, printed lexicons and standard words.
-/
namespace AS

theorem entry_roundtrip (e : LexEntry) (h1 : '\t' ∉ e.word) (h2 : '\t' ∉ e.stdword)
    (h3 : IsSet InType.code e.type) (h4 : IsSet Attach.code e.attached) : LexEntry.ofLine e.print = e := by
  rw [ofLine_eq_entryOf]
  unfold entryOf
  rw [print_fields e h1 h2]
  have t := Props.C02_class_list_roundtrip e.type h3
  have a := Props.C03_attach_list_roundtrip e.attached h4
  simp [List.getD, InType.asType, Attach.asAttach, t, a]

theorem splitOn_append (d : Char) (a b : Str) (ha : d ∉ a) : splitOn d (a ++ d :: b) = a :: splitOn d b := by
  obtain ⟨p, ps, e, h, hb⟩ := splitOn_spec d b
  have : a ++ d :: b = joinWith [d] (a :: p :: ps) := by rw [hb]; simp [joinWith]
  rw [this, splitOn_join, e]
  intro q hq
  rcases List.mem_cons.1 hq with rfl | hq
  · exact ha
  · exact h q hq

theorem tab_lost (a b : Str) (e : LexEntry) (ha : '\t' ∉ a) (hw : e.word = a ++ '\t' :: b) :
    (entryOf e.print).word = a := by
  have hp : e.print = c!"LEXENTRY:" ++ '\t' :: (a ++ '\t' :: (b ++ c!"\t" ++ e.stdword ++ c!"\t" ++ InType.setAsString e.type ++ c!"\t"
    ++ Attach.setAsString e.attached)) := by
    simp [LexEntry.print, hw]
  unfold entryOf entryFields
  rw [hp, splitOn_append _ _ _ (by decide), splitOn_append _ _ _ ha]
  simp [List.getD]

namespace Lexicon

/-! ### Histories -/

theorem heldStep_nodup {h : List LexEntry} (hn : h.Nodup) (op : LexOp) : (heldStep h op).Nodup := by
  cases op with
  | ins e =>
    rw [heldStep]
    split
    · exact hn
    · rename_i he
      rw [List.nodup_append]
      refine ⟨hn, by simp, ?_⟩
      intro a ha b hb
      simp only [List.mem_singleton] at hb
      subst hb
      rintro rfl; exact he ha
  | rem e => exact hn.filter _

theorem held_snoc (ops : List LexOp) (op : LexOp) : held (ops ++ [op]) = heldStep (held ops) op := by
  rw [held_eq, held_eq, List.foldl_append]; rfl

theorem list_snoc_ind {α : Type} {P : List α → Prop} (h0 : P []) (h1 : ∀ l a, P l → P (l ++ [a])) (l : List α) : P l := by
  have : ∀ n, ∀ l : List α, l.length = n → P l := by
    intro n
    induction n with
    | zero => intro l hl; rw [List.length_eq_zero_iff.1 hl]; exact h0
    | succ n ih =>
      intro l hl
      have hne : l ≠ [] := by rintro rfl; simp at hl
      rw [← List.dropLast_concat_getLast hne]
      exact h1 _ _ (ih _ (by simp [hl]))
  exact this _ l rfl

theorem mem_held (ops : List LexOp) : ∀ e, e ∈ held ops ↔ ∃ pre post, ops = pre ++ LexOp.ins e :: post ∧ LexOp.rem e ∉ post := by
  induction ops using list_snoc_ind with
  | h0 => intro e; simp [held_eq]
  | h1 ops op ih =>
    intro e
    rw [held_snoc]
    have keep : op ≠ .rem e → e ∈ held ops → ∃ pre post, ops ++ [op] = pre ++ LexOp.ins e :: post ∧ LexOp.rem e ∉ post := by
      intro hop he
      obtain ⟨pre, post, h1, h2⟩ := (ih e).1 he
      refine ⟨pre, post ++ [op], by rw [h1]; simp, ?_⟩
      simp only [List.mem_append, List.mem_singleton, not_or]
      exact ⟨h2, fun h => hop h.symm⟩
    have back : (∃ pre post, ops ++ [op] = pre ++ LexOp.ins e :: post ∧ LexOp.rem e ∉ post) →
        op = .ins e ∨ (e ∈ held ops ∧ op ≠ .rem e) := by
      rintro ⟨pre, post, h1, h2⟩
      rcases List.eq_nil_or_concat post with rfl | ⟨post', x, rfl⟩
      · have := List.append_inj_right' h1 rfl
        simp only [List.cons.injEq, and_true] at this
        exact Or.inl this
      · have h1' : ops ++ [op] = (pre ++ LexOp.ins e :: post') ++ [x] := by rw [h1]; simp
        obtain ⟨e1, e2⟩ := List.append_inj' h1' rfl
        simp only [List.cons.injEq, and_true] at e2
        subst e2
        simp only [List.concat_eq_append, List.mem_append, List.mem_singleton, not_or] at h2
        exact Or.inr ⟨(ih e).2 ⟨pre, post', e1, h2.1⟩, fun h => h2.2 h.symm⟩
    cases op with
    | ins x =>
      have hm : e ∈ heldStep (held ops) (.ins x) ↔ e = x ∨ e ∈ held ops := by
        rw [heldStep]
        split
        · rename_i hx
          constructor
          · exact Or.inr
          · rintro (rfl | h)
            · exact hx
            · exact h
        · simp only [List.mem_append, List.mem_singleton]; exact or_comm
      rw [hm]
      constructor
      · rintro (rfl | h)
        · exact ⟨ops, [], rfl, by simp⟩
        · exact keep (by simp) h
      · intro h
        rcases back h with h | h
        · simp only [LexOp.ins.injEq] at h; exact Or.inl h.symm
        · exact Or.inr h.1
    | rem x =>
      simp only [heldStep, List.mem_filter, ne_eq, decide_eq_true_eq]
      constructor
      · rintro ⟨h1, h2⟩
        exact keep (by simp only [ne_eq, LexOp.rem.injEq]; exact fun h => h2 h.symm) h1
      · intro h
        rcases back h with h | h
        · cases h
        · refine ⟨h.1, ?_⟩
          rintro rfl; exact h.2 rfl

/-- Before, in a list without repetitions. -/
theorem split_filter {p : LexEntry → Bool} : ∀ {l a b c : List LexEntry} {x y : LexEntry},
    l.filter p = a ++ x :: b ++ y :: c → ∃ a' b' c', l = a' ++ x :: b' ++ y :: c' := by
  intro l a b c x y h
  have h1 : l.filter p = (a ++ x :: b) ++ (y :: c) := h
  obtain ⟨l1, l2, rfl, e1, e2⟩ := List.filter_eq_append_iff.1 h1
  obtain ⟨m1, m2, rfl, _, f2⟩ := List.filter_eq_append_iff.1 e1
  obtain ⟨n1, n2, rfl, _, _⟩ := List.filter_eq_cons_iff.1 f2
  obtain ⟨k1, k2, rfl, _, _⟩ := List.filter_eq_cons_iff.1 e2
  exact ⟨m1 ++ n1, n2 ++ k1, k2, by simp⟩

theorem held_nodup (ops : List LexOp) : (held ops).Nodup := by
  induction ops using list_snoc_ind with
  | h0 => simp [held_eq]
  | h1 ops op ih => rw [held_snoc]; exact heldStep_nodup ih op

theorem held_order (ops : List LexOp) : ∀ (a b c : List LexEntry) (e e' : LexEntry),
    held ops = a ++ e' :: b ++ e :: c →
    ∃ pre post, ops = pre ++ LexOp.ins e :: post ∧ LexOp.rem e ∉ post ∧ e ∉ held pre ∧ e' ∈ held pre := by
  induction ops using list_snoc_ind with
  | h0 => intro a b c e e' h; simp [held_eq] at h
  | h1 ops op ih =>
    intro a b c e e' h
    have hnd := held_nodup (ops ++ [op])
    rw [held_snoc] at h hnd
    have step : ∀ a b c, held ops = a ++ e' :: b ++ e :: c → op ≠ .rem e →
        ∃ pre post, ops ++ [op] = pre ++ LexOp.ins e :: post ∧ LexOp.rem e ∉ post ∧ e ∉ held pre ∧ e' ∈ held pre := by
      intro a b c h hop
      obtain ⟨pre, post, h1, h2, h3, h4⟩ := ih a b c e e' h
      refine ⟨pre, post ++ [op], by rw [h1]; simp, ?_, h3, h4⟩
      simp only [List.mem_append, List.mem_singleton, not_or]
      exact ⟨h2, fun h => hop h.symm⟩
    cases op with
    | ins x =>
      rw [heldStep] at h hnd
      by_cases hx : x ∈ held ops
      · rw [if_pos hx] at h
        exact step a b c h (by simp)
      · rw [if_neg hx] at h
        rcases List.eq_nil_or_concat c with rfl | ⟨c', y, rfl⟩
        · obtain ⟨e1, e2⟩ := List.append_inj' h rfl
          simp only [List.cons.injEq, and_true] at e2
          subst e2
          exact ⟨ops, [], rfl, by simp, hx, by rw [e1]; simp⟩
        · have h' : held ops ++ [x] = (a ++ e' :: b ++ e :: c') ++ [y] := by rw [h]; simp
          obtain ⟨e1, _⟩ := List.append_inj' h' rfl
          exact step a b c' e1 (by simp)
    | rem x =>
      rw [heldStep] at h
      have hne : x ≠ e := by
        rintro rfl
        have : x ∈ (held ops).filter (fun y => decide (y ≠ x)) := by rw [h]; simp
        simp at this
      obtain ⟨a', b', c', h'⟩ := split_filter h
      exact step a' b' c' h' (by simpa using hne)

theorem held_ins (es : List LexEntry) : held (es.map LexOp.ins) = es.foldl (fun h e => if e ∈ h then h else h ++ [e]) [] := by
  rw [held_eq, List.foldl_map]; rfl

theorem inserts_nodup : ∀ (es h : List LexEntry), es.Nodup → (∀ e ∈ es, e ∉ h) →
    es.foldl (fun h e => if e ∈ h then h else h ++ [e]) h = h ++ es
  | [], h, _, _ => by simp
  | e :: es, h, hn, hd => by
    obtain ⟨h1, h2⟩ := List.nodup_cons.1 hn
    rw [List.foldl_cons, if_neg (hd e (List.mem_cons_self ..)), inserts_nodup es _ h2]
    · simp
    · intro x hx
      simp only [List.mem_append, List.mem_singleton, not_or]
      refine ⟨hd x (List.mem_cons_of_mem _ hx), ?_⟩
      rintro rfl; exact h1 hx

theorem inserts_holds : ∀ (es : List LexEntry) {l : Lexicon} {h : List LexEntry}, Holds l h →
    Holds (es.foldl Lexicon.insert l) (es.foldl (fun h e => if e ∈ h then h else h ++ [e]) h)
  | [], _, _, H => H
  | e :: es, _, _, H => inserts_holds es (H.insert e)

theorem inserts_cacheOk : ∀ (es : List LexEntry) {l : Lexicon}, CacheOk l → CacheOk (es.foldl Lexicon.insert l)
  | [], _, H => H
  | e :: es, _, H => inserts_cacheOk es (H.insert e)

theorem inserts_inv (es : List LexEntry) (hn : es.Nodup) {l : Lexicon} (hc : CacheOk l) {h : List LexEntry} (H : Holds l h)
    (h0 : ∀ e ∈ es, e ∉ h) : CacheOk (es.foldl Lexicon.insert l) ∧ Holds (es.foldl Lexicon.insert l) (h ++ es) := by
  refine ⟨inserts_cacheOk es hc, ?_⟩
  rw [← inserts_nodup es h hn h0]
  exact inserts_holds es H

theorem Holds.attached_iff {l : Lexicon} {h : List LexEntry} (H : Holds l h) (p : LexEntry → Bool) (w : Str) :
    w ∈ attachedWords p l.lex ↔ ∃ e ∈ h, e.word = w ∧ p e = true := by
  unfold attachedWords
  simp only [List.mem_flatMap, List.mem_map, List.mem_filter]
  constructor
  · rintro ⟨⟨k, es⟩, hm, e, ⟨he, hp⟩, rfl⟩
    have hf := H.find k
    rw [find_eq, (omFind_mem H.sorted).2 hm] at hf
    simp only [Option.getD_some] at hf
    simp only at he
    rw [hf] at he
    simp only [List.mem_filter, decide_eq_true_eq] at he
    exact ⟨e, he.1, he.2, hp⟩
  · rintro ⟨e, he, rfl, hp⟩
    obtain ⟨⟨k, es⟩, hm, hk⟩ := List.mem_map.1 ((H.key_iff e.word).2 ⟨e, he, rfl⟩)
    simp only at hk
    subst hk
    have hf := H.find e.word
    rw [find_eq, (omFind_mem H.sorted).2 hm] at hf
    simp only [Option.getD_some] at hf
    refine ⟨_, hm, e, ⟨?_, hp⟩, rfl⟩
    rw [hf]; simp [he]

/-! ### Texts -/

theorem afterBom_iff (p p' : Str) : AfterBom p p' ↔ stripBom p = .ok p' := by
  constructor
  · intro h
    cases h with
    | plain h =>
      cases p with
      | nil => rfl
      | cons c cs =>
        have : ¬ c = '\uFEFF' := by simpa using h
        simp [stripBom, this]
    | cut h => simp [stripBom, h]
    | broken h =>
      rename_i c cs
      have : ¬ c.toNat < 128 := by omega
      simp [stripBom, this]
  · intro h
    cases p with
    | nil => simp only [stripBom, Except.ok.injEq] at h; subst h; exact .plain (by simp)
    | cons c cs =>
      by_cases hc : c = '\uFEFF'
      · subst hc
        cases cs with
        | nil => simp [stripBom] at h
        | cons d ds =>
          by_cases hd : d.toNat < 128
          · simp [stripBom, hd] at h; subst h; exact .cut hd
          · simp [stripBom, hd] at h; subst h; exact .broken (by omega)
      · simp only [stripBom, hc, if_false, Except.ok.injEq] at h
        subst h; exact .plain (by simpa using hc)

theorem stripBom_err (p : Str) (e : Error) : stripBom p = .error e ↔ e = .outOfRange ∧ p = ['\uFEFF'] := by
  cases p with
  | nil => simp [stripBom]
  | cons c cs =>
    by_cases hc : c = '\uFEFF'
    · subst hc
      cases cs with
      | nil => simp [stripBom, eq_comm]
      | cons d ds => by_cases hd : d.toNat < 128 <;> simp [stripBom, hd]
    · simp [stripBom, hc]

theorem hasHeader_iff (cur : Str) (ps : List Str) (inp h : Str) (body : List Str) :
    HasHeader (cur :: ps) h body ↔ ∃ inp', headerLines cur ps inp = .ok (body, h, inp') := by
  constructor
  · rintro ⟨pre, h1, h2, h3⟩
    exact ⟨_, (headerLines_ok ps cur inp h _ body).2 ⟨pre, h1, h2, h3, rfl⟩⟩
  · rintro ⟨inp', hh⟩
    obtain ⟨pre, h1, h2, h3, _⟩ := (headerLines_ok ps cur inp h inp' body).1 hh
    exact ⟨pre, h1, h2, h3⟩

theorem loadBody_ok (icu : Icu) (name : Str) (body : List Str) (h inp : Str) (l : Lexicon) :
    loadBody icu name body h inp = .ok l ↔
      ∃ es, body ≠ [] ∧ (splitOn '\t' h).head? = some c!"LEXICON:" ∧
        BodyMeans icu (headerLocale h) (linesRead icu (headerLocale h) body) es ∧
        l = { es.foldl Lexicon.insert { name, lang := headerLang h, locale := headerLocale h } with
                md5in := inp ++ (linesRead icu (headerLocale h) body).flatten } := by
  unfold loadBody
  by_cases hf : (splitOn '\t' h).head? = some c!"LEXICON:"
  · rw [if_pos hf]
    cases body with
    | nil => simp
    | cons q qs =>
      simp only
      have key := entryLines_ok icu (linesRead icu (headerLocale h) (q :: qs)) { name, lang := headerLang h, locale := headerLocale h }
      cases hel : entryLines icu { name, lang := headerLang h, locale := headerLocale h } (linesRead icu (headerLocale h) (q :: qs)) with
      | error e =>
        simp only
        constructor
        · intro x; cases x
        · rintro ⟨es, _, _, hb, _⟩
          have := (key _).2 ⟨es, hb, rfl⟩
          rw [hel] at this; cases this
      | ok L =>
        obtain ⟨es, hb, e⟩ := (key L).1 hel
        simp only [Except.ok.injEq]
        constructor
        · rintro rfl
          exact ⟨es, by simp, hf, hb, by rw [e]⟩
        · rintro ⟨es', _, _, hb', rfl⟩
          have := (key _).2 ⟨es', hb', rfl⟩
          rw [hel] at this
          simp only [Except.ok.injEq] at this
          rw [this]
  · rw [if_neg hf]
    constructor
    · intro x; cases x
    · rintro ⟨es, _, h', _⟩; exact absurd h' hf

theorem load_text (icu : Icu) (name text : Str) : ∃ p ps, splitOn '\n' text = p :: ps ∧
    «initialize» icu name text = (match stripBom p with
      | .error e => .error e
      | .ok cur =>
        match headerLines cur ps p with
        | .error e => .error e
        | .ok (body, h, inp) => loadBody icu name body h inp) := by
  obtain ⟨p, ps, e, hn, ht⟩ := splitOn_spec '\n' text
  refine ⟨p, ps, e, ?_⟩
  rw [ht]
  exact initialize_lines icu name p ps hn

theorem load_ok (icu : Icu) (name text : Str) (l : Lexicon) :
    «initialize» icu name text = .ok l ↔ ∃ p ps p' body h inp es, splitOn '\n' text = p :: ps ∧ AfterBom p p' ∧
      headerLines p' ps p = .ok (body, h, inp) ∧ body ≠ [] ∧ (splitOn '\t' h).head? = some c!"LEXICON:" ∧
        BodyMeans icu (headerLocale h) (linesRead icu (headerLocale h) body) es ∧
        l = { es.foldl Lexicon.insert { name, lang := headerLang h, locale := headerLocale h } with
                md5in := inp ++ (linesRead icu (headerLocale h) body).flatten } := by
  obtain ⟨p, ps, e, hi⟩ := load_text icu name text
  rw [hi]
  constructor
  · intro h
    cases hb : stripBom p with
    | error e => rw [hb] at h; cases h
    | ok p' =>
      rw [hb] at h
      simp only at h
      cases hh : headerLines p' ps p with
      | error e => rw [hh] at h; cases h
      | ok r =>
        obtain ⟨body, hd, inp⟩ := r
        rw [hh] at h
        simp only at h
        obtain ⟨es, h1, h2, h3, h4⟩ := (loadBody_ok ..).1 h
        exact ⟨p, ps, p', body, hd, inp, es, e, (afterBom_iff _ _).2 hb, hh, h1, h2, h3, h4⟩
  · rintro ⟨q, qs, p', body, hd, inp, es, e1, e2, e3, e4, e5, e6, e7⟩
    rw [e] at e1
    obtain ⟨rfl, rfl⟩ := List.cons.inj e1
    rw [(afterBom_iff _ _).1 e2]
    simp only
    rw [e3]
    exact (loadBody_ok ..).2 ⟨es, e4, e5, e6, e7⟩

theorem loads (icu : Icu) (name text h : Str) (es : List LexEntry) (ht : LexText icu text h es) :
    ∃ l, «initialize» icu name text = .ok l ∧ l.name = name ∧ l.lang = headerLang h ∧ l.locale = headerLocale h ∧
      ∀ w, l.find w = (held (es.map LexOp.ins)).filter (fun e => e.word = w) := by
  obtain ⟨p, ps, p', body, h1, h2, h3, h4, h5, h6⟩ := ht
  obtain ⟨inp, hh⟩ := (hasHeader_iff p' ps p h body).1 h3
  refine ⟨_, (load_ok icu name text _).2 ⟨p, ps, p', body, h, inp, es, h1, h2, hh, h4, h5, h6, rfl⟩, ?_⟩
  obtain ⟨k1, k2, k3⟩ := inserts_keep es { name, lang := headerLang h, locale := headerLocale h }
  refine ⟨k1, k2, k3, fun w => ?_⟩
  rw [held_ins]
  exact (inserts_holds es (holds_empty name (headerLang h) (headerLocale h) [] [] [] [])).find w

theorem loads_only (icu : Icu) (name text : Str) (l : Lexicon) (hl : «initialize» icu name text = .ok l) :
    ∃ h es, LexText icu text h es := by
  obtain ⟨p, ps, p', body, h, inp, es, h1, h2, h3, h4, h5, h6, _⟩ := (load_ok icu name text l).1 hl
  exact ⟨h, es, p, ps, p', body, h1, h2, (hasHeader_iff p' ps p h body).2 ⟨inp, h3⟩, h4, h5, h6⟩

theorem bodyMeans_unique {icu : Icu} {loc : Str} {ls : List Str} {es es' : List LexEntry}
    (h : BodyMeans icu loc ls es) (h' : BodyMeans icu loc ls es') : es = es' := by
  induction h generalizing es' with
  | nil => cases h'; rfl
  | blank h ih =>
    rename_i ls es
    generalize hq : ([] : Str) :: ls = q at h'
    cases h' with
    | nil => cases hq
    | blank h2 => simp only [List.cons.injEq, true_and] at hq; subst hq; exact ih h2
    | entry h1 _ _ =>
      simp only [List.cons.injEq] at hq
      obtain ⟨rfl, rfl⟩ := hq
      simp at h1
  | entry h1 h2 h3 ih =>
    rename_i l ls es
    generalize hq : l :: ls = q at h'
    cases h' with
    | nil => cases hq
    | blank _ =>
      simp only [List.cons.injEq] at hq
      obtain ⟨rfl, rfl⟩ := hq
      simp at h1
    | entry _ _ h4 =>
      simp only [List.cons.injEq] at hq
      obtain ⟨rfl, rfl⟩ := hq
      rw [ih h4]

theorem afterBom_unique {p a b : Str} (h : AfterBom p a) (h' : AfterBom p b) : a = b := by
  rw [afterBom_iff] at h h'
  rw [h] at h'
  exact Except.ok.inj h'

theorem header_unique {pre pre' body body' : List Str} {h h' : Str} (e : pre ++ h :: body = pre' ++ h' :: body')
    (hp : ∀ x ∈ pre, ¬ c!"LEXICON:" <+: x ∧ ¬ c!"LEXENTRY:" <+: x) (hp' : ∀ x ∈ pre', ¬ c!"LEXICON:" <+: x ∧ ¬ c!"LEXENTRY:" <+: x)
    (h8 : c!"LEXICON:" <+: h) (h8' : c!"LEXICON:" <+: h') : pre = pre' ∧ h = h' ∧ body = body' := by
  induction pre generalizing pre' with
  | nil =>
    cases pre' with
    | nil =>
      simp only [List.nil_append, List.cons.injEq] at e
      exact ⟨rfl, e.1, e.2⟩
    | cons a pre' =>
      simp only [List.nil_append, List.cons_append, List.cons.injEq] at e
      obtain ⟨rfl, _⟩ := e
      exact absurd h8 (hp' _ (List.mem_cons_self ..)).1
  | cons b pre ih =>
    cases pre' with
    | nil =>
      simp only [List.nil_append, List.cons_append, List.cons.injEq] at e
      obtain ⟨rfl, _⟩ := e
      exact absurd h8' (hp _ (List.mem_cons_self ..)).1
    | cons a pre' =>
      simp only [List.cons_append, List.cons.injEq] at e
      obtain ⟨rfl, e⟩ := e
      obtain ⟨rfl, r⟩ := ih e (fun x hx => hp x (List.mem_cons_of_mem _ hx)) (fun x hx => hp' x (List.mem_cons_of_mem _ hx))
      exact ⟨rfl, r⟩

theorem lexText_unique {icu : Icu} {text h h' : Str} {es es' : List LexEntry}
    (ht : LexText icu text h es) (ht' : LexText icu text h' es') : h = h' ∧ es = es' := by
  obtain ⟨p, ps, p', body, h1, h2, ⟨pre, a1, a2, a3⟩, h4, h5, h6⟩ := ht
  obtain ⟨q, qs, q', body', g1, g2, ⟨pre', b1, b2, b3⟩, g4, g5, g6⟩ := ht'
  rw [h1] at g1
  obtain ⟨rfl, rfl⟩ := List.cons.inj g1
  have := afterBom_unique h2 g2
  subst this
  obtain ⟨rfl, rfl, rfl⟩ := header_unique (a1.symm.trans b1) a2 b2 a3 b3
  exact ⟨rfl, bodyMeans_unique h6 g6⟩

theorem mem_linesRead (icu : Icu) (loc : Str) : ∀ {ls : List Str} {l : Str}, l ∈ ls → l ∈ linesRead icu loc ls
  | [x], l, h => by
    rw [linesRead]
    split
    · exact h
    · simp only [List.mem_singleton] at h; rw [h]; exact List.mem_cons_self ..
  | x :: y :: ls, l, h => by
    rw [linesRead]
    rcases List.mem_cons.1 h with rfl | h
    · exact List.mem_cons_self ..
    · exact List.mem_cons_of_mem _ (mem_linesRead icu loc h)

theorem bodyMeans_lines {icu : Icu} {loc : Str} {ls : List Str} {es : List LexEntry} (h : BodyMeans icu loc ls es) :
    ∀ l ∈ ls, l = [] ∨ ((c!"LEXENTRY:" <+: l ∨ c!"LexEntry:" <+: l) ∧ InType.BADTOKEN ∉ (entryOf (canonLine icu loc l)).type) := by
  induction h with
  | nil => simp
  | blank _ ih =>
    intro l hl
    rcases List.mem_cons.1 hl with rfl | hl
    · exact Or.inl rfl
    · exact ih l hl
  | entry h1 h2 _ ih =>
    intro l hl
    rcases List.mem_cons.1 hl with rfl | hl
    · exact Or.inr ⟨h1, h2⟩
    · exact ih l hl

theorem not_both {l : Str} (h : c!"LEXICON:" <+: l) : ¬ c!"LEXENTRY:" <+: l := by
  intro h'
  have h8 := (take8 l).2 h
  have h9 := (take9 l).2 h'
  have := congrArg (List.take 8) h9
  rw [List.take_take] at this
  have e : l.take 8 = c!"LEXENTRY" := this
  rw [h8] at e
  exact absurd e (by decide)

theorem headerLines_before : ∀ (ps : List Str) (cur inp : Str),
    (headerLines cur ps inp = .error .entryBeforeLexicon ↔ ∃ pre l post, cur :: ps = pre ++ l :: post ∧ c!"LEXENTRY:" <+: l ∧
      ∀ x ∈ pre, ¬ c!"LEXICON:" <+: x ∧ ¬ c!"LEXENTRY:" <+: x) ∧
    (headerLines cur ps inp = .error .invalidFileFormat ↔ ∀ x ∈ cur :: ps, ¬ c!"LEXICON:" <+: x ∧ ¬ c!"LEXENTRY:" <+: x)
  | ps, cur, inp => by
    have hdef : headerLines cur ps inp =
        if c!"LEXICON:" <+: cur then .ok (ps, cur, inp)
        else if c!"LEXENTRY:" <+: cur then .error .entryBeforeLexicon
        else match ps with
          | [] => .error .invalidFileFormat
          | q :: qs => headerLines q qs (inp ++ q) := by
      cases ps <;> rw [headerLines]
    rw [hdef]
    by_cases h8 : c!"LEXICON:" <+: cur
    · rw [if_pos h8]
      refine ⟨⟨fun x => (nomatch x), ?_⟩, ⟨fun x => (nomatch x), fun x => absurd h8 (x cur (List.mem_cons_self ..)).1⟩⟩
      rintro ⟨pre, l, post, e1, e2, e3⟩
      cases pre with
      | nil =>
        simp only [List.nil_append, List.cons.injEq] at e1
        rw [← e1.1] at e2; exact absurd e2 (not_both h8)
      | cons a pre =>
        simp only [List.cons_append, List.cons.injEq] at e1
        rw [e1.1] at h8; exact absurd h8 (e3 a (List.mem_cons_self ..)).1
    · rw [if_neg h8]
      by_cases h9 : c!"LEXENTRY:" <+: cur
      · rw [if_pos h9]
        refine ⟨⟨fun _ => ⟨[], cur, ps, rfl, h9, by simp⟩, fun _ => rfl⟩, ⟨fun x => (nomatch x), fun x => absurd h9 (x cur (List.mem_cons_self ..)).2⟩⟩
      · rw [if_neg h9]
        cases ps with
        | nil =>
          simp only
          refine ⟨⟨fun x => (nomatch x), ?_⟩, ⟨fun _ x hx => ?_, fun _ => by trivial⟩⟩
          · rintro ⟨pre, l, post, e1, e2, _⟩
            cases pre with
            | nil =>
              simp only [List.nil_append, List.cons.injEq] at e1
              rw [← e1.1] at e2; exact absurd e2 h9
            | cons a pre => simp at e1
          · simp only [List.mem_singleton] at hx
            rw [hx]; exact ⟨h8, h9⟩
        | cons q qs =>
          simp only
          obtain ⟨i1, i2⟩ := headerLines_before qs q (inp ++ q)
          rw [i1, i2]
          constructor
          · constructor
            · rintro ⟨pre, l, post, e1, e2, e3⟩
              refine ⟨cur :: pre, l, post, by rw [e1]; rfl, e2, ?_⟩
              intro x hx
              rcases List.mem_cons.1 hx with rfl | hx
              · exact ⟨h8, h9⟩
              · exact e3 x hx
            · rintro ⟨pre, l, post, e1, e2, e3⟩
              cases pre with
              | nil =>
                simp only [List.nil_append, List.cons.injEq] at e1
                rw [← e1.1] at e2; exact absurd e2 h9
              | cons a pre =>
                simp only [List.cons_append, List.cons.injEq] at e1
                exact ⟨pre, l, post, e1.2, e2, fun x hx => e3 x (List.mem_cons_of_mem _ hx)⟩
          · constructor
            · intro h x hx
              rcases List.mem_cons.1 hx with rfl | hx
              · exact ⟨h8, h9⟩
              · exact h x hx
            · exact fun h x hx => h x (List.mem_cons_of_mem _ hx)
termination_by ps => ps.length

theorem loadBody_err (icu : Icu) (name : Str) (body : List Str) (h inp : Str) (e : Error) (he : loadBody icu name body h inp = .error e) :
    (∃ l, e = .invalidLexEntry l) ∨ ∃ l, e = .invalidDataFormat l := by
  unfold loadBody at he
  split at he
  · cases body with
    | nil => simp only at he; cases he; exact Or.inl ⟨_, rfl⟩
    | cons q qs =>
      simp only at he
      split at he
      · rename_i e' h'
        cases he
        exact Or.inl (entryLines_not_diverges icu _ _ _ h')
      · cases he
  · cases he; exact Or.inr ⟨_, rfl⟩

theorem load_errors (icu : Icu) (name text : Str) :
    «initialize» icu name text ≠ .error .diverges ∧
    («initialize» icu name text = .error .outOfRange ↔ (splitOn '\n' text).head? = some ['\uFEFF']) ∧
    («initialize» icu name text = .error .entryBeforeLexicon ↔
      ∃ p ps p' pre l post, splitOn '\n' text = p :: ps ∧ AfterBom p p' ∧ p' :: ps = pre ++ l :: post ∧
      c!"LEXENTRY:" <+: l ∧ ∀ x ∈ pre, ¬ c!"LEXICON:" <+: x ∧ ¬ c!"LEXENTRY:" <+: x) ∧
    («initialize» icu name text = .error .invalidFileFormat ↔ ∃ p ps p', splitOn '\n' text = p :: ps ∧ AfterBom p p' ∧
      ∀ x ∈ p' :: ps, ¬ c!"LEXICON:" <+: x ∧ ¬ c!"LEXENTRY:" <+: x) := by
  obtain ⟨p, ps, es, hi⟩ := load_text icu name text
  rw [hi]
  have c1 : (∃ p ps p' pre l post, splitOn '\n' text = p :: ps ∧ AfterBom p p' ∧ p' :: ps = pre ++ l :: post ∧
      c!"LEXENTRY:" <+: l ∧ ∀ x ∈ pre, ¬ c!"LEXICON:" <+: x ∧ ¬ c!"LEXENTRY:" <+: x) ↔
      ∃ p', stripBom p = .ok p' ∧ headerLines p' ps p = .error .entryBeforeLexicon := by
    constructor
    · rintro ⟨q, qs, p', pre, l, post, e1, e2, e3, e4, e5⟩
      rw [es] at e1
      obtain ⟨rfl, rfl⟩ := List.cons.inj e1
      exact ⟨p', (afterBom_iff _ _).1 e2, (headerLines_before ps p' p).1.2 ⟨pre, l, post, e3, e4, e5⟩⟩
    · rintro ⟨p', e2, e3⟩
      obtain ⟨pre, l, post, k⟩ := (headerLines_before ps p' p).1.1 e3
      exact ⟨p, ps, p', pre, l, post, es, (afterBom_iff _ _).2 e2, k⟩
  have c2 : (∃ p ps p', splitOn '\n' text = p :: ps ∧ AfterBom p p' ∧
      ∀ x ∈ p' :: ps, ¬ c!"LEXICON:" <+: x ∧ ¬ c!"LEXENTRY:" <+: x) ↔
      ∃ p', stripBom p = .ok p' ∧ headerLines p' ps p = .error .invalidFileFormat := by
    constructor
    · rintro ⟨q, qs, p', e1, e2, e3⟩
      rw [es] at e1
      obtain ⟨rfl, rfl⟩ := List.cons.inj e1
      exact ⟨p', (afterBom_iff _ _).1 e2, (headerLines_before ps p' p).2.2 e3⟩
    · rintro ⟨p', e2, e3⟩
      exact ⟨p, ps, p', es, (afterBom_iff _ _).2 e2, (headerLines_before ps p' p).2.1 e3⟩
  rw [c1, c2, es]
  simp only [List.head?_cons, Option.some.injEq]
  cases hb : stripBom p with
  | error e' =>
    obtain ⟨rfl, hp⟩ := (stripBom_err p e').1 hb
    simp [hp]
  | ok p' =>
    have hp : p ≠ ['\uFEFF'] := by
      intro hp
      rw [(stripBom_err p .outOfRange).2 ⟨rfl, hp⟩] at hb
      cases hb
    simp only [Except.ok.injEq, exists_eq_left']
    cases hh : headerLines p' ps p with
    | error e' =>
      rcases headerLines_err ps p' p e' hh with rfl | rfl <;> simp [hp]
    | ok r =>
      obtain ⟨body, hd, inp⟩ := r
      simp only
      cases hl : loadBody icu name body hd inp with
      | ok l => simp [hp]
      | error e =>
        rcases loadBody_err icu name body hd inp e hl with ⟨l, rfl⟩ | ⟨l, rfl⟩ <;> simp [hp]

/-! ### Standard words -/

theorem first_split : ∀ (es : List LexEntry) (c : InType),
    (∃ a e b, es = a ++ e :: b ∧ c ∈ e.type ∧ ∀ x ∈ a, c ∉ x.type) ∨ (∀ e ∈ es, c ∉ e.type)
  | [], c => Or.inr (by simp)
  | e :: es, c => by
    by_cases h : c ∈ e.type
    · exact Or.inl ⟨[], e, es, rfl, h, by simp⟩
    · rcases first_split es c with ⟨a, e', b, h1, h2, h3⟩ | h1
      · refine Or.inl ⟨e :: a, e', b, by rw [h1]; rfl, h2, ?_⟩
        intro x hx
        rcases List.mem_cons.1 hx with rfl | hx
        · exact h
        · exact h3 x hx
      · refine Or.inr ?_
        intro x hx
        rcases List.mem_cons.1 hx with rfl | hx
        · exact h
        · exact h1 x hx

theorem stdLoop_first (c : InType) (cs : List InType) : ∀ (a : List LexEntry) (e : LexEntry) (b : List LexEntry),
    c ∈ e.type → (∀ x ∈ a, c ∉ x.type) → stdLoop (c :: cs) (a ++ e :: b) = some (some e.stdword)
  | [], e, b, h, _ => by simp [stdLoop, LexEntry.isInClass, h]
  | x :: a, e, b, h, ha => by
    have hx := ha x (List.mem_cons_self ..)
    rw [List.cons_append, stdLoop]
    simp only [LexEntry.isInClass, List.contains_iff_mem, hx, if_false]
    exact stdLoop_first c cs a e b h (fun y hy => ha y (List.mem_cons_of_mem _ hy))

theorem stdLoop_none (c : InType) (cs : List InType) : ∀ (a : List LexEntry), (∀ x ∈ a, c ∉ x.type) →
    stdLoop (c :: cs) a = some none
  | [], _ => rfl
  | x :: a, ha => by
    have hx := ha x (List.mem_cons_self ..)
    rw [stdLoop]
    simp only [LexEntry.isInClass, List.contains_iff_mem, hx, if_false]
    exact stdLoop_none c cs a (fun y hy => ha y (List.mem_cons_of_mem _ hy))

theorem standardize_spec (l : Lexicon) (t : Token) (c : InType) (cs : List InType) (hc : t.inclass = c :: cs) :
    ∃ s, l.standardize t = some { t with stdtext := s } ∧
      (∀ a e b, l.find t.text = a ++ e :: b → c ∈ e.type → (∀ x ∈ a, c ∉ x.type) →
        s = if e.stdword = [] then t.text else e.stdword) ∧
      ((∀ e ∈ l.find t.text, c ∉ e.type) → s = if t.stdtext = [] then t.text else t.stdtext) ∧
      (t.text ≠ [] → s ≠ []) := by
  have pick : ∀ u : Str, t.text ≠ [] → (if u = [] then t.text else u) ≠ [] := by
    intro u h
    split
    · exact h
    · assumption
  unfold standardize
  rw [hc]
  rcases first_split (l.find t.text) c with ⟨a, e, b, h1, h2, h3⟩ | h1
  · refine ⟨if e.stdword = [] then t.text else e.stdword, ?_, ?_, ?_, pick _⟩
    · rw [h1, stdLoop_first c cs a e b h2 h3]
      by_cases hs : e.stdword = [] <;> simp [hs]
    · intro a' e' b' g1 g2 g3
      have u1 := stdLoop_first c cs a e b h2 h3
      have u2 := stdLoop_first c cs a' e' b' g2 g3
      rw [← h1] at u1
      rw [← g1, u1] at u2
      simp only [Option.some.injEq] at u2
      rw [u2]
    · intro h
      exact absurd h2 (h e (by rw [h1]; simp))
  · refine ⟨if t.stdtext = [] then t.text else t.stdtext, ?_, ?_, fun _ => rfl, pick _⟩
    · rw [stdLoop_none c cs _ h1]
      by_cases hs : t.stdtext = [] <;> simp [hs, hc]
      rw [← hc]
    · intro a' e' b' g1 g2 _
      exact absurd g2 (h1 e' (by rw [g1]; simp))

end Lexicon
end AS
