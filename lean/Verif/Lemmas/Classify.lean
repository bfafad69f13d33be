import Verif.Spec.Classify
import Verif.Lemmas.Rx
import Verif.Lemmas.Codec
/-
Facts about the classification of tokens.
-/
namespace AS

theorem byteLen_eq (s : Str) : byteLen s = utf8Bytes s := by
  rw [utf8Bytes, byteLen]
  induction s with
  | nil => rfl
  | cons c s ih =>
    rw [List.map_cons, List.foldr_cons, ih, String.ofList_cons, String.utf8ByteSize_append]
    simp [String.utf8ByteSize_singleton]

theorem atBol_start (s : Str) (c : List (Nat × Str)) : atBol ⟨[], s, c⟩ = true := by simp [atBol]

theorem atEol_end (p : Str) (c : List (Nat × Str)) : atEol ⟨p, [], c⟩ = true := by
  cases p <;> simp [atEol]

/-- A whole match of `^a$`. -/
theorem full_between {a : Rx} {s : Str} :
    (∃ m, m ∈ (Rx.seq .bol (.seq a .eol)).run ⟨[], s, []⟩ ∧ m.rest = []) ↔
    ∃ m ∈ a.run ⟨[], s, []⟩, m.rest = [] := by
  simp only [mem_seq, mem_bol, mem_eol]
  constructor
  · rintro ⟨m, ⟨x, ⟨_, rfl⟩, y, h, _, rfl⟩, h'⟩
    exact ⟨_, h, h'⟩
  · rintro ⟨m, h, h'⟩
    refine ⟨m, ⟨_, ⟨atBol_start _ _, rfl⟩, m, h, ?_, rfl⟩, h'⟩
    obtain ⟨p, r, c⟩ := m
    subst h'; exact atEol_end _ _

theorem full_plus (p : Char → Bool) (s : Str) :
    (Rx.seqs [.bol, .plus p, .eol]).full s = true ↔ RunOf p s := by
  rw [full_iff]
  simp only [Rx.seqs]
  rw [full_between]
  simp only [mem_plus, RunOf]
  constructor
  · rintro ⟨m, ⟨a, h0, h1, ⟨h2, _⟩, _⟩, h3⟩
    rw [h3, List.append_nil] at h2
    simp only at h2; subst h2; exact ⟨h0, h1⟩
  · rintro ⟨h0, h1⟩
    exact ⟨⟨s.reverse, [], []⟩, ⟨s, h0, h1, ⟨by simp, by simp⟩, rfl⟩, rfl⟩

theorem full_sep (p q : Char → Bool) (s : Str) :
    (Rx.seqs [.bol, .plus p, .cls q, .plus p, .eol]).full s = true ↔
    ∃ a x b, s = a ++ [x] ++ b ∧ RunOf p a ∧ q x = true ∧ RunOf p b := by
  rw [full_iff]
  simp only [Rx.seqs, mem_seq, mem_bol, mem_eol, mem_plus, mem_cls, RunOf]
  constructor
  · rintro ⟨m, ⟨_, ⟨_, rfl⟩, m1, ⟨a, ha0, ha, e1, _⟩, m2, ⟨x, hx, e2, _⟩, m3, ⟨b, hb0, hb, e3, _⟩, _, rfl⟩, h⟩
    have := ((e1.trans e2).trans e3).1
    rw [h, List.append_nil] at this
    exact ⟨a, x, b, this, ⟨ha0, ha⟩, hx, ⟨hb0, hb⟩⟩
  · rintro ⟨a, x, b, rfl, ⟨ha0, ha⟩, hx, ⟨hb0, hb⟩⟩
    refine ⟨⟨(a ++ [x] ++ b).reverse, [], []⟩, ⟨_, ⟨atBol_start _ _, rfl⟩, ⟨a.reverse, [x] ++ b, []⟩, ⟨a, ha0, ha, ⟨by simp, by simp⟩, rfl⟩,
      ⟨(a ++ [x]).reverse, b, []⟩, ⟨x, hx, ⟨by simp, by simp⟩, rfl⟩, ⟨(a ++ [x] ++ b).reverse, [], []⟩, ⟨b, hb0, hb, ⟨by simp, by simp⟩, rfl⟩, atEol_end _ _, rfl⟩, rfl⟩

theorem full_float (u : UTables) (s : Str) : (Shape.float u).full s = true ↔ IsDecimal u s := by
  simp only [Shape.float, full_sep, IsDecimal, Bool.or_eq_true, decide_eq_true_eq]

theorem full_fract (u : UTables) (s : Str) : (Shape.fract u).full s = true ↔ IsFraction u s := by
  simp only [Shape.fract, full_sep, IsFraction, decide_eq_true_eq]
  constructor
  · rintro ⟨a, x, b, h, ha, rfl, hb⟩; exact ⟨a, b, h, ha, hb⟩
  · rintro ⟨a, b, h, ha, hb⟩; exact ⟨a, _, b, h, ha, rfl, hb⟩

theorem full_num (u : UTables) (s : Str) : (Shape.num u).full s = true ↔ RunOf u.digit s := full_plus _ _
theorem full_word (u : UTables) (s : Str) : (Shape.word u).full s = true ↔ RunOf u.isWord s := full_plus _ _
theorem full_space (u : UTables) (s : Str) : (Shape.space u).full s = true ↔ RunOf u.isSpace s := full_plus _ _
theorem full_dash (s : Str) : Shape.dash.full s = true ↔ RunOf (· == '-') s := by
  rw [Shape.dash, full_plus]; rfl
theorem full_punct (u : UTables) (s : Str) : (Shape.punct u).full s = true ↔
    RunOf (fun c => c == '|' || u.punct c) s := by
  rw [Shape.punct, full_plus]; rfl

theorem full_emdash (s : Str) : Shape.emdash.full s = true ↔ s = c!"—" := by
  rw [full_iff]
  simp only [Shape.emdash, Rx.seqs]
  rw [full_between]
  simp only [mem_cls, decide_eq_true_eq]
  constructor
  · rintro ⟨m, ⟨c, rfl, ⟨h, _⟩, _⟩, h'⟩
    rw [h', List.append_nil] at h
    exact h
  · rintro rfl
    exact ⟨⟨['—'], [], []⟩, ⟨_, rfl, ⟨rfl, rfl⟩, rfl⟩, rfl⟩

theorem full_hasDigit (u : UTables) (s : Str) : (Shape.hasDigit u).full s = true ↔ ∃ c ∈ s, u.digit c = true := by
  rw [full_iff]
  simp only [Shape.hasDigit, Rx.seqs, mem_seq, mem_bol, mem_eol, mem_star, mem_cls]
  constructor
  · rintro ⟨m, ⟨_, ⟨_, rfl⟩, m1, ⟨a, _, e1, _⟩, m2, ⟨x, hx, e2, _⟩, m3, ⟨b, _, e3, _⟩, _, rfl⟩, h⟩
    have := ((e1.trans e2).trans e3).1
    rw [h, List.append_nil] at this
    simp only at this
    exact ⟨x, by rw [this]; simp, hx⟩
  · rintro ⟨x, hm, hx⟩
    obtain ⟨a, b, rfl⟩ := List.append_of_mem hm
    refine ⟨⟨(a ++ [x] ++ b).reverse, [], []⟩, ⟨_, ⟨atBol_start _ _, rfl⟩, ⟨a.reverse, [x] ++ b, []⟩, ⟨a, by simp, ⟨by simp, by simp⟩, rfl⟩,
      ⟨(a ++ [x]).reverse, b, []⟩, ⟨x, hx, ⟨by simp, by simp⟩, rfl⟩, ⟨(a ++ [x] ++ b).reverse, [], []⟩, ⟨b, by simp, ⟨by simp, by simp⟩, rfl⟩, atEol_end _ _, rfl⟩, rfl⟩

theorem az_iff (u : UTables) (c : Char) : Shape.az u c = true ↔ AZ u c := by
  simp [Shape.az, AZ]

theorem dI_iff (u : UTables) (c : Char) : Shape.dI u c = true ↔ Dig u c := by
  simp [Shape.dI, Dig]

theorem mem_optCls {p : Char → Bool} {m m' : M} : m' ∈ (Rx.opt (.cls p)).run m ↔
    ∃ a : Str, a.length ≤ 1 ∧ (∀ c ∈ a, p c = true) ∧ Eats m a m' ∧ m'.caps = m.caps := by
  rw [mem_opt, mem_cls]
  constructor
  · rintro (⟨c, h, e, hc⟩ | rfl)
    · exact ⟨[c], by simp, by simpa using h, e, hc⟩
    · exact ⟨[], by simp, by simp, Eats.refl _, rfl⟩
  · rintro ⟨a, hl, h, e, hc⟩
    cases a with
    | nil =>
      right
      obtain ⟨h1, h2⟩ := e
      obtain ⟨p1, r1, c1⟩ := m
      obtain ⟨p2, r2, c2⟩ := m'
      simp at h1 h2 hc
      simp [h1, h2, hc]
    | cons c a =>
      have : a = [] := by simpa using hl
      subst this
      exact Or.inl ⟨c, h c (by simp), e, hc⟩

theorem full_pch (u : UTables) (s : Str) : (Shape.pch u).full s = true ↔ IsPostHead u s := by
  rw [full_iff]
  simp only [Shape.pch, Rx.seqs, mem_seq, mem_bol, mem_eol, mem_cls, mem_optCls, az_iff, dI_iff]
  constructor
  · rintro ⟨m, ⟨_, ⟨_, rfl⟩, m1, ⟨x, hx, e1, _⟩, m2, ⟨a, la, ha, e2, _⟩, m3, ⟨y, hy, e3, _⟩, m4, ⟨b, lb, hb, e4, _⟩,
      m5, ⟨c, lc, hc, e5, _⟩, _, rfl⟩, h⟩
    have := ((((e1.trans e2).trans e3).trans e4).trans e5).1
    rw [h, List.append_nil] at this
    simp only at this
    refine ⟨x :: a, y :: b, c, by rw [this]; simp, by rw [List.length_cons]; omega, ?_, by rw [List.length_cons]; omega, ?_, lc, hc⟩
    · intro z hz; rcases List.mem_cons.1 hz with rfl | hz
      · exact hx
      · exact ha _ hz
    · intro z hz; rcases List.mem_cons.1 hz with rfl | hz
      · exact hy
      · exact hb _ hz
  · rintro ⟨a, b, c, rfl, la, ha, lb, hb, lc, hc⟩
    cases a with
    | nil => simp at la
    | cons x a =>
    cases b with
    | nil => simp at lb
    | cons y b =>
    simp only [List.length_cons] at la lb
    refine ⟨⟨(x :: a ++ y :: b ++ c).reverse, [], []⟩, ⟨_, ⟨atBol_start _ _, rfl⟩,
      ⟨[x], a ++ y :: b ++ c, []⟩, ⟨x, ha x (by simp), ⟨by simp, by simp⟩, rfl⟩,
      ⟨(x :: a).reverse, y :: b ++ c, []⟩, ⟨a, by omega, fun z hz => ha z (by simp [hz]), ⟨by simp, by simp⟩, rfl⟩,
      ⟨(x :: a ++ [y]).reverse, b ++ c, []⟩, ⟨y, hb y (by simp), ⟨by simp, by simp⟩, rfl⟩,
      ⟨(x :: a ++ y :: b).reverse, c, []⟩, ⟨b, by omega, fun z hz => hb z (by simp [hz]), ⟨by simp, by simp⟩, rfl⟩,
      ⟨(x :: a ++ y :: b ++ c).reverse, [], []⟩, ⟨c, lc, hc, ⟨by simp, by simp⟩, rfl⟩, atEol_end _ _, rfl⟩, rfl⟩

theorem full_pct (u : UTables) (s : Str) : (Shape.pct u).full s = true ↔ IsPostTail u s := by
  rw [full_iff]
  simp only [Shape.pct, Rx.seqs]
  rw [full_between]
  simp only [mem_alt, mem_seq, mem_cls, az_iff, dI_iff]
  constructor
  · rintro ⟨m, (⟨m1, ⟨x, hx, e1, _⟩, m2, ⟨y, hy, e2, _⟩, z, hz, e3, _⟩ | ⟨m1, ⟨x, hx, e1, _⟩, m2, ⟨y, hy, e2, _⟩, z, hz, e3, _⟩), h⟩
    all_goals
      have := ((e1.trans e2).trans e3).1
      rw [h, List.append_nil] at this
      simp only at this
    · exact ⟨x, y, z, this, hx, hy, Or.inl hz⟩
    · exact ⟨x, y, z, this, hx, hy, Or.inr hz⟩
  · rintro ⟨x, y, z, rfl, hx, hy, hz⟩
    refine ⟨⟨[z, y, x], [], []⟩, ?_, rfl⟩
    rcases hz with hz | hz
    · exact Or.inl ⟨⟨[x], [y, z], []⟩, ⟨x, hx, ⟨rfl, rfl⟩, rfl⟩, ⟨[y, x], [z], []⟩, ⟨y, hy, ⟨rfl, rfl⟩, rfl⟩, z, hz, ⟨rfl, rfl⟩, rfl⟩
    · exact Or.inr ⟨⟨[x], [y, z], []⟩, ⟨x, hx, ⟨rfl, rfl⟩, rfl⟩, ⟨[y, x], [z], []⟩, ⟨y, hy, ⟨rfl, rfl⟩, rfl⟩, z, hz, ⟨rfl, rfl⟩, rfl⟩

/-! ### Sets of classes -/

theorem mem_addClass (t : Token) (c d : InType) : d ∈ (t.addClass c).inclass ↔ d = c ∨ d ∈ t.inclass := by
  rw [Token.addClass]; exact mem_setInsert _ code_inj ..

theorem mem_addClasses (d : InType) : ∀ (cs : List InType) (t : Token),
    d ∈ (cs.foldl Token.addClass t).inclass ↔ d ∈ t.inclass ∨ d ∈ cs
  | [], t => by simp
  | c :: cs, t => by
    rw [List.foldl_cons, mem_addClasses d cs, mem_addClass, List.mem_cons]
    constructor
    · rintro ((h | h) | h)
      · exact Or.inr (Or.inl h)
      · exact Or.inl h
      · exact Or.inr (Or.inr h)
    · rintro (h | h | h)
      · exact Or.inl (Or.inr h)
      · exact Or.inl (Or.inl h)
      · exact Or.inr h

theorem mem_addTypes (d : InType) : ∀ (es : List LexEntry) (t : Token),
    d ∈ (Lexicon.addTypes es t).inclass ↔ d ∈ t.inclass ∨ ∃ e ∈ es, d ∈ e.type
  | [], t => by simp [Lexicon.addTypes]
  | e :: es, t => by
    rw [Lexicon.addTypes, List.foldl_cons, ← Lexicon.addTypes, mem_addTypes d es, mem_addClasses]
    simp only [List.mem_cons, exists_eq_or_imp]
    exact or_assoc

theorem addClasses_rest (cs : List InType) (t : Token) :
    (cs.foldl Token.addClass t) = { t with inclass := (cs.foldl Token.addClass t).inclass } := by
  induction cs generalizing t with
  | nil => rfl
  | cons c cs ih => rw [List.foldl_cons, ih]; rfl

theorem addTypes_rest (es : List LexEntry) (t : Token) :
    Lexicon.addTypes es t = { t with inclass := (Lexicon.addTypes es t).inclass } := by
  induction es generalizing t with
  | nil => rfl
  | cons e es ih =>
    rw [Lexicon.addTypes, List.foldl_cons, ← Lexicon.addTypes, ih]
    rw [addClasses_rest]

theorem isSet_addClass {t : Token} (c : InType) (h : IsSet InType.code t.inclass) :
    IsSet InType.code (t.addClass c).inclass := isSet_setInsert _ code_inj _ _ h

theorem isSet_addTypes (es : List LexEntry) : ∀ {t : Token}, IsSet InType.code t.inclass →
    IsSet InType.code (Lexicon.addTypes es t).inclass := by
  have inner : ∀ (cs : List InType) {t : Token}, IsSet InType.code t.inclass →
      IsSet InType.code (cs.foldl Token.addClass t).inclass := by
    intro cs
    induction cs with
    | nil => intro t h; exact h
    | cons c cs ih => intro t h; exact ih (isSet_addClass c h)
  induction es with
  | nil => intro t h; exact h
  | cons e es ih => intro t h; exact ih (inner _ h)

end AS
