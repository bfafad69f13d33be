import Verif.Lemmas.Classify
/-
Properties C13 and C14: classification of tokens.
-/
namespace AS.Props

/-! ## C13 -/

/-- A token whose text the lexicon lists with some class (or that already had one) has exactly the
classes of the entries and its own; it is marked as found; nothing else changes. -/
theorem C13_in_lexicon (u : UTables) (l : Lexicon) (t : Token) (dflt : InType)
    (h : ∃ c, c ∈ t.inclass ∨ ∃ e ∈ l.find t.text, c ∈ e.type) :
    (∀ c, c ∈ (l.classify u t dflt).inclass ↔ c ∈ t.inclass ∨ ∃ e ∈ l.find t.text, c ∈ e.type) ∧
    l.classify u t dflt = { t with inclass := (l.classify u t dflt).inclass, inlex := true } := by
  have hne : (Lexicon.addTypes (l.find t.text) t).inclass.isEmpty = false := by
    obtain ⟨c, hc⟩ := h
    have := (mem_addTypes c (l.find t.text) t).2 hc
    cases hl : (Lexicon.addTypes (l.find t.text) t).inclass with
    | nil => rw [hl] at this; cases this
    | cons _ _ => rfl
  have e : l.classify u t dflt = { Lexicon.addTypes (l.find t.text) t with inlex := true } := by
    simp only [Lexicon.classify, hne, Bool.not_false, if_true]
  constructor
  · intro c; rw [e]; exact mem_addTypes c _ _
  · rw [e, addTypes_rest]

theorem addTypes_none (es : List LexEntry) (t : Token) (h0 : t.inclass = []) (h : ∀ e ∈ es, e.type = []) :
    Lexicon.addTypes es t = t := by
  have e := addTypes_rest es t
  have : (Lexicon.addTypes es t).inclass = [] := by
    rw [List.eq_nil_iff_forall_not_mem]
    intro c hc
    rcases (mem_addTypes c es t).1 hc with h' | ⟨x, hx, h'⟩
    · rw [h0] at h'; cases h'
    · rw [h x hx] at h'; cases h'
  rw [e, this, ← h0]

theorem classify_out (u : UTables) (l : Lexicon) (t : Token) (dflt : InType)
    (h0 : t.inclass = []) (h : ∀ e ∈ l.find t.text, e.type = []) :
    l.classify u t dflt =
      if (Lexicon.byShape u { t with inlex := false }).inclass.isEmpty
      then (Lexicon.byShape u { t with inlex := false }).addClass dflt
      else Lexicon.byShape u { t with inlex := false } := by
  simp only [Lexicon.classify, addTypes_none _ _ h0 h, h0, List.isEmpty_nil, Bool.not_true, Bool.false_eq_true, if_false]

theorem addClass_not_empty (t : Token) (c : InType) : (t.addClass c).inclass.isEmpty = false := by
  have := (mem_addClass t c c).2 (Or.inl rfl)
  cases hl : (t.addClass c).inclass with
  | nil => rw [hl] at this; cases this
  | cons _ _ => rfl

/-- A token the lexicon has no class for gets the classes of the first shape that applies to its
text, in the order of `shapes`; it is marked as not found. -/
theorem C13_by_shape (u : UTables) (l : Lexicon) (t : Token) (dflt : InType)
    (h0 : t.inclass = []) (h : ∀ e ∈ l.find t.text, e.type = []) :
    (∀ c, c ∈ (l.classify u t dflt).inclass ↔ FirstShape (shapes u dflt) t.text c) ∧
    (l.classify u t dflt).inlex = false := by
  rw [classify_out u l t dflt h0 h]
  obtain ⟨text, stdtext, inclass, oc, at_, il⟩ := t
  simp only at h0 h ⊢
  subst h0
  constructor
  · intro c
    simp only [Lexicon.byShape, shapes, FirstShape, byteLen_eq]
    by_cases g1 : IsDecimal u text
    · have f : (Shape.float u).full text = true := (full_float ..).2 g1
      simp [f, g1, mem_addClass, addClass_not_empty]
    have fg1 : ¬ (Shape.float u).full text = true := fun h => g1 ((full_float ..).1 h)
    simp only [fg1, g1, not_false_eq_true, true_and, false_and, false_or]
    by_cases g2 : RunOf u.digit text
    · have f : (Shape.num u).full text = true := (full_num ..).2 g2
      simp only [f, g2, if_true, true_and, not_true_eq_false, false_and, or_false]
      by_cases i4 : utf8Bytes text = 4
      · simp [mem_addClass, addClass_not_empty, i4]; exact Or.comm
      · by_cases i5 : utf8Bytes text = 5
        · simp [mem_addClass, addClass_not_empty, i5]; exact Or.comm
        · simp [mem_addClass, addClass_not_empty, i4, i5]
    have fg2 : ¬ (Shape.num u).full text = true := fun h => g2 ((full_num ..).1 h)
    simp only [fg2, g2, not_false_eq_true, true_and, false_and, false_or]
    by_cases g3 : text = c!"@"
    · simp [g3, mem_addClass, addClass_not_empty]
    simp only [g3, if_false, not_false_eq_true, true_and, false_and, false_or]
    by_cases g4 : text = c!"/"
    · simp [g4, mem_addClass, addClass_not_empty]
    simp only [g4, if_false, not_false_eq_true, true_and, false_and, false_or]
    by_cases g5 : IsFraction u text
    · have f : (Shape.fract u).full text = true := (full_fract ..).2 g5
      simp [f, g5, mem_addClass, addClass_not_empty]
    have fg5 : ¬ (Shape.fract u).full text = true := fun h => g5 ((full_fract ..).1 h)
    simp only [fg5, g5, not_false_eq_true, true_and, false_and, false_or]
    by_cases g6 : IsPostHead u text
    · have f : (Shape.pch u).full text = true := (full_pch ..).2 g6
      simp [f, g6, mem_addClass, addClass_not_empty]; exact Or.comm
    have fg6 : ¬ (Shape.pch u).full text = true := fun h => g6 ((full_pch ..).1 h)
    simp only [fg6, g6, not_false_eq_true, true_and, false_and, false_or]
    by_cases g7 : IsPostTail u text
    · have f : (Shape.pct u).full text = true := (full_pct ..).2 g7
      simp [f, g7, mem_addClass, addClass_not_empty]; exact Or.comm
    have fg7 : ¬ (Shape.pct u).full text = true := fun h => g7 ((full_pct ..).1 h)
    simp only [fg7, g7, not_false_eq_true, true_and, false_and, false_or]
    by_cases g8 : RunOf u.isWord text
    · have f : (Shape.word u).full text = true := (full_word ..).2 g8
      by_cases g9 : ∃ c ∈ text, u.digit c = true
      · have f' : (Shape.hasDigit u).full text = true := (full_hasDigit ..).2 g9
        simp [f, f', g8, g9, mem_addClass, addClass_not_empty]
      · have f' : ¬ (Shape.hasDigit u).full text = true := fun h => g9 ((full_hasDigit ..).1 h)
        simp only [f, f', g8, g9, if_true, if_false, and_false, not_false_eq_true, true_and, false_and, false_or,
          not_true_eq_false, or_false, addClass_not_empty, Bool.false_eq_true]
        split <;> rename_i i2
        · simp [mem_addClass, i2]
        · split <;> rename_i i1
          · simp [mem_addClass, i1]
          · simp [mem_addClass, i1, i2]
    have fg8 : ¬ (Shape.word u).full text = true := fun h => g8 ((full_word ..).1 h)
    simp only [fg8, g8, not_false_eq_true, true_and, false_and, false_or]
    by_cases g10 : text = c!"—"
    · have f : (Shape.emdash).full text = true := (full_emdash ..).2 g10
      subst g10
      simp [f, mem_addClass, addClass_not_empty]
    have fg10 : ¬ (Shape.emdash).full text = true := fun h => g10 ((full_emdash ..).1 h)
    simp only [fg10, g10, not_false_eq_true, true_and, false_and, false_or]
    by_cases g11 : RunOf (· == '-') text
    · have f : (Shape.dash).full text = true := (full_dash ..).2 g11
      simp [f, g11, mem_addClass, addClass_not_empty]
    have fg11 : ¬ (Shape.dash).full text = true := fun h => g11 ((full_dash ..).1 h)
    simp only [fg11, g11, not_false_eq_true, true_and, false_and, false_or]
    by_cases g12 : text = c!"&"
    · simp [g12, mem_addClass, addClass_not_empty]
    simp only [g12, if_false, not_false_eq_true, true_and, false_and, false_or]
    by_cases g13 : RunOf u.isSpace text
    · have f : (Shape.space u).full text = true := (full_space ..).2 g13
      simp [f, g13, mem_addClass, addClass_not_empty]
    have fg13 : ¬ (Shape.space u).full text = true := fun h => g13 ((full_space ..).1 h)
    simp only [fg13, g13, not_false_eq_true, true_and, false_and, false_or]
    by_cases g14 : RunOf (fun c => c == '|' || u.punct c) text
    · have f : (Shape.punct u).full text = true := (full_punct ..).2 g14
      simp only [f, g14, if_true, addClass_not_empty, Bool.false_eq_true, if_false, mem_addClass, List.not_mem_nil,
        or_false, not_true_eq_false, false_and, true_and]
    · have f : ¬ (Shape.punct u).full text = true := fun h => g14 ((full_punct ..).1 h)
      simp [f, g14, mem_addClass]
  · have hs : (Lexicon.byShape u ⟨text, stdtext, [], oc, at_, false⟩).inlex = false := by
      simp only [Lexicon.byShape, Token.addClass, apply_ite Token.inlex, ite_self]
    split
    · exact hs
    · exact hs

/-- Every classified token has a class; its set of classes stays a set. -/
theorem C13_total (u : UTables) (l : Lexicon) (t : Token) (dflt : InType) :
    (l.classify u t dflt).inclass ≠ [] ∧
    (IsSet InType.code t.inclass → IsSet InType.code (l.classify u t dflt).inclass) := by
  constructor
  · rw [Lexicon.classify]
    simp only
    split
    · rename_i h; simpa using h
    · split
      · have := addClass_not_empty (Lexicon.byShape u { Lexicon.addTypes (l.find t.text) t with inlex := false }) dflt
        simpa using this
      · rename_i h; simpa using h
  · intro hset
    have h1 := isSet_addTypes (l.find t.text) hset
    have h2 : ∀ t : Token, IsSet InType.code t.inclass → IsSet InType.code (Lexicon.byShape u t).inclass := by
      intro t ht
      have hite : ∀ {c : Prop} [Decidable c] {a b : Token}, IsSet InType.code a.inclass →
          IsSet InType.code b.inclass → IsSet InType.code (if c then a else b).inclass := by
        intro c _ a b ha hb; split
        · exact ha
        · exact hb
      simp only [Lexicon.byShape]
      refine hite (isSet_addClass _ ht) ?_
      repeat' first
        | exact ht
        | apply hite
        | apply isSet_addClass
    rw [Lexicon.classify]
    simp only
    split
    · exact h1
    · split
      · exact isSet_addClass _ (h2 _ h1)
      · exact h2 _ h1

/-- The text is only changed for a decimal that is not in the lexicon: its first comma becomes a
point. -/
theorem C13_text (u : UTables) (l : Lexicon) (t : Token) (dflt : InType) :
    (l.classify u t dflt).text = t.text ∨
    (IsDecimal u t.text ∧ t.inclass = [] ∧ (∀ e ∈ l.find t.text, e.type = []) ∧
      ∃ a b, ',' ∉ a ∧ t.text = a ++ [','] ++ b ∧ (l.classify u t dflt).text = a ++ ['.'] ++ b) := by
  have hfc : ∀ s : Str, firstComma s = s ∨ ∃ a b, ',' ∉ a ∧ s = a ++ [','] ++ b ∧ firstComma s = a ++ ['.'] ++ b := by
    intro s
    induction s with
    | nil => exact Or.inl rfl
    | cons c s ih =>
      rw [firstComma]
      split
      · rename_i hc; subst hc; exact Or.inr ⟨[], s, by simp, rfl, rfl⟩
      · rename_i hc
        rcases ih with ih | ⟨a, b, h1, h2, h3⟩
        · exact Or.inl (by rw [ih])
        · refine Or.inr ⟨c :: a, b, ?_, by rw [h2]; rfl, by rw [h3]; rfl⟩
          intro hm; rcases List.mem_cons.1 hm with h | h
          · exact hc h.symm
          · exact h1 h
  by_cases h : ∃ c, c ∈ t.inclass ∨ ∃ e ∈ l.find t.text, c ∈ e.type
  · left; rw [(C13_in_lexicon u l t dflt h).2]
  · have h0 : t.inclass = [] := by
      rw [List.eq_nil_iff_forall_not_mem]; intro c hc; exact h ⟨c, Or.inl hc⟩
    have h1 : ∀ e ∈ l.find t.text, e.type = [] := by
      intro e he; rw [List.eq_nil_iff_forall_not_mem]; intro c hc; exact h ⟨c, Or.inr ⟨e, he, hc⟩⟩
    have key : (Lexicon.byShape u { t with inlex := false }).text = t.text ∨
        (IsDecimal u t.text ∧ (Lexicon.byShape u { t with inlex := false }).text = firstComma t.text) := by
      simp only [Lexicon.byShape]
      by_cases g : IsDecimal u t.text
      · simp [g, (full_float u t.text).2 g]
      · left
        have f : ¬ (Shape.float u).full t.text = true := fun h => g ((full_float ..).1 h)
        simp only [f, Bool.false_eq_true, if_false, Token.addClass, apply_ite Token.text, ite_self]
    have key2 : (l.classify u t dflt).text = (Lexicon.byShape u { t with inlex := false }).text := by
      rw [classify_out u l t dflt h0 h1]; split <;> rfl
    rw [key2]
    rcases key with k | ⟨k1, k2⟩
    · exact Or.inl k
    · rw [k2]
      rcases hfc t.text with e | ⟨a, b, ha, hs, hf⟩
      · exact Or.inl e
      · exact Or.inr ⟨k1, h0, h1, a, b, ha, hs, hf⟩

/-- A lexicon in which a word has two entries. -/
def someLexicon : Lexicon :=
  { lex := [(c!"SOON", [⟨c!"SOON", [], [], []⟩]),
            (c!"ST", [⟨c!"ST", c!"STREET", [.TYPE], []⟩, ⟨c!"ST", c!"SAINT", [.WORD, .QUALIF], []⟩])] }

example : (∃ c, c ∈ (Token.ofText c!"ST").inclass ∨ ∃ e ∈ someLexicon.find (Token.ofText c!"ST").text, c ∈ e.type) ∧
    (someLexicon.classify asciiU (Token.ofText c!"ST") .WORD).inclass = [.WORD, .TYPE, .QUALIF] :=
  ⟨⟨.TYPE, Or.inr ⟨⟨c!"ST", c!"STREET", [.TYPE], []⟩, by decide +kernel, by decide⟩⟩, by decide +kernel⟩

example : (Token.ofText c!"SOON").inclass = [] ∧ (∀ e ∈ someLexicon.find (Token.ofText c!"SOON").text, e.type = []) ∧
    (someLexicon.classify asciiU (Token.ofText c!"SOON") .PUNCT).inclass = [.WORD] ∧
    (someLexicon.classify asciiU (Token.ofText c!"K1A") .PUNCT).inclass = [.MIXED, .PCH] ∧
    (someLexicon.classify asciiU (Token.ofText c!"12,5") .PUNCT).text = c!"12.5" ∧
    (someLexicon.classify asciiU (Token.ofText c!"1234") .PUNCT).inclass = [.NUMBER, .QUAD] ∧
    (someLexicon.classify asciiU (Token.ofText c!"= =") .STOP).inclass = [.STOP] := by decide +kernel

/-! ## C14 -/

/-- Words without digits and numbers that the lexicon does not list: the length classes go by the
number of bytes. -/
theorem C14_by_bytes (u : UTables) (l : Lexicon) (t : Token) (dflt : InType)
    (h0 : t.inclass = []) (h : ∀ e ∈ l.find t.text, e.type = []) :
    (RunOf u.isWord t.text → (∀ c ∈ t.text, u.digit c = false) → ∀ c, c ∈ (l.classify u t dflt).inclass ↔
      c = .WORD ∨ (c = .SINGLE ∧ utf8Bytes t.text = 1) ∨ (c = .DOUBLE ∧ utf8Bytes t.text = 2)) ∧
    (RunOf u.digit t.text → ∀ c, c ∈ (l.classify u t dflt).inclass ↔
      c = .NUMBER ∨ (c = .QUAD ∧ utf8Bytes t.text = 4) ∨ (c = .QUINT ∧ utf8Bytes t.text = 5)) := by
  have key := (C13_by_shape u l t dflt h0 h).1
  constructor
  · intro hw hd c
    rw [key]
    have n1 : ¬ IsDecimal u t.text := by
      rintro ⟨a, x, b, e, ⟨ha0, ha⟩, _⟩
      obtain ⟨y, a, rfl⟩ := List.exists_cons_of_ne_nil ha0
      have := hd y (by rw [e]; simp)
      rw [ha y (by simp)] at this; cases this
    have n2 : ¬ RunOf u.digit t.text := by
      rintro ⟨h0, h1⟩
      obtain ⟨y, s, e⟩ := List.exists_cons_of_ne_nil h0
      have m : y ∈ t.text := by rw [e]; simp
      have := hd y m
      rw [h1 y m] at this; cases this
    have n3 : t.text ≠ c!"@" := by
      intro e; have := hw.2 '@' (by rw [e]; simp); rw [u.word_at] at this; cases this
    have n4 : t.text ≠ c!"/" := by
      intro e; have := hw.2 '/' (by rw [e]; simp); rw [u.word_slash] at this; cases this
    have n5 : ¬ IsFraction u t.text := by
      rintro ⟨a, b, e, _⟩
      have := hw.2 '/' (by rw [e]; simp); rw [u.word_slash] at this; cases this
    have n6 : ¬ IsPostHead u t.text := by
      rintro ⟨a, b, c, e, _, _, hl, hb, _⟩
      cases b with
      | nil => simp at hl
      | cons y b =>
        have := hd y (by rw [e]; simp)
        have h2 := hb y (by simp)
        rw [Dig, u.digit_fold, this] at h2; cases h2
    have n7 : ¬ IsPostTail u t.text := by
      rintro ⟨x, y, z, e, hx, _⟩
      have := hd x (by rw [e]; simp)
      rw [Dig, u.digit_fold, this] at hx; cases hx
    have n8 : ¬ ∃ c ∈ t.text, u.digit c = true := by
      rintro ⟨x, hx, h⟩; rw [hd x hx] at h; cases h
    simp only [shapes, FirstShape, n1, n2, n3, n4, n5, n6, n7, n8, hw, not_false_eq_true, true_and, false_and,
      false_or, not_true_eq_false, or_false]
    rw [@Or.comm (c = InType.DOUBLE ∧ _)]
  · intro hn c
    rw [key]
    have n1 : ¬ IsDecimal u t.text := by
      rintro ⟨a, x, b, e, _, hx, _⟩
      have := hn.2 x (by rw [e]; simp)
      rcases hx with rfl | rfl
      · rw [u.digit_comma] at this; cases this
      · rw [u.digit_point] at this; cases this
    simp only [shapes, FirstShape, n1, hn, not_false_eq_true, true_and, false_and, false_or, not_true_eq_false, or_false]

theorem utf8Bytes_cons (c : Char) (s : Str) : utf8Bytes (c :: s) = c.utf8Size + utf8Bytes s := by
  rw [← byteLen_eq, ← byteLen_eq]; rfl

/-- Bytes are characters exactly for ASCII texts. -/
theorem C14_ascii (s : Str) : s.length ≤ utf8Bytes s ∧ (utf8Bytes s = s.length ↔ ∀ c ∈ s, c.toNat < 128) := by
  induction s with
  | nil => exact ⟨Nat.zero_le _, by simp [utf8Bytes]⟩
  | cons c s ih =>
    rw [utf8Bytes_cons, List.length_cons]
    have h1 : 1 ≤ c.utf8Size := Char.utf8Size_pos c
    have h2 : c.utf8Size = 1 ↔ c.toNat < 128 := by
      rw [Char.utf8Size_eq_one_iff]
      rw [UInt32.le_iff_toNat_le]
      show c.val.toNat ≤ 127 ↔ c.val.toNat < 128
      omega
    refine ⟨by omega, ?_⟩
    constructor
    · intro e x hx
      rcases List.mem_cons.1 hx with rfl | hx
      · exact h2.1 (by omega)
      · exact ih.2.1 (by omega) x hx
    · intro hall
      have := h2.2 (hall c (by simp))
      have := ih.2.2 (fun x hx => hall x (by simp [hx]))
      omega

/-- So a word of one letter that takes two bytes is DOUBLE and not SINGLE. -/
theorem C14_two_byte_letter (u : UTables) (l : Lexicon) (t : Token) (dflt : InType) (x : Char)
    (h0 : t.inclass = []) (h : ∀ e ∈ l.find t.text, e.type = []) (ht : t.text = [x])
    (hw : u.isWord x = true) (hd : u.digit x = false) (hx : 0x80 ≤ x.toNat ∧ x.toNat < 0x800) :
    InType.SINGLE ∉ (l.classify u t dflt).inclass ∧ InType.DOUBLE ∈ (l.classify u t dflt).inclass := by
  have hb : utf8Bytes t.text = 2 := by
    rw [ht, utf8Bytes_cons]
    have : x.utf8Size = 2 := by
      rw [Char.utf8Size_eq_two_iff]
      simp only [UInt32.lt_iff_toNat_lt, UInt32.le_iff_toNat_le]
      show 127 < x.val.toNat ∧ x.val.toNat ≤ 2047
      have e : x.toNat = x.val.toNat := rfl
      omega
    rw [this]; rfl
  have := (C14_by_bytes u l t dflt h0 h).1 (by rw [ht]; exact ⟨by simp, by simpa using hw⟩) (by rw [ht]; simpa using hd)
  constructor
  · rw [this]; rw [hb]; simp
  · rw [this]; rw [hb]; simp

example : (Token.ofText c!"É").inclass = [] ∧ (∀ e ∈ someLexicon.find (Token.ofText c!"É").text, e.type = []) ∧
    (Token.ofText c!"É").text = ['É'] ∧ asciiU.isWord 'É' = true ∧ asciiU.digit 'É' = false ∧
    (0x80 ≤ 'É'.toNat ∧ 'É'.toNat < 0x800) ∧
    (someLexicon.classify asciiU (Token.ofText c!"É") .WORD).inclass = [.WORD, .DOUBLE] := by decide +kernel

example : RunOf asciiU.isWord c!"AB" ∧ (∀ c ∈ c!"AB", asciiU.digit c = false) ∧ RunOf asciiU.digit c!"1234" ∧
    (∀ c ∈ c!"AB", c.toNat < 128) ∧
    (someLexicon.classify asciiU (Token.ofText c!"AB") .WORD).inclass = [.WORD, .DOUBLE] ∧
    (someLexicon.classify asciiU (Token.ofText c!"12345") .WORD).inclass = [.NUMBER, .QUINT] := by
  unfold RunOf; decide +kernel

end AS.Props
