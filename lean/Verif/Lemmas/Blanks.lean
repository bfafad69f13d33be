import Verif.Lemmas.Choice
import Verif.Spec.Blanks
/-
Blanks before and after an address.
-/
namespace AS
namespace Tokenizer

theorem blank_not_word {u : UTables} {c : Char} (h : u.isSpace c = true) : u.isWord (u.fold c) = false :=
  u.space_not_word _ (by rw [u.space_fold]; exact h)

/-- Blanks are in none of the classes tokens consist of. -/
theorem blank_kinds {u : UTables} {c : Char} (h : u.isSpace c = true) : u.digit (u.fold c) = false ∧
    u.alpha (u.fold c) = false ∧ u.letter (u.fold c) = false ∧ u.nd (u.fold c) = false := by
  have hw := blank_not_word h
  refine ⟨?_, ?_, ?_, ?_⟩ <;> rw [Bool.eq_false_iff] <;> intro h' 
  · have := u.digit_word _ h'; rw [hw] at this; cases this
  · have := u.alpha_word _ h'; rw [hw] at this; cases this
  · have := u.letter_word _ h'; rw [hw] at this; cases this
  · have := u.nd_word _ h'; rw [hw] at this; cases this

theorem runOf_mem {p : Char → Bool} {w : Str} (h : RunOf p w) {c : Char} (hc : c ∈ w) : p c = true := h.2 c hc

/-- A token is not empty if the lexicon has words. -/
theorem kind_ne {u : UTables} {words : List Str} (hne : ∃ w ∈ words, w ≠ []) {k : Kind} {a c : Option Char} {w : Str}
    (h : k.Is u words a w c) : w ≠ [] := by
  cases k with
  | phrase =>
    rcases h with h | ⟨h, _⟩
    · exact h.1
    · obtain ⟨v, hv, h0⟩ := hne; exact absurd (h v hv) h0
  | decimal => obtain ⟨a, x, b, rfl, _⟩ := h; simp
  | number => exact h.1
  | word => exact h.1.1
  | letters => exact h.1
  | mixed => exact h.1

/-- A token does not begin with a blank. -/
theorem kind_first {u : UTables} {words : List Str} (hw : NoBlankFirst u words) {k : Kind} {a c : Option Char} {w : Str}
    (h : k.Is u words a w c) {d : Char} (hd : w.head? = some d) : u.isSpace d = false := by
  have hne := kind_ne hw.some_word h
  have hm : d ∈ w := List.mem_of_mem_head? hd
  by_cases hk : k = .phrase
  · subst hk
    rcases h with h | h
    · exact hw.first _ h.2 d (by rw [List.head?_map, hd]; rfl)
    · exact absurd h.2 hne
  · by_cases hdec : k = .decimal
    · subst hdec
      obtain ⟨a, x, b, rfl, ha, _⟩ := h
      rw [Bool.eq_false_iff]
      intro hs
      rw [List.append_assoc, head?_append_left ha.1] at hd
      have := runOf_mem ha (List.mem_of_mem_head? hd)
      simp only [(blank_kinds hs).1] at this; cases this
    · cases k with
      | phrase => exact absurd rfl hk
      | decimal => exact absurd rfl hdec
      | number =>
        rw [Bool.eq_false_iff]; intro hs
        have := runOf_mem h hm; simp only [(blank_kinds hs).1] at this; cases this
      | word =>
        rw [Bool.eq_false_iff]; intro hs
        have := runOf_mem h.1 hm; simp only [(blank_kinds hs).2.1] at this; cases this
      | letters =>
        rw [Bool.eq_false_iff]; intro hs
        have := runOf_mem h hm; simp only [(blank_kinds hs).2.2] at this; cases this
      | mixed =>
        rw [Bool.eq_false_iff]; intro hs
        have := runOf_mem h hm; simp only [(blank_kinds hs).1, (blank_kinds hs).2.1] at this; cases this

/-- Nor end with one. -/
theorem kind_last {u : UTables} {words : List Str} (hw : NoBlankLast u words) {k : Kind} {a c : Option Char} {w : Str}
    (h : k.Is u words a w c) {d : Char} (hd : w.getLast? = some d) : u.isSpace d = false := by
  have hne := kind_ne hw.some_word h
  have hm : d ∈ w := List.mem_of_getLast? hd
  cases k with
  | phrase =>
    rcases h with h | h
    · exact hw.last _ h.2 d (by rw [List.getLast?_map, hd]; rfl)
    · exact absurd h.2 hne
  | decimal =>
    obtain ⟨a, x, b, rfl, _, _, hb⟩ := h
    rw [Bool.eq_false_iff]
    intro hs
    rw [getLast?_append_right hb.1] at hd
    have := runOf_mem hb (List.mem_of_getLast? hd)
    simp only [(blank_kinds hs).1] at this; cases this
  | number =>
    rw [Bool.eq_false_iff]; intro hs
    have := runOf_mem h hm; simp only [(blank_kinds hs).1] at this; cases this
  | word =>
    rw [Bool.eq_false_iff]; intro hs
    have := runOf_mem h.1 hm; simp only [(blank_kinds hs).2.1] at this; cases this
  | letters =>
    rw [Bool.eq_false_iff]; intro hs
    have := runOf_mem h hm; simp only [(blank_kinds hs).2.2] at this; cases this
  | mixed =>
    rw [Bool.eq_false_iff]; intro hs
    have := runOf_mem h hm; simp only [(blank_kinds hs).1, (blank_kinds hs).2.1] at this; cases this

/-- No word or a blank on one side. -/
def Quiet (u : UTables) (c : Option Char) : Prop := ∀ d, c = some d → u.isSpace d = true

theorem opens_quiet {u : UTables} {a b c : Option Char} (ha : Quiet u a) (hb : Quiet u b) :
    Opens u a c ↔ Opens u b c := by
  have : ∀ {a : Option Char}, Quiet u a → (∀ d, a = some d → u.isWord d = false) :=
    fun h d hd => u.space_not_word d (h d hd)
  exact ⟨fun h => ⟨this hb, h.2⟩, fun h => ⟨this ha, h.2⟩⟩

theorem kind_before {u : UTables} {words : List Str} {k : Kind} {a b c : Option Char} {w : Str}
    (hab : ∀ e, Opens u a e ↔ Opens u b e) : k.Is u words a w c ↔ k.Is u words b w c := by
  cases k with
  | word => simp only [Kind.Is, hab]
  | phrase => exact Iff.rfl
  | decimal => exact Iff.rfl
  | number => exact Iff.rfl
  | letters => exact Iff.rfl
  | mixed => exact Iff.rfl

theorem kind_after {u : UTables} {words : List Str} {k : Kind} {a b c : Option Char} {w : Str}
    (hab : ∀ e, Opens u a e ↔ Opens u b e) : k.Is u words c w a ↔ k.Is u words c w b := by
  cases k with
  | word => simp only [Kind.Is, hab]
  | phrase => exact Iff.rfl
  | decimal => exact Iff.rfl
  | number => exact Iff.rfl
  | letters => exact Iff.rfl
  | mixed => exact Iff.rfl

theorem lineEnd_last {a b r : Str} (h : a.getLast? = b.getLast?) : LineEnd a r ↔ LineEnd b r := by
  rw [LineEnd, LineEnd, h]

theorem quiet_last {u : UTables} {b : Str} (hb : ∀ c ∈ b, u.isSpace c = true) : Quiet u b.getLast? :=
  fun d hd => hb d (List.mem_of_getLast? hd)

theorem quiet_head {u : UTables} {b : Str} (hb : ∀ c ∈ b, u.isSpace c = true) : Quiet u b.head? :=
  fun d hd => hb d (List.mem_of_mem_head? hd)

/-! ### Leading blanks -/

/-- The same reading at the beginning of a text, after blanks. -/
theorem readAt_blanks {u : UTables} {words : List Str} (hw : NoBlankFirst u words) {before b t B w p r : Str} {k : Kind}
    (hbefore : ∀ c ∈ before, u.isSpace c = true) (hb : ∀ c ∈ b, u.isSpace c = true)
    (h : ReadAt u words before (b ++ t) B k w p r) : ∃ B0, B = b ++ B0 ∧ ReadAt u words [] t B0 k w p r := by
  have hw0 := kind_ne hw.some_word h.kind
  have hlen : b.length ≤ B.length := by
    apply Classical.byContradiction
    intro hlt
    have htext := h.text
    obtain ⟨d, w', rfl⟩ := List.exists_cons_of_ne_nil hw0
    have hd := kind_first hw h.kind (d := d) rfl
    have e : b[B.length]? = some d := by
      have h2 := congrArg (fun t => t[B.length]?) htext
      rw [List.append_assoc, List.append_assoc] at h2
      simp only [List.getElem?_append_left (show B.length < b.length by omega),
        List.getElem?_append_right (Nat.le_refl B.length), Nat.sub_self, List.cons_append, List.getElem?_cons_zero] at h2
      exact h2
    rw [hb d (List.mem_of_getElem? e)] at hd
    cases hd
  have hpre : b <+: B := by
    apply List.prefix_of_prefix_length_le (l₃ := b ++ t) ⟨t, rfl⟩ _ hlen
    rw [h.text, List.append_assoc, List.append_assoc]
    exact ⟨_, rfl⟩
  obtain ⟨B0, rfl⟩ := hpre
  refine ⟨B0, rfl, Or.inl rfl, ?_, fun c hc => h.blanks c (List.mem_append_right _ hc), h.dash, ?_, ?_⟩
  · have := h.text
    simp only [List.append_assoc] at this
    rw [List.append_cancel_left this]; simp
  · refine (kind_before ?_).1 h.kind
    intro e
    apply opens_quiet
    · apply quiet_last
      intro c hc
      rcases List.mem_append.1 hc with hc | hc
      · exact hbefore c hc
      · exact h.blanks c hc
    · exact quiet_last (fun c hc => h.blanks c (List.mem_append_right _ (by simpa using hc)))
  · refine h.sep.imp id (fun ⟨h1, h2⟩ => ⟨h1, (lineEnd_last ?_).1 h2⟩)
    rw [getLast?_append_right hw0, getLast?_append_right hw0]

theorem readAt_blanks_conv {u : UTables} {words : List Str} (hne : ∃ w ∈ words, w ≠ []) {b t B0 w p r : Str} {k : Kind}
    (hb : ∀ c ∈ b, u.isSpace c = true) (h : ReadAt u words [] t B0 k w p r) :
    ReadAt u words [] (b ++ t) (b ++ B0) k w p r := by
  have hw0 := kind_ne hne h.kind
  refine ⟨Or.inl rfl, ?_, ?_, h.dash, ?_, ?_⟩
  · rw [h.text]; simp
  · intro c hc
    rcases List.mem_append.1 hc with hc | hc
    · exact hb c hc
    · exact h.blanks c hc
  · refine (kind_before ?_).1 h.kind
    intro e
    apply opens_quiet
    · exact quiet_last (fun c hc => h.blanks c (by simpa using hc))
    · apply quiet_last
      intro c hc
      simp only [List.nil_append] at hc
      rcases List.mem_append.1 hc with hc | hc
      · exact hb c hc
      · exact h.blanks c hc
  · refine h.sep.imp id (fun ⟨h1, h2⟩ => ⟨h1, (lineEnd_last ?_).1 h2⟩)
    rw [getLast?_append_right hw0, getLast?_append_right hw0]

theorem readAt_shift {u : UTables} {words : List Str} (hne : ∃ w ∈ words, w ≠ []) {b a t B w p r : Str} {k : Kind} (ha : a ≠ []) :
    ReadAt u words (b ++ a) t B k w p r ↔ ReadAt u words a t B k w p r := by
  have hlast : (b ++ a).getLast? = a.getLast? := getLast?_append_right ha
  have hlast2 : (b ++ a ++ B).getLast? = (a ++ B).getLast? := by
    rw [List.append_assoc]; exact getLast?_append_right (by simp [ha])
  have hstart : LineStart (b ++ a) t ↔ LineStart a t := by
    rw [LineStart, LineStart, hlast]
    simp [ha]
  constructor
  · rintro ⟨h1, h2, h3, h4, h5, h6⟩
    have hw0 := kind_ne hne h5
    refine ⟨hstart.1 h1, h2, h3, h4, by rw [← hlast2]; exact h5, ?_⟩
    exact h6.imp id (fun ⟨h1, h2⟩ => ⟨h1, (lineEnd_last (by rw [getLast?_append_right hw0, getLast?_append_right hw0])).1 h2⟩)
  · rintro ⟨h1, h2, h3, h4, h5, h6⟩
    have hw0 := kind_ne hne h5
    refine ⟨hstart.2 h1, h2, h3, h4, by rw [hlast2]; exact h5, ?_⟩
    exact h6.imp id (fun ⟨h1, h2⟩ => ⟨h1, (lineEnd_last (by rw [getLast?_append_right hw0, getLast?_append_right hw0])).1 h2⟩)

/-- Words and separators of rounds. -/
def Round.parts (r : Round) : Str × Str := (r.word, r.sep)

theorem splits_leading {u : UTables} {words : List Str} (hw : NoBlankFirst u words) {b s last : Str} {rs : List Round}
    (hb : ∀ c ∈ b, u.isSpace c = true) (h : SplitsInto u words s rs last) :
    ∃ rs' last', SplitsInto u words (b ++ s) rs' last' ∧ rs'.map Round.parts = rs.map Round.parts := by
  -- a place within the blanks is readable only if the text itself is
  have hin : ∀ b1 b2, b = b1 ++ b2 → ∀ t, Readable u words b1 (b2 ++ t) → Readable u words [] t := by
    rintro b1 b2 rfl t ⟨B, k, w, p, r, hr⟩
    obtain ⟨B0, _, hr⟩ := readAt_blanks hw (fun c hc => hb c (List.mem_append_left _ hc))
      (fun c hc => hb c (List.mem_append_right _ hc)) hr
    exact ⟨B0, k, w, p, r, hr⟩
  -- a place in `b ++ s`
  have hplace : ∀ t a' b', b ++ t = a' ++ b' → Readable u words a' b' →
      ∃ a b0, t = a ++ b0 ∧ Readable u words a b0 ∧ (a = [] ∨ a' = b ++ a) := by
    intro t a' b' e hr
    rcases List.append_eq_append_iff.1 e with ⟨c, e1, e2⟩ | ⟨c, e1, e2⟩
    · cases c with
      | nil =>
        have : Readable u words a' b' := hr
        rw [List.append_nil] at e1
        simp only [List.nil_append] at e2
        refine ⟨[], t, rfl, hin a' [] (by simp [e1]) t ?_, Or.inl rfl⟩
        rw [List.nil_append, e2]; exact hr
      | cons d c =>
        refine ⟨d :: c, b', e2, ?_, Or.inr e1⟩
        obtain ⟨B, k, w, p, r, hr⟩ := hr
        rw [e1] at hr
        exact ⟨B, k, w, p, r, (readAt_shift hw.some_word (by simp)).1 hr⟩
    · refine ⟨[], t, rfl, hin a' c e1 t (by rw [← e2]; exact hr), Or.inl rfl⟩
  cases h with
  | stop hs =>
    refine ⟨[], b ++ s, .stop ?_, rfl⟩
    right
    intro a' b' e hr
    obtain ⟨a, b0, e1, h1, _⟩ := hplace s a' b' e hr
    rcases hs with rfl | hs
    · obtain ⟨B, k, w, p, r, h1⟩ := h1
      have h0 := (List.append_eq_nil_iff.1 e1.symm).2
      have := h1.text
      rw [h0] at this
      have := this.symm
      simp only [List.append_eq_nil_iff] at this
      exact kind_ne hw.some_word h1.kind this.1.1.2
    · exact hs a b0 e1 h1
  | @round a t B w p r _ rs hne hbefore hbest hrest =>
    cases a with
    | nil =>
      refine ⟨⟨[], b ++ B, w, p⟩ :: rs, last, ?_, rfl⟩
      have : b ++ ([] ++ t) = [] ++ (b ++ t) := by simp
      rw [this]
      refine .round ?_ (fun _ _ _ h => absurd h (by simp)) ?_ hrest
      · intro e; simp only [List.nil_append, List.append_eq_nil_iff] at e hne; exact hne e.2
      · obtain ⟨k, h1, h2⟩ := hbest
        refine ⟨k, readAt_blanks_conv hw.some_word hb h1, ?_⟩
        intro B' k' w' p' r' h'
        obtain ⟨B0, rfl, h0⟩ := readAt_blanks hw (by simp) hb h'
        have := h2 _ _ _ _ _ h0
        rw [NotWorse] at this ⊢
        simp only [List.length_append]
        omega
    | cons d a =>
      refine ⟨⟨b ++ d :: a, B, w, p⟩ :: rs, last, ?_, rfl⟩
      rw [← List.append_assoc]
      refine .round (by simp) ?_ ?_ hrest
      · intro a' b' e hlt hr
        rw [List.append_assoc] at e
        obtain ⟨a0, b0, e1, h1, h2⟩ := hplace _ a' b' e hr
        rcases h2 with rfl | rfl
        · exact hbefore [] b0 e1 (by simp) h1
        · exact hbefore a0 b0 e1 (by simpa using hlt) h1
      · obtain ⟨k, h1, h2⟩ := hbest
        refine ⟨k, (readAt_shift hw.some_word (by simp)).2 h1, ?_⟩
        intro B' k' w' p' r' h'
        exact h2 _ _ _ _ _ ((readAt_shift hw.some_word (by simp)).1 h')

theorem roundTokens_parts (u : UTables) (l : Lexicon) (x : LexRe) : ∀ {rs rs' : List Round},
    rs'.map Round.parts = rs.map Round.parts → rs'.flatMap (roundTokens u l x) = rs.flatMap (roundTokens u l x)
  | [], [], _ => rfl
  | [], _ :: _, h => by cases h
  | _ :: _, [], h => by cases h
  | r :: rs, r' :: rs', h => by
    simp only [List.map_cons, List.cons.injEq] at h
    rw [List.flatMap_cons, List.flatMap_cons, roundTokens_parts u l x h.2]
    have hp := h.1
    simp only [Round.parts, Prod.mk.injEq] at hp
    simp only [roundTokens, hp.1, hp.2]

/-! ### Trailing blanks -/

/-- Characters separators consist of. -/
def sepChar (u : UTables) (c : Char) : Bool :=
  c = '-' || c = '&' || u.isSpace c || c = '|' || u.punct (u.fold c)

theorem isSeparator_iff {u : UTables} {p : Str} : IsSeparator u p ↔ RunOf (sepChar u) p ∨ p = ['—'] := Iff.rfl

theorem sepChar_blank {u : UTables} {c : Char} (h : u.isSpace c = true) : sepChar u c = true := by
  simp [sepChar, h]

theorem blank_space (u : UTables) : u.isSpace ' ' = true := u.cspace_space ' ' (by decide)

theorem lineStart_trail {a t b : Str} (hb : ∀ c ∈ b, c = ' ') : LineStart a (t ++ b) ↔ LineStart a t := by
  rw [LineStart, LineStart]
  cases t with
  | cons d t => rfl
  | nil =>
    cases b with
    | nil => rfl
    | cons d b =>
      have hd := hb d (List.mem_cons_self ..)
      subst hd
      simp

/-- What a reading of a text with blanks behind it is in the text. -/
theorem readAt_trail {u : UTables} {words : List Str} (hw : NoBlankLast u words) {a t b B w p r : Str} {k : Kind}
    (hb : ∀ c ∈ b, c = ' ') (h : ReadAt u words a (t ++ b) B k w p r) :
    (∃ r0, r = r0 ++ b ∧ ReadAt u words a t B k w p r0) ∨
    (∃ q b1, p = q ++ b1 ∧ b = b1 ++ r ∧ b1 ≠ [] ∧ RunOf (sepChar u) p ∧ ReadAt u words a t B k w q []) := by
  have hsp : ∀ c ∈ b, u.isSpace c = true := fun c hc => by rw [hb c hc]; exact blank_space u
  have hw0 := kind_ne hw.some_word h.kind
  have htext : t ++ b = (B ++ w) ++ (p ++ r) := by rw [h.text]; simp
  -- blanks and token lie within `t`
  have hpre : ∃ q, t = B ++ w ++ q ∧ q ++ b = p ++ r := by
    rcases List.append_eq_append_iff.1 htext with ⟨c, e1, e2⟩ | ⟨c, e1, e2⟩
    · cases c with
      | nil => exact ⟨[], by simpa using e1.symm, by simpa using e2⟩
      | cons d c =>
        exfalso
        have hlast : w.getLast? = (d :: c).getLast? := by
          have := congrArg List.getLast? e1
          rwa [getLast?_append_right hw0, getLast?_append_right (by simp)] at this
        obtain ⟨z, hz⟩ : ∃ z, (d :: c).getLast? = some z := ⟨_, List.getLast?_eq_some_getLast (by simp)⟩
        have h1 := kind_last hw h.kind (hlast.trans hz)
        have h2 := hsp z (by rw [e2]; exact List.mem_append_left _ (List.mem_of_getLast? hz))
        rw [h1] at h2; cases h2
    · exact ⟨c, e1, e2.symm⟩
  obtain ⟨q, rfl, hq⟩ := hpre
  have hdash : ∀ p' r', (w ++ p' ++ r').head? ≠ some '—' := by
    intro p' r'
    have := h.dash
    rw [List.append_assoc, head?_append_left hw0] at this ⊢
    exact this
  rcases List.append_eq_append_iff.1 hq with ⟨c, e1, e2⟩ | ⟨c, e1, e2⟩
  · -- the separator reaches into the blanks
    cases c with
    | nil =>
      left
      rw [List.append_nil] at e1
      simp only [List.nil_append] at e2
      subst e1 e2
      refine ⟨[], rfl, (lineStart_trail hb).1 h.start, by simp, h.blanks, hdash _ _, ?_, ?_⟩
      · refine (kind_after ?_).1 h.kind
        intro e
        cases p with
        | nil => exact opens_quiet (by simpa using quiet_head hsp) (by intro d hd; cases hd)
        | cons d p => simp
      · exact h.sep.imp id (fun ⟨h1, _⟩ => ⟨h1, Or.inl rfl⟩)
    | cons d c =>
      right
      have hrun : RunOf (sepChar u) p := by
        rcases h.sep with hs | ⟨hs, _⟩
        · rcases isSeparator_iff.1 hs with hs | hs
          · exact hs
          · exfalso
            rw [hs] at e1
            have hd := hb d (by rw [e2]; simp)
            cases q with
            | nil =>
              simp only [List.nil_append, List.cons.injEq] at e1
              rw [hd] at e1; exact absurd e1.1 (by decide)
            | cons q0 q => simp at e1
        · rw [hs] at e1; simp at e1
      refine ⟨q, d :: c, e1, e2, by simp, hrun, (lineStart_trail hb).1 h.start, by simp, h.blanks, hdash _ _, ?_, ?_⟩
      · refine (kind_after ?_).1 h.kind
        intro e
        cases q with
        | nil =>
          refine opens_quiet ?_ (by intro d hd; cases hd)
          rw [← hq]; simpa using quiet_head hsp
        | cons q0 q => rw [← hq]; simp
      · cases q with
        | nil => exact Or.inr ⟨rfl, Or.inl rfl⟩
        | cons q0 q =>
          refine Or.inl (Or.inl ⟨by simp, ?_⟩)
          intro z hz
          exact hrun.2 z (by rw [e1]; exact List.mem_append_left _ hz)
  · -- the separator lies within `t`
    left
    subst e1 e2
    refine ⟨c, rfl, (lineStart_trail hb).1 h.start, by simp, h.blanks, hdash _ _, ?_, ?_⟩
    · refine (kind_after ?_).1 h.kind
      intro e
      cases p with
      | nil =>
        cases c with
        | nil => exact opens_quiet (by simpa using quiet_head hsp) (by intro d hd; cases hd)
        | cons d c => simp
      | cons d p => simp
    · refine h.sep.imp id (fun ⟨h1, h2⟩ => ⟨h1, ?_⟩)
      cases c with
      | nil => exact Or.inl rfl
      | cons d c =>
        rw [LineEnd] at h2 ⊢
        simpa using h2

theorem readAt_trail_rest {u : UTables} {words : List Str} (hne : ∃ w ∈ words, w ≠ []) {a t b B w p r : Str} {k : Kind}
    (hb : ∀ c ∈ b, c = ' ') (h : ReadAt u words a t B k w p r) (hr : r ≠ [] ∨ IsSeparator u p) :
    ReadAt u words a (t ++ b) B k w p (r ++ b) := by
  have hsp : ∀ c ∈ b, u.isSpace c = true := fun c hc => by rw [hb c hc]; exact blank_space u
  have hw0 := kind_ne hne h.kind
  refine ⟨(lineStart_trail hb).2 h.start, by rw [h.text]; simp, h.blanks, ?_, ?_, ?_⟩
  · have := h.dash
    rw [List.append_assoc, head?_append_left hw0] at this ⊢
    exact this
  · refine (kind_after ?_).1 h.kind
    intro e
    cases p with
    | nil =>
      cases r with
      | nil => exact opens_quiet (by intro d hd; cases hd) (by simpa using quiet_head hsp)
      | cons d c => simp
    | cons d p => simp
  · rcases h.sep with h1 | ⟨h1, h2⟩
    · exact Or.inl h1
    · rcases hr with hr | hr
      · refine Or.inr ⟨h1, ?_⟩
        cases r with
        | nil => exact absurd rfl hr
        | cons d c =>
          rw [LineEnd] at h2 ⊢
          simpa using h2
      · exact Or.inl hr

theorem readAt_trail_sep {u : UTables} {words : List Str} (hne : ∃ w ∈ words, w ≠ []) {a t b B w p : Str} {k : Kind}
    (hb : ∀ c ∈ b, c = ' ') (h : ReadAt u words a t B k w p []) (hr : RunOf (sepChar u) (p ++ b)) :
    ReadAt u words a (t ++ b) B k w (p ++ b) [] := by
  have hsp : ∀ c ∈ b, u.isSpace c = true := fun c hc => by rw [hb c hc]; exact blank_space u
  have hw0 := kind_ne hne h.kind
  refine ⟨(lineStart_trail hb).2 h.start, by rw [h.text]; simp, h.blanks, ?_, ?_, Or.inl (Or.inl hr)⟩
  · have := h.dash
    rw [List.append_assoc, head?_append_left hw0] at this ⊢
    exact this
  · refine (kind_after ?_).1 h.kind
    intro e
    cases p with
    | nil => exact opens_quiet (by intro d hd; cases hd) (by simpa using quiet_head hsp)
    | cons d p => simp

theorem readable_trail {u : UTables} {words : List Str} (hw : NoBlankLast u words) {a t b : Str}
    (hb : ∀ c ∈ b, c = ' ') (h : Readable u words a (t ++ b)) : Readable u words a t := by
  obtain ⟨B, k, w, p, r, h⟩ := h
  rcases readAt_trail hw hb h with ⟨r0, _, h⟩ | ⟨q, _, _, _, _, _, h⟩
  · exact ⟨_, _, _, _, _, h⟩
  · exact ⟨_, _, _, _, _, h⟩

/-- Blanks alone cannot be read. -/
theorem not_readable_blanks {u : UTables} {words : List Str} (hw : NoBlankLast u words) {a b : Str}
    (hb : ∀ c ∈ b, c = ' ') : ¬ Readable u words a b := by
  intro h
  have h : Readable u words a ([] ++ b) := h
  obtain ⟨B, k, w, p, r, h⟩ := readable_trail hw hb h
  have := h.text.symm
  simp only [List.append_eq_nil_iff] at this
  exact kind_ne hw.some_word h.kind this.1.1.2

/-- The best reading, with blanks behind the text. -/
theorem bestAt_trail {u : UTables} {words : List Str} (hw : NoBlankLast u words) {a t b B w p r : Str}
    (hb : ∀ c ∈ b, c = ' ') (h : BestAt u words a t B w p r) :
    BestAt u words a (t ++ b) B w p (r ++ b) ∨ (r = [] ∧ BestAt u words a (t ++ b) B w (p ++ b) []) := by
  have hsp : ∀ c ∈ b, u.isSpace c = true := fun c hc => by rw [hb c hc]; exact blank_space u
  obtain ⟨k, h1, h2⟩ := h
  have htail : ∀ {p p' : Str}, RunOf (sepChar u) p → (∀ c ∈ p', c ∈ b) → RunOf (sepChar u) (p ++ p') := by
    intro p p' hp hp'
    refine ⟨by simp [hp.1], ?_⟩
    intro c hc
    rcases List.mem_append.1 hc with hc | hc
    · exact hp.2 c hc
    · exact sepChar_blank (hsp c (hp' c hc))
  by_cases hcase : r = [] ∧ RunOf (sepChar u) (p ++ b)
  · obtain ⟨rfl, hrun⟩ := hcase
    right
    refine ⟨rfl, k, readAt_trail_sep hw.some_word hb h1 hrun, ?_⟩
    intro B' k' w' p' r' h'
    rcases readAt_trail hw hb h' with ⟨r0, rfl, h0⟩ | ⟨q, b1, rfl, e, _, _, h0⟩
    · have := h2 _ _ _ _ _ h0
      rw [NotWorse] at this ⊢
      simp only [List.length_append]
      omega
    · have := h2 _ _ _ _ _ h0
      have hl := congrArg List.length e
      rw [NotWorse] at this ⊢
      simp only [List.length_append] at hl ⊢
      omega
  · left
    have hsep : r ≠ [] ∨ IsSeparator u p ∨ b = [] := by
      rcases h1.sep with hs | ⟨hs, _⟩
      · exact Or.inr (Or.inl hs)
      · by_cases hr : r = []
        · by_cases hb0 : b = []
          · exact Or.inr (Or.inr hb0)
          · exfalso
            refine hcase ⟨hr, ?_⟩
            rw [hs]
            exact ⟨by simpa using hb0, fun c hc => sepChar_blank (hsp c (by simpa using hc))⟩
        · exact Or.inl hr
    have hread : ReadAt u words a (t ++ b) B k w p (r ++ b) := by
      rcases hsep with h | h | h
      · exact readAt_trail_rest hw.some_word hb h1 (Or.inl h)
      · exact readAt_trail_rest hw.some_word hb h1 (Or.inr h)
      · rw [h, List.append_nil, List.append_nil]; exact h1
    refine ⟨k, hread, ?_⟩
    intro B' k' w' p' r' h'
    rcases readAt_trail hw hb h' with ⟨r0, rfl, h0⟩ | ⟨q, b1, rfl, e, hb1, hrun, h0⟩
    · exact h2 _ _ _ _ _ h0
    · have hnw := h2 _ _ _ _ _ h0
      have hl := congrArg List.length e
      have t1 := congrArg List.length h1.text
      have t2 := congrArg List.length h0.text
      simp only [List.length_append, List.length_nil] at hl t1 t2
      rw [NotWorse] at hnw ⊢
      by_cases heq : B'.length = B.length ∧ k.rank = k'.rank ∧ w'.length = w.length
      · exfalso
        have hq : q.length ≤ p.length := by omega
        have hr : r = [] := List.eq_nil_of_length_eq_zero (by omega)
        have hqp : q = p := by
          have e1 := h1.text.symm.trans h0.text
          rw [hr, List.append_nil, List.append_nil] at e1
          exact (List.append_inj e1 (by simp only [List.length_append]; omega)).2.symm
        subst hqp
        refine hcase ⟨hr, ?_⟩
        rw [e, ← List.append_assoc]
        exact htail hrun (fun c hc => by rw [e]; exact List.mem_append_right _ hc)
      · simp only [List.length_append]
        omega

theorem splitsInto_nil {u : UTables} {words : List Str} {rs : List Round} {last : Str}
    (h : SplitsInto u words [] rs last) : rs = [] ∧ last = [] := by
  have h0 : SplitsInto u words [] [] [] := .stop (Or.inl rfl)
  exact splitsInto_unique h h0

/-- With blanks behind the text, at most the separator of the last round gets longer. -/
theorem splits_trailing {u : UTables} {words : List Str} (hw : NoBlankLast u words) {b s last : Str} {rs : List Round}
    (hb : ∀ c ∈ b, c = ' ') (h : SplitsInto u words s rs last) :
    ∃ rs' last', SplitsInto u words (s ++ b) rs' last' ∧
      (rs' = rs ∨ ∃ pre r, rs = pre ++ [r] ∧ rs' = pre ++ [{ r with sep := r.sep ++ b }]) := by
  induction h with
  | @stop s hs =>
    refine ⟨[], s ++ b, .stop (Or.inr ?_), Or.inl rfl⟩
    intro a' b' e hr
    rcases List.append_eq_append_iff.1 e with ⟨c, e1, e2⟩ | ⟨c, e1, e2⟩
    · exact not_readable_blanks hw (fun d hd => hb d (by rw [e2]; exact List.mem_append_right _ hd)) hr
    · subst e2
      have := readable_trail hw hb hr
      rcases hs with hs | hs
      · rw [hs] at e1
        have e1 := e1.symm
        simp only [List.append_eq_nil_iff] at e1
        obtain ⟨rfl, rfl⟩ := e1
        exact not_readable_blanks hw (b := []) (by simp) this
      · exact hs _ _ e1 this
  | @round a t B w p r last rs hne hbefore hbest hrest ih =>
    have hne' : a ++ (t ++ b) ≠ [] := by
      intro e; rw [← List.append_assoc] at e; exact hne (List.append_eq_nil_iff.1 e).1
    have hbefore' : ∀ a' b', a ++ (t ++ b) = a' ++ b' → a'.length < a.length → ¬ Readable u words a' b' := by
      intro a' b' e hlt hr
      have h1 : a' <+: a := List.prefix_of_prefix_length_le (l₃ := a ++ (t ++ b)) (by rw [e]; exact ⟨_, rfl⟩) ⟨_, rfl⟩ (by omega)
      obtain ⟨c, rfl⟩ := h1
      rw [List.append_assoc] at e
      have e := List.append_cancel_left e
      subst e
      have : Readable u words a' (c ++ t) := readable_trail hw hb (by simpa using hr)
      exact hbefore a' (c ++ t) (by simp) hlt this
    rw [List.append_assoc]
    rcases bestAt_trail hw hb hbest with h1 | ⟨rfl, h1⟩
    · obtain ⟨rs', last', h2, h3⟩ := ih
      refine ⟨⟨a, B, w, p⟩ :: rs', last', .round hne' hbefore' h1 h2, ?_⟩
      rcases h3 with rfl | ⟨pre, q, rfl, rfl⟩
      · exact Or.inl rfl
      · exact Or.inr ⟨⟨a, B, w, p⟩ :: pre, q, rfl, rfl⟩
    · obtain ⟨rfl, rfl⟩ := splitsInto_nil hrest
      refine ⟨[⟨a, B, w, p ++ b⟩], [], .round hne' hbefore' h1 (.stop (Or.inl rfl)), Or.inr ⟨[], ⟨a, B, w, p⟩, rfl, rfl⟩⟩

end Tokenizer
end AS
