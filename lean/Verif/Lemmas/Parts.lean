import Verif.Lemmas.Blanks
import Verif.Spec.Parts
/-
Texts in parts.
-/
namespace AS
namespace Tokenizer

theorem sepChar_iff {u : UTables} {c : Char} : SepChar u c ↔ sepChar u c = true ∨ c = '—' := by
  simp [SepChar, sepChar, or_assoc]

theorem divider_sep {u : UTables} {words : List Str} {q : Char} (hq : Divider u words q) : sepChar u q = true :=
  (sepChar_iff.1 hq.sep).resolve_right hq.noDash

theorem lineStart_line {a s : Str} (h : ∀ c ∈ a, lineSeparator c = false) (hs : LineStart a s) : a = [] := by
  rcases hs with hs | ⟨c, h1, h2, _⟩
  · exact hs
  · rw [h c (List.mem_of_getLast? h1)] at h2; cases h2

theorem lineEnd_line {a s : Str} (h : ∀ c ∈ s, lineSeparator c = false) (hs : LineEnd a s) : s = [] := by
  rcases hs with hs | ⟨c, h1, h2, _⟩
  · exact hs
  · rw [h c (List.mem_of_mem_head? h1)] at h2; cases h2

/-- On one line only the beginning can be read. -/
theorem readable_line {u : UTables} {words : List Str} {a s : Str} (h : ∀ c ∈ a, lineSeparator c = false)
    (hr : Readable u words a s) : a = [] := by
  obtain ⟨_, _, _, _, _, hr⟩ := hr
  exact lineStart_line h hr.start

/-- A mark is in no token, but perhaps between the halves of a decimal. -/
theorem kind_divider {u : UTables} {words : List Str} {q : Char} (hq : Divider u words q) {k : Kind} {x y : Option Char} {w : Str}
    (h : k.Is u words x w y) (hm : q ∈ w) : (q = '/' ∨ q = ',' ∨ q = '.') ∧ ∃ m n, w = m ++ [q] ++ n ∧ RunOf u.digit m ∧
      RunOf u.digit n := by
  have hno : ∀ f : Char → Bool, (∀ c, f c = true → u.isWord c = true) → f (u.fold q) = false := by
    intro f hf
    rw [Bool.eq_false_iff, hq.fold]
    intro h'
    have := hf _ h'
    rw [hq.notWord] at this; cases this
  have h1 := hno u.digit u.digit_word
  have h2 := hno u.alpha u.alpha_word
  have h3 := hno u.letter u.letter_word
  have h4 := hno u.nd u.nd_word
  cases k with
  | phrase =>
    rcases h with h | h
    · exact absurd (List.mem_map.2 ⟨q, hm, rfl⟩) (hq.absent _ h.2)
    · rw [h.2] at hm; cases hm
  | decimal =>
    obtain ⟨m, z, n, rfl, hm1, hz, hn1⟩ := h
    have hzq : z = q := by
      simp only [List.mem_append, List.mem_singleton] at hm
      rcases hm with (hm | hm) | hm
      · have := runOf_mem hm1 hm; simp only [h1] at this; cases this
      · exact hm.symm
      · have := runOf_mem hn1 hm; simp only [h1] at this; cases this
    subst hzq
    refine ⟨hz, m, n, rfl, ⟨hm1.1, fun c hc => ?_⟩, ⟨hn1.1, fun c hc => ?_⟩⟩
    · rw [← u.digit_fold]; exact hm1.2 c hc
    · rw [← u.digit_fold]; exact hn1.2 c hc
  | number => have := runOf_mem h hm; simp only [h1] at this; cases this
  | word => have := runOf_mem h.1 hm; simp only [h2] at this; cases this
  | letters => have := runOf_mem h hm; simp only [h3, h4] at this; cases this
  | mixed => have := runOf_mem h hm; simp only [h1, h2] at this; cases this

theorem getElem?_mid {α : Type} (a : List α) (q : α) (b : List α) : (a ++ q :: b)[a.length]? = some q := by
  rw [List.getElem?_append_right (Nat.le_refl _), Nat.sub_self]; rfl

/-- Blanks and token of a reading lie before the mark. -/
theorem readAt_before {u : UTables} {words : List Str} {q : Char} (hq : Divider u words q) {t bl b B w p r : Str}
    {k : Kind} (hp : InParts u t q bl b) (h : ReadAt u words [] (t ++ q :: (bl ++ b)) B k w p r) :
    ∃ z, t = B ++ w ++ z ∧ z ++ q :: (bl ++ b) = p ++ r := by
  have htext : t ++ q :: (bl ++ b) = (B ++ w) ++ (p ++ r) := by rw [h.text]; simp
  rcases List.append_eq_append_iff.1 htext with ⟨c, e1, e2⟩ | ⟨c, e1, e2⟩
  · cases c with
    | nil => exact ⟨[], by simpa using e1.symm, by simpa using e2⟩
    | cons d c =>
      exfalso
      rw [List.cons_append, List.cons.injEq] at e2
      obtain ⟨rfl, e2⟩ := e2
      have hmem : q ∈ B ++ w := by rw [e1]; simp
      -- the mark belongs to the token
      have hB : B.length ≤ t.length := by
        apply Classical.byContradiction
        intro hlt
        have h2 := congrArg (fun s => s[t.length]?) e1
        simp only [getElem?_mid] at h2
        rw [List.getElem?_append_left (by omega)] at h2
        have := h.blanks q (List.mem_of_getElem? h2)
        rw [hq.notSpace] at this; cases this
      obtain ⟨v, rfl⟩ : ∃ v, t = B ++ v := by
        have : B <+: t := List.prefix_of_prefix_length_le (l₃ := B ++ w) ⟨w, rfl⟩ (by rw [e1]; exact ⟨_, rfl⟩) hB
        exact ⟨_, this.choose_spec.symm⟩
      rw [List.append_assoc] at e1
      have e1 := List.append_cancel_left e1
      have hqw : q ∈ w := by rw [e1]; simp
      obtain ⟨hdec, m, n, e3, hm, hn⟩ := kind_divider hq h.kind hqw
      have hqm : ∀ {x : Str}, RunOf u.digit x → q ∉ x := by
        intro x hx hc
        have := u.digit_word _ (hx.2 q hc)
        rw [hq.notWord] at this; cases this
      have hmv : v = m ∧ c = n := by
        rw [e1] at e3
        have e3 : v ++ q :: c = m ++ q :: n := by rw [e3]; simp
        rcases List.append_eq_append_iff.1 e3 with ⟨z, f1, f2⟩ | ⟨z, f1, f2⟩
        · cases z with
          | nil => simp only [List.append_nil] at f1; simp only [List.nil_append, List.cons.injEq, true_and] at f2; exact ⟨f1.symm, f2⟩
          | cons d z =>
            simp only [List.cons_append, List.cons.injEq] at f2
            exact absurd (show q ∈ m by rw [f1, ← f2.1]; simp) (hqm hm)
        · cases z with
          | nil => simp only [List.append_nil] at f1; simp only [List.nil_append, List.cons.injEq, true_and] at f2; exact ⟨f1, f2.symm⟩
          | cons d z =>
            simp only [List.cons_append, List.cons.injEq] at f2
            exact absurd (show q ∈ n by rw [f2.2]; simp) (hqm hn)
      obtain ⟨rfl, rfl⟩ := hmv
      obtain ⟨d, hd⟩ : ∃ d, c.head? = some d := by
        cases c with
        | nil => exact absurd rfl hn.1
        | cons d c => exact ⟨d, rfl⟩
      obtain ⟨f, hf⟩ : ∃ f, v.getLast? = some f := ⟨_, List.getLast?_eq_some_getLast hm.1⟩
      have hdd := hn.2 d (List.mem_of_mem_head? hd)
      have hff := hm.2 f (List.mem_of_getLast? hf)
      have hbl : bl = [] := by
        cases bl with
        | nil => rfl
        | cons z bl =>
          exfalso
          have e4 : (c ++ (p ++ r)).head? = some z := by rw [← e2]; rfl
          rw [head?_append_left hn.1, hd] at e4
          cases e4
          rw [hp.spaces d (by simp)] at hdd
          have := u.digit_word _ hdd
          rw [u.space_not_word _ (blank_space u)] at this; cases this
      refine hp.decimal hdec hbl f d ?_ ?_ ⟨hff, hdd⟩
      · rw [getLast?_append_right hm.1, hf]
      · rw [hbl, List.nil_append] at e2
        rw [e2, head?_append_left hn.1, hd]
  · exact ⟨c, e1, e2.symm⟩

theorem opens_divider {u : UTables} {words : List Str} {q : Char} (hq : Divider u words q) (e : Option Char) :
    Opens u (some q) e ↔ Opens u none e := by
  refine ⟨fun h => ⟨?_, h.2⟩, fun h => ⟨?_, h.2⟩⟩
  · intro c hc; cases hc
  · intro c hc; cases hc; exact hq.notWord

/-- What a reading of the whole is in the part before the mark. -/
theorem readAt_part {u : UTables} {words : List Str} (hne : ∃ w ∈ words, w ≠ []) {q : Char} (hq : Divider u words q)
    {t bl b B w p r : Str} {k : Kind} (hp : InParts u t q bl b) (h : ReadAt u words [] (t ++ q :: (bl ++ b)) B k w p r) :
    (∃ r0, r0 ≠ [] ∧ r = r0 ++ q :: (bl ++ b) ∧ ReadAt u words [] t B k w p r0) ∨
    (p.length ≤ (q :: bl).length ∧ ReadAt u words [] t B k w [] []) := by
  have hw0 := kind_ne hne h.kind
  obtain ⟨z, rfl, hz⟩ := readAt_before hq hp h
  have hdash : ∀ p' r', (w ++ p' ++ r').head? ≠ some '—' := by
    intro p' r'
    have := h.dash
    rw [List.append_assoc, head?_append_left hw0] at this ⊢
    exact this
  have hsepc : ∀ c ∈ z, ∀ z1, z = z1 ++ [c] → ¬ SepChar u c := by
    rintro c _ z1 rfl
    obtain ⟨d, hd, hns⟩ := hp.before
    rw [← List.append_assoc, getLast?_append_right (by simp)] at hd
    cases hd
    exact hns
  have hmark : lineSeparator q = false := by
    rw [Bool.eq_false_iff]; intro h'
    have := u.sep_space _ h'
    rw [hq.notSpace] at this; cases this
  have hsep : IsSeparator u p := by
    rcases h.sep with hs | ⟨rfl, hs⟩
    · exact hs
    · exfalso
      have := lineEnd_line (s := r) (by
        rw [List.nil_append] at hz
        intro c hc
        rw [← hz] at hc
        simp only [List.mem_append, List.mem_cons] at hc
        rcases hc with hc | hc | hc | hc
        · exact hp.line c (by simp [hc])
        · rw [hc]; exact hmark
        · rw [hp.spaces c hc]; decide
        · exact hp.line c (by simp [hc])) hs
      rw [this] at hz
      simp at hz
  have hrun : ∀ c ∈ p, SepChar u c := by
    intro c hc
    rcases isSeparator_iff.1 hsep with hs | hs
    · exact sepChar_iff.2 (Or.inl (hs.2 c hc))
    · rw [hs] at hc; rw [List.mem_singleton.1 hc]; exact sepChar_iff.2 (Or.inr rfl)
  have hp0 : p ≠ [] := by
    rcases isSeparator_iff.1 hsep with hs | hs
    · exact hs.1
    · rw [hs]; simp
  rcases List.append_eq_append_iff.1 hz with ⟨c, e1, e2⟩ | ⟨c, e1, e2⟩
  · -- the separator reaches the mark, or ends before it
    cases c with
    | nil =>
      exfalso
      rw [List.append_nil] at e1
      subst e1
      obtain ⟨p1, d, rfl⟩ : ∃ p1 d, p = p1 ++ [d] := ⟨_, _, (List.dropLast_concat_getLast hp0).symm⟩
      exact hsepc d (by simp) p1 rfl (hrun d (by simp))
    | cons d c =>
      right
      rw [List.cons_append, List.cons.injEq] at e2
      obtain ⟨rfl, e2⟩ := e2
      have hz0 : z = [] := by
        apply Classical.byContradiction
        intro hz0
        obtain ⟨z1, d, rfl⟩ : ∃ z1 d, z = z1 ++ [d] := ⟨_, _, (List.dropLast_concat_getLast hz0).symm⟩
        exact hsepc d (by simp) z1 rfl (hrun d (by rw [e1]; simp))
      subst hz0
      rw [List.nil_append] at e1
      subst e1
      refine ⟨?_, Or.inl rfl, by simp, h.blanks, hdash _ _, ?_, Or.inr ⟨rfl, Or.inl rfl⟩⟩
      · rcases List.append_eq_append_iff.1 e2 with ⟨y, f1, f2⟩ | ⟨y, f1, f2⟩
        · cases y with
          | nil => rw [f1]; simp
          | cons d y =>
            exfalso
            refine hp.after d (by rw [f2]; rfl) (hrun d ?_)
            rw [f1]; simp
        · rw [f1]; simp
      · refine (kind_after ?_).1 h.kind
        intro e
        exact opens_divider hq e
  · left
    cases c with
    | nil =>
      exfalso
      rw [List.append_nil] at e1
      subst e1
      obtain ⟨p1, d, e⟩ : ∃ p1 d, z = p1 ++ [d] := ⟨_, _, (List.dropLast_concat_getLast hp0).symm⟩
      exact hsepc d (by rw [e]; simp) p1 e (hrun d (by rw [e]; simp))
    | cons d c =>
      subst e1 e2
      refine ⟨d :: c, by simp, rfl, Or.inl rfl, by simp, h.blanks, hdash _ _, ?_, Or.inl hsep⟩
      refine (kind_after ?_).1 h.kind
      intro e
      cases p with
      | nil => exact absurd rfl hp0
      | cons y p => simp

theorem readAt_part_rest {u : UTables} {words : List Str} (hne : ∃ w ∈ words, w ≠ []) {t x B w p r : Str} {k : Kind}
    (h : ReadAt u words [] t B k w p r) (hl : ∀ c ∈ t, lineSeparator c = false) (hr : r ≠ []) :
    ReadAt u words [] (t ++ x) B k w p (r ++ x) := by
  have hw0 := kind_ne hne h.kind
  have hsep : IsSeparator u p := by
    rcases h.sep with hs | ⟨rfl, hs⟩
    · exact hs
    · exact absurd (lineEnd_line (fun c hc => hl c (by rw [h.text]; simp [hc])) hs) hr
  refine ⟨Or.inl rfl, by rw [h.text]; simp, h.blanks, ?_, ?_, Or.inl hsep⟩
  · have := h.dash
    rw [List.append_assoc, head?_append_left hw0] at this ⊢
    exact this
  · refine (kind_after ?_).1 h.kind
    intro e
    cases p with
    | nil =>
      cases r with
      | nil => exact absurd rfl hr
      | cons d r => simp
    | cons d p => simp

theorem readAt_part_end {u : UTables} {words : List Str} (hne : ∃ w ∈ words, w ≠ []) {q : Char} (hq : Divider u words q)
    {t bl b B w : Str} {k : Kind} (hbl : ∀ c ∈ bl, c = ' ') (h : ReadAt u words [] t B k w [] []) :
    ReadAt u words [] (t ++ q :: (bl ++ b)) B k w (q :: bl) b := by
  have hw0 := kind_ne hne h.kind
  refine ⟨Or.inl rfl, by rw [h.text]; simp, h.blanks, ?_, ?_, Or.inl (Or.inl ⟨by simp, ?_⟩)⟩
  · have := h.dash
    rw [List.append_assoc, head?_append_left hw0] at this ⊢
    exact this
  · exact (kind_after (fun e => (opens_divider hq e).symm)).1 h.kind
  · intro c hc
    rcases List.mem_cons.1 hc with rfl | hc
    · exact divider_sep hq
    · rw [hbl c hc]; exact sepChar_blank (blank_space u)

theorem bestAt_part_rest {u : UTables} {words : List Str} (hne : ∃ w ∈ words, w ≠ []) {q : Char} (hq : Divider u words q)
    {t bl b B w p r : Str} (hp : InParts u t q bl b) (h : BestAt u words [] t B w p r) (hr : r ≠ []) :
    BestAt u words [] (t ++ q :: (bl ++ b)) B w p (r ++ q :: (bl ++ b)) := by
  obtain ⟨k, h1, h2⟩ := h
  refine ⟨k, readAt_part_rest hne h1 (fun c hc => hp.line c (by simp [hc])) hr, ?_⟩
  intro B' k' w' p' r' h'
  rcases readAt_part hne hq hp h' with ⟨r0, _, _, h0⟩ | ⟨_, h0⟩
  · exact h2 _ _ _ _ _ h0
  · have hnw := h2 _ _ _ _ _ h0
    have t1 := congrArg List.length h1.text
    have t2 := congrArg List.length h0.text
    have := List.length_pos_iff.2 hr
    rw [NotWorse] at hnw ⊢
    simp only [List.length_append, List.length_nil] at *
    omega

theorem bestAt_part_end {u : UTables} {words : List Str} (hne : ∃ w ∈ words, w ≠ []) {q : Char} (hq : Divider u words q)
    {t bl b B w : Str} (hp : InParts u t q bl b) (h : BestAt u words [] t B w [] []) :
    BestAt u words [] (t ++ q :: (bl ++ b)) B w (q :: bl) b := by
  obtain ⟨k, h1, h2⟩ := h
  refine ⟨k, readAt_part_end hne hq hp.spaces h1, ?_⟩
  intro B' k' w' p' r' h'
  rcases readAt_part hne hq hp h' with ⟨r0, hr0, _, h0⟩ | ⟨hl, h0⟩
  · have hnw := h2 _ _ _ _ _ h0
    have t1 := congrArg List.length h1.text
    have t2 := congrArg List.length h0.text
    have := List.length_pos_iff.2 hr0
    rw [NotWorse] at hnw ⊢
    simp only [List.length_append, List.length_nil] at *
    omega
  · have hnw := h2 _ _ _ _ _ h0
    rw [NotWorse] at hnw ⊢
    simp only [List.length_nil] at hnw
    omega

/-- Nothing is read of the whole if nothing is read of the part. -/
theorem readable_part {u : UTables} {words : List Str} (hne : ∃ w ∈ words, w ≠ []) {q : Char} (hq : Divider u words q)
    {t bl b : Str} (hp : InParts u t q bl b) (h : Readable u words [] (t ++ q :: (bl ++ b))) : Readable u words [] t := by
  obtain ⟨B, k, w, p, r, h⟩ := h
  rcases readAt_part hne hq hp h with ⟨r0, _, _, h0⟩ | ⟨_, h0⟩
  · exact ⟨_, _, _, _, _, h0⟩
  · exact ⟨_, _, _, _, _, h0⟩

/-- The rounds of a text in parts. -/
theorem splits_parts {u : UTables} {words : List Str} (hne : ∃ w ∈ words, w ≠ []) {q : Char} (hq : Divider u words q)
    {a bl b last : Str} {rs : List Round} (hp : InParts u a q bl b) (h : SplitsInto u words a rs last) :
    (last ≠ [] → SplitsInto u words (a ++ q :: (bl ++ b)) rs (last ++ q :: (bl ++ b))) ∧
    (last = [] → ∃ pre r, rs = pre ++ [r] ∧ r.sep = [] ∧ ∀ qs end_, SplitsInto u words b qs end_ →
      SplitsInto u words (a ++ q :: (bl ++ b)) (pre ++ { r with sep := q :: bl } :: qs) end_) := by
  have hline : ∀ {s : Str}, (∀ c ∈ s, lineSeparator c = false) → ∀ c ∈ s ++ q :: (bl ++ b), lineSeparator c = false := by
    intro s hs c hc
    simp only [List.mem_append, List.mem_cons] at hc
    rcases hc with hc | hc | hc | hc
    · exact hs c hc
    · rw [hc, Bool.eq_false_iff]; intro h'
      have := u.sep_space _ h'
      rw [hq.notSpace] at this; cases this
    · rw [hp.spaces c hc]; decide
    · exact hp.line c (by simp [hc])
  induction h with
  | @stop s hs =>
    refine ⟨fun hs0 => .stop (Or.inr ?_), fun hs0 => ?_⟩
    · intro a' b' e hr
      have ha' : a' = [] := readable_line (fun c hc =>
        hline (s := s) (fun c hc => hp.line c (by simp [hc])) c (by rw [e]; simp [hc])) hr
      subst ha'
      rw [List.nil_append] at e
      rw [← e] at hr
      exact (hs.resolve_left hs0) [] s rfl (readable_part hne hq hp hr)
    · exfalso
      obtain ⟨c, hc, _⟩ := hp.before
      rw [hs0] at hc; cases hc
  | @round x t B w p r last rs hxt hbefore hbest hrest ih =>
    have hx : x = [] := by
      obtain ⟨k, hb, _⟩ := hbest
      exact lineStart_line (fun c hc => hp.line c (by simp [hc])) hb.start
    subst hx
    simp only [List.nil_append] at hp hxt ⊢
    have htext := hbest.choose_spec.1.text
    by_cases hr : r = []
    · subst hr
      obtain ⟨rfl, rfl⟩ := splitsInto_nil hrest
      refine ⟨fun h => absurd rfl h, fun _ => ⟨[], ⟨[], B, w, p⟩, rfl, ?_, ?_⟩⟩
      all_goals
        have hp0 : p = [] := by
          rcases hbest.choose_spec.1.sep with hs | ⟨hs, _⟩
          · exfalso
            obtain ⟨c, hc, hns⟩ := hp.before
            have hpp : p ≠ [] := by
              rcases isSeparator_iff.1 hs with hs | hs
              · exact hs.1
              · rw [hs]; simp
            rw [htext, List.append_nil, getLast?_append_right hpp] at hc
            refine hns (sepChar_iff.2 ?_)
            have hm := List.mem_of_getLast? hc
            rcases isSeparator_iff.1 hs with hs | hs
            · exact Or.inl (hs.2 c hm)
            · rw [hs] at hm; exact Or.inr (List.mem_singleton.1 hm)
          · exact hs
      · exact hp0
      · subst hp0
        intro qs end_ hqs
        have := bestAt_part_end hne hq hp hbest
        exact .round (a := []) (by simp) (fun _ _ _ h => absurd h (by simp)) this hqs
    · have hp' : InParts u r q bl b := by
        refine ⟨?_, hp.spaces, hp.after, fun c hc => hp.line c ?_, ?_⟩
        · obtain ⟨c, hc, hns⟩ := hp.before
          rw [htext, getLast?_append_right hr] at hc
          exact ⟨c, hc, hns⟩
        · rw [htext]
          simp only [List.mem_append] at hc ⊢
          rcases hc with hc | hc
          · simp [hc]
          · simp [hc]
        · intro h1 h2 c d h3 h4
          exact hp.decimal h1 h2 c d (by rw [htext, getLast?_append_right hr]; exact h3) h4
      have hb := bestAt_part_rest hne hq hp hbest hr
      obtain ⟨i1, i2⟩ := ih hp'
      refine ⟨fun hl => ?_, fun hl => ?_⟩
      · exact .round (a := []) (by simp) (fun _ _ _ h => absurd h (by simp)) hb (i1 hl)
      · obtain ⟨pre, rd, rfl, h1, h2⟩ := i2 hl
        refine ⟨⟨[], B, w, p⟩ :: pre, rd, rfl, h1, fun qs end_ hqs => ?_⟩
        exact .round (a := []) (by simp) (fun _ _ _ h => absurd h (by simp)) hb (h2 qs end_ hqs)

/-- Only which words there are matters. -/
theorem kind_words {u : UTables} {words words' : List Str} (hw : ∀ w, w ∈ words ↔ w ∈ words') {k : Kind} {x y : Option Char}
    {w : Str} : k.Is u words x w y ↔ k.Is u words' x w y := by
  cases k <;> simp only [Kind.Is, IsPhrase, hw]

theorem readAt_words {u : UTables} {words words' : List Str} (hw : ∀ w, w ∈ words ↔ w ∈ words') {a t b w p r : Str} {k : Kind} :
    ReadAt u words a t b k w p r ↔ ReadAt u words' a t b k w p r :=
  ⟨fun h => ⟨h.start, h.text, h.blanks, h.dash, (kind_words hw).1 h.kind, h.sep⟩,
    fun h => ⟨h.start, h.text, h.blanks, h.dash, (kind_words hw).2 h.kind, h.sep⟩⟩

theorem readable_words {u : UTables} {words words' : List Str} (hw : ∀ w, w ∈ words ↔ w ∈ words') {a t : Str} :
    Readable u words a t ↔ Readable u words' a t := by
  simp only [Readable, readAt_words hw]

theorem splits_words {u : UTables} {words words' : List Str} (hw : ∀ w, w ∈ words ↔ w ∈ words') {s last : Str} {rs : List Round}
    (h : SplitsInto u words s rs last) : SplitsInto u words' s rs last := by
  induction h with
  | stop hs => exact .stop (hs.imp id fun hs a b e hr => hs a b e ((readable_words hw).2 hr))
  | round e hb hbest _ ih =>
    refine .round e (fun a b e1 h => ?_) ?_ ih
    · have := hb a b e1 h
      simpa only [readable_words hw] using this
    · simpa only [BestAt, readAt_words hw] using hbest

end Tokenizer
end AS
