import Verif.Lemmas.Parts
import Verif.Spec.Joint
/-
Texts divided by separators that nothing reaches across.
-/
namespace AS
namespace Tokenizer

theorem joint_sep {u : UTables} {words : List Str} {a g b : Str} (h : Joint u words a g b) {c : Char} (hc : c ∈ g) :
    sepChar u c = true := (sepChar_iff.1 (h.seps c hc).1).resolve_right (h.seps c hc).2.1

/-- Blanks and token of a reading lie before the separators. -/
theorem readAt_joint {u : UTables} {words : List Str} {t g b B w p r : Str} {k : Kind} (hp : Joint u words t g b)
    (h : ReadAt u words [] (t ++ (g ++ b)) B k w p r) : ∃ z, t = B ++ w ++ z ∧ z ++ (g ++ b) = p ++ r := by
  have htext : t ++ (g ++ b) = (B ++ w) ++ (p ++ r) := by rw [h.text]; simp
  rcases List.append_eq_append_iff.1 htext with ⟨c, e1, e2⟩ | ⟨c, e1, e2⟩
  · cases c with
    | nil => exact ⟨[], by simpa using e1.symm, by simpa using e2⟩
    | cons q c =>
      exfalso
      obtain ⟨f, hf, hns⟩ := hp.before
      have hB : B.length < t.length := by
        apply Classical.byContradiction
        intro hlt
        have : t <+: B := List.prefix_of_prefix_length_le (l₃ := B ++ w) (by rw [e1]; exact ⟨_, rfl⟩) ⟨w, rfl⟩ (by omega)
        have hm : f ∈ B := this.subset (List.mem_of_getLast? hf)
        exact hns (Or.inr (Or.inr (Or.inl (h.blanks f hm))))
      obtain ⟨v, rfl⟩ : ∃ v, t = B ++ v := by
        have : B <+: t := List.prefix_of_prefix_length_le (l₃ := B ++ w) ⟨w, rfl⟩ (by rw [e1]; exact ⟨_, rfl⟩) (by omega)
        exact ⟨_, this.choose_spec.symm⟩
      rw [List.append_assoc] at e1
      have e1 := List.append_cancel_left e1
      have hv : v ≠ [] := by rintro rfl; simp at hB
      obtain ⟨q', g', rfl⟩ := List.exists_cons_of_ne_nil hp.nonempty
      rw [List.cons_append, List.cons_append, List.cons.injEq] at e2
      obtain ⟨rfl, e2⟩ := e2
      have hq := hp.seps q' (by simp)
      have hqw : q' ∈ w := by rw [e1]; simp
      have hno : ∀ (f : Char → Bool), (∀ c, f c = true → u.isWord c = true) → ∀ x ∈ q' :: g', f (u.fold x) = false := by
        intro f hf x hx
        rw [Bool.eq_false_iff]
        intro h'
        have := hf _ h'
        rw [(hp.seps x hx).2.2.2] at this; cases this
      have h1 := hno u.digit u.digit_word
      have h2 := hno u.alpha u.alpha_word q' (by simp)
      have h3 := hno u.letter u.letter_word q' (by simp)
      have h4 := hno u.nd u.nd_word q' (by simp)
      have h1q := h1 q' (by simp)
      have hkind := h.kind
      cases k with
      | phrase =>
        rcases hkind with hk | hk
        · refine hp.across B w (p ++ r) ?_ hB ?_ hk.2
          · rw [List.append_assoc (B ++ v), h.text]
            simp
          · rw [e1]; simp
        · rw [hk.2] at hqw; cases hqw
      | decimal =>
        obtain ⟨m, z, n, rfl, hm1, hz, hn1⟩ := hkind
        have hd : ∀ {x : Str}, RunOf (fun c => u.digit (u.fold c)) x → q' ∉ x := by
          intro x hx hc
          have := hx.2 _ hc
          simp only [h1q] at this; cases this
        have hmv : v = m ∧ q' = z ∧ c = n := by
          have e3 : m ++ z :: n = v ++ q' :: c := by rw [← e1]; simp
          rcases List.append_eq_append_iff.1 e3 with ⟨y, f1, f2⟩ | ⟨y, f1, f2⟩
          · cases y with
            | nil =>
              simp only [List.append_nil] at f1
              simp only [List.nil_append, List.cons.injEq] at f2
              exact ⟨f1, f2.1.symm, f2.2.symm⟩
            | cons d y =>
              simp only [List.cons_append, List.cons.injEq] at f2
              exact absurd (show q' ∈ n by rw [f2.2]; simp) (hd hn1)
          · cases y with
            | nil =>
              simp only [List.append_nil] at f1
              simp only [List.nil_append, List.cons.injEq] at f2
              exact ⟨f1.symm, f2.1, f2.2⟩
            | cons d y =>
              simp only [List.cons_append, List.cons.injEq] at f2
              exact absurd (show q' ∈ m by rw [f1, ← f2.1]; simp) (hd hm1)
        obtain ⟨rfl, rfl, rfl⟩ := hmv
        obtain ⟨d, c', rfl⟩ := List.exists_cons_of_ne_nil hn1.1
        have hdd := hn1.2 d (by simp)
        have hff := hm1.2 f (by
          rw [getLast?_append_right hm1.1] at hf
          exact List.mem_of_getLast? hf)
        simp only [u.digit_fold] at hdd hff
        cases g' with
        | nil =>
          refine hp.decimal q' f d rfl hz hf ?_ ⟨hff, hdd⟩
          rw [List.nil_append] at e2
          rw [e2]; rfl
        | cons x g' =>
          rw [List.cons_append, List.cons_append, List.cons.injEq] at e2
          obtain ⟨rfl, _⟩ := e2
          have := h1 x (by simp)
          rw [u.digit_fold, hdd] at this
          cases this
      | number => have := runOf_mem hkind hqw; simp only [h1q] at this; cases this
      | word => have := runOf_mem hkind.1 hqw; simp only [h2] at this; cases this
      | letters => have := runOf_mem hkind hqw; simp only [h3, h4] at this; cases this
      | mixed => have := runOf_mem hkind hqw; simp only [h1q, h2] at this; cases this
  · exact ⟨c, e1, e2.symm⟩

theorem opens_joint {u : UTables} {words : List Str} {a g b : Str} (h : Joint u words a g b) (e : Option Char) :
    Opens u (g ++ b).head? e ↔ Opens u none e := by
  obtain ⟨q, g', rfl⟩ := List.exists_cons_of_ne_nil h.nonempty
  refine ⟨fun h => ⟨?_, h.2⟩, fun h' => ⟨?_, h'.2⟩⟩
  · intro c hc; cases hc
  · intro c hc; cases hc; exact (h.seps q (by simp)).2.2.1

/-- What a reading of the whole is in the part before the separators. -/
theorem readAt_jointPart {u : UTables} {words : List Str} (hne : ∃ w ∈ words, w ≠ []) {t g b B w p r : Str} {k : Kind}
    (hp : Joint u words t g b) (h : ReadAt u words [] (t ++ (g ++ b)) B k w p r) :
    (∃ r0, r0 ≠ [] ∧ r = r0 ++ (g ++ b) ∧ ReadAt u words [] t B k w p r0) ∨
    (p.length ≤ g.length ∧ ReadAt u words [] t B k w [] []) := by
  have hw0 := kind_ne hne h.kind
  obtain ⟨z, rfl, hz⟩ := readAt_joint hp h
  have hdash : ∀ p' r', (w ++ p' ++ r').head? ≠ some '—' := by
    intro p' r'
    have := h.dash
    rw [List.append_assoc, head?_append_left hw0] at this ⊢
    exact this
  have hsepc : ∀ c ∈ z, ∀ z1, z = z1 ++ [c] → ¬ SepChar u c := by
    rintro c _ z1 rfl
    obtain ⟨d, hd, hns⟩ := hp.before
    rw [← List.append_assoc, getLast?_append_right (by simp)] at hd
    cases hd
    exact hns
  have hg0 := hp.nonempty
  have hsep : IsSeparator u p := by
    rcases h.sep with hs | ⟨rfl, hs⟩
    · exact hs
    · exfalso
      have := lineEnd_line (s := r) (by
        rw [List.nil_append] at hz
        intro c hc
        rw [← hz] at hc
        refine hp.line c ?_
        simp only [List.mem_append] at hc ⊢
        rcases hc with hc | hc | hc
        · simp [hc]
        · simp [hc]
        · simp [hc]) hs
      rw [this] at hz
      simp at hz
      exact hg0 hz.2.1
  have hrun : ∀ c ∈ p, SepChar u c := by
    intro c hc
    rcases isSeparator_iff.1 hsep with hs | hs
    · exact sepChar_iff.2 (Or.inl (hs.2 c hc))
    · rw [hs] at hc; rw [List.mem_singleton.1 hc]; exact sepChar_iff.2 (Or.inr rfl)
  have hp0 : p ≠ [] := by
    rcases isSeparator_iff.1 hsep with hs | hs
    · exact hs.1
    · rw [hs]; simp
  rcases List.append_eq_append_iff.1 hz with ⟨c, e1, e2⟩ | ⟨c, e1, e2⟩
  · -- the separator reaches the mark, or ends before it
    cases c with
    | nil =>
      exfalso
      rw [List.append_nil] at e1
      subst e1
      obtain ⟨p1, d, rfl⟩ : ∃ p1 d, p = p1 ++ [d] := ⟨_, _, (List.dropLast_concat_getLast hp0).symm⟩
      exact hsepc d (by simp) p1 rfl (hrun d (by simp))
    | cons d c =>
      right
      have hz0 : z = [] := by
        apply Classical.byContradiction
        intro hz0
        obtain ⟨z1, d, rfl⟩ : ∃ z1 d, z = z1 ++ [d] := ⟨_, _, (List.dropLast_concat_getLast hz0).symm⟩
        exact hsepc d (by simp) z1 rfl (hrun d (by rw [e1]; simp))
      subst hz0
      rw [List.nil_append] at e1
      subst e1
      refine ⟨?_, Or.inl rfl, by simp, h.blanks, hdash _ _, ?_, Or.inr ⟨rfl, Or.inl rfl⟩⟩
      · rcases List.append_eq_append_iff.1 e2 with ⟨y, f1, f2⟩ | ⟨y, f1, f2⟩
        · cases y with
          | nil => rw [f1]; simp
          | cons d' y =>
            exfalso
            refine hp.after d' (by rw [f2]; rfl) (hrun d' ?_)
            rw [f1]; simp
        · rw [f1]; simp
      · refine (kind_after ?_).1 h.kind
        intro e
        rw [← e2]
        exact opens_joint hp e
  · left
    cases c with
    | nil =>
      exfalso
      rw [List.append_nil] at e1
      subst e1
      obtain ⟨p1, d, e⟩ : ∃ p1 d, z = p1 ++ [d] := ⟨_, _, (List.dropLast_concat_getLast hp0).symm⟩
      exact hsepc d (by rw [e]; simp) p1 e (hrun d (by rw [e]; simp))
    | cons d c =>
      subst e1 e2
      refine ⟨d :: c, by simp, rfl, Or.inl rfl, by simp, h.blanks, hdash _ _, ?_, Or.inl hsep⟩
      refine (kind_after ?_).1 h.kind
      intro e
      cases p with
      | nil => exact absurd rfl hp0
      | cons y p => simp

theorem readAt_jointEnd {u : UTables} {words : List Str} (hne : ∃ w ∈ words, w ≠ []) {t g b B w : Str} {k : Kind}
    (hp : Joint u words t g b) (h : ReadAt u words [] t B k w [] []) :
    ReadAt u words [] (t ++ (g ++ b)) B k w g b := by
  have hw0 := kind_ne hne h.kind
  refine ⟨Or.inl rfl, by rw [h.text]; simp, h.blanks, ?_, ?_, Or.inl (isSeparator_iff.2 (Or.inl ⟨hp.nonempty, ?_⟩))⟩
  · have := h.dash
    rw [List.append_assoc, head?_append_left hw0] at this ⊢
    exact this
  · exact (kind_after (fun e => (opens_joint hp e).symm)).1 h.kind
  · intro c hc
    exact joint_sep hp hc

theorem bestAt_jointRest {u : UTables} {words : List Str} (hne : ∃ w ∈ words, w ≠ []) {t g b B w p r : Str}
    (hp : Joint u words t g b) (h : BestAt u words [] t B w p r) (hr : r ≠ []) :
    BestAt u words [] (t ++ (g ++ b)) B w p (r ++ (g ++ b)) := by
  obtain ⟨k, h1, h2⟩ := h
  refine ⟨k, readAt_part_rest hne h1 (fun c hc => hp.line c (by simp [hc])) hr, ?_⟩
  intro B' k' w' p' r' h'
  rcases readAt_jointPart hne hp h' with ⟨r0, _, _, h0⟩ | ⟨_, h0⟩
  · exact h2 _ _ _ _ _ h0
  · have hnw := h2 _ _ _ _ _ h0
    have t1 := congrArg List.length h1.text
    have t2 := congrArg List.length h0.text
    have := List.length_pos_iff.2 hr
    rw [NotWorse] at hnw ⊢
    simp only [List.length_append, List.length_nil] at *
    omega

theorem bestAt_jointEnd {u : UTables} {words : List Str} (hne : ∃ w ∈ words, w ≠ []) {t g b B w : Str}
    (hp : Joint u words t g b) (h : BestAt u words [] t B w [] []) : BestAt u words [] (t ++ (g ++ b)) B w g b := by
  obtain ⟨k, h1, h2⟩ := h
  refine ⟨k, readAt_jointEnd hne hp h1, ?_⟩
  intro B' k' w' p' r' h'
  rcases readAt_jointPart hne hp h' with ⟨r0, hr0, _, h0⟩ | ⟨hl, h0⟩
  · have hnw := h2 _ _ _ _ _ h0
    have t1 := congrArg List.length h1.text
    have t2 := congrArg List.length h0.text
    have := List.length_pos_iff.2 hr0
    rw [NotWorse] at hnw ⊢
    simp only [List.length_append, List.length_nil] at *
    omega
  · have hnw := h2 _ _ _ _ _ h0
    rw [NotWorse] at hnw ⊢
    simp only [List.length_nil] at hnw
    omega

theorem readable_joint {u : UTables} {words : List Str} (hne : ∃ w ∈ words, w ≠ []) {t g b : Str} (hp : Joint u words t g b)
    (h : Readable u words [] (t ++ (g ++ b))) : Readable u words [] t := by
  obtain ⟨B, k, w, p, r, h⟩ := h
  rcases readAt_jointPart hne hp h with ⟨r0, _, _, h0⟩ | ⟨_, h0⟩
  · exact ⟨_, _, _, _, _, h0⟩
  · exact ⟨_, _, _, _, _, h0⟩

/-- The condition holds for what is left of the first text. -/
theorem joint_rest {u : UTables} {words : List Str} {t r g b : Str} (hp : Joint u words (t ++ r) g b) (hr : r ≠ []) :
    Joint u words r g b := by
  refine ⟨?_, hp.nonempty, hp.seps, hp.after, fun c hc => hp.line c ?_, ?_, ?_⟩
  · obtain ⟨c, hc, hns⟩ := hp.before
    rw [getLast?_append_right hr] at hc
    exact ⟨c, hc, hns⟩
  · rw [List.append_assoc, List.append_assoc]
    rw [List.append_assoc] at hc
    exact List.mem_append_right _ hc
  · intro x c d h1 h2 h3 h4
    exact hp.decimal x c d h1 h2 (by rw [getLast?_append_right hr]; exact h3) h4
  · intro x y z e h1 h2
    refine hp.across (t ++ x) y z ?_ (by simp only [List.length_append]; omega) (by simp only [List.length_append]; omega)
    rw [show t ++ r ++ g ++ b = t ++ (r ++ g ++ b) by simp, e]
    simp

/-- The rounds of a text divided by separators that nothing reaches across. -/
theorem splits_joint {u : UTables} {words : List Str} (hne : ∃ w ∈ words, w ≠ []) {a g b last : Str} {rs : List Round}
    (hp : Joint u words a g b) (h : SplitsInto u words a rs last) :
    (last ≠ [] → SplitsInto u words (a ++ (g ++ b)) rs (last ++ (g ++ b))) ∧
    (last = [] → ∃ pre r, rs = pre ++ [r] ∧ r.sep = [] ∧ ∀ qs end_, SplitsInto u words b qs end_ →
      SplitsInto u words (a ++ (g ++ b)) (pre ++ { r with sep := g } :: qs) end_) := by
  induction h with
  | @stop s hs =>
    refine ⟨fun hs0 => .stop (Or.inr ?_), fun hs0 => ?_⟩
    · intro a' b' e hr
      have ha' : a' = [] := readable_line (fun c hc => hp.line c (by rw [List.append_assoc, e]; simp [hc])) hr
      subst ha'
      rw [List.nil_append] at e
      rw [← e] at hr
      exact (hs.resolve_left hs0) [] s rfl (readable_joint hne hp hr)
    · exfalso
      obtain ⟨c, hc, _⟩ := hp.before
      rw [hs0] at hc; cases hc
  | @round x t B w p r last rs hxt hbefore hbest hrest ih =>
    have hx : x = [] := by
      obtain ⟨k, hb, _⟩ := hbest
      exact lineStart_line (fun c hc => hp.line c (by simp [hc])) hb.start
    subst hx
    simp only [List.nil_append] at hp hxt ⊢
    have htext := hbest.choose_spec.1.text
    by_cases hr : r = []
    · subst hr
      obtain ⟨rfl, rfl⟩ := splitsInto_nil hrest
      refine ⟨fun h => absurd rfl h, fun _ => ⟨[], ⟨[], B, w, p⟩, rfl, ?_, ?_⟩⟩
      all_goals
        have hp0 : p = [] := by
          rcases hbest.choose_spec.1.sep with hs | ⟨hs, _⟩
          · exfalso
            obtain ⟨c, hc, hns⟩ := hp.before
            have hpp : p ≠ [] := by
              rcases isSeparator_iff.1 hs with hs | hs
              · exact hs.1
              · rw [hs]; simp
            rw [htext, List.append_nil, getLast?_append_right hpp] at hc
            refine hns (sepChar_iff.2 ?_)
            have hm := List.mem_of_getLast? hc
            rcases isSeparator_iff.1 hs with hs | hs
            · exact Or.inl (hs.2 c hm)
            · rw [hs] at hm; exact Or.inr (List.mem_singleton.1 hm)
          · exact hs
      · exact hp0
      · subst hp0
        intro qs end_ hqs
        have := bestAt_jointEnd hne hp hbest
        exact .round (a := []) (by simp [hxt]) (fun _ _ _ h => absurd h (by simp)) this hqs
    · have hp' : Joint u words r g b := by rw [htext] at hp; exact joint_rest hp hr
      have hb := bestAt_jointRest hne hp hbest hr
      obtain ⟨i1, i2⟩ := ih hp'
      refine ⟨fun hl => ?_, fun hl => ?_⟩
      · exact .round (a := []) (by simp [hxt]) (fun _ _ _ h => absurd h (by simp)) hb (i1 hl)
      · obtain ⟨pre, rd, rfl, h1, h2⟩ := i2 hl
        refine ⟨⟨[], B, w, p⟩ :: pre, rd, rfl, h1, fun qs end_ hqs => ?_⟩
        exact .round (a := []) (by simp [hxt]) (fun _ _ _ h => absurd h (by simp)) hb (h2 qs end_ hqs)

/-- A word of the lexicon, by itself, is read as a whole. -/
theorem splits_word {u : UTables} {words : List Str} {v : Str} (hv : v.map u.canon ∈ words)
    (hfirst : ∃ c, v.head? = some c ∧ ¬ SepChar u c) : SplitsInto u words v [⟨[], [], v, []⟩] [] := by
  obtain ⟨c, hc, hns⟩ := hfirst
  have hv0 : v ≠ [] := by rintro rfl; cases hc
  have hbest : BestAt u words [] v [] v [] [] := by
    refine ⟨.phrase, ⟨Or.inl rfl, by simp, by simp, ?_, Or.inl ⟨hv0, hv⟩, Or.inr ⟨rfl, Or.inl rfl⟩⟩, ?_⟩
    · rw [List.append_nil, List.append_nil, hc]
      intro h'
      cases h'
      exact hns (sepChar_iff.2 (Or.inr rfl))
    · intro B k w p r h
      have hB : B = [] := by
        cases B with
        | nil => rfl
        | cons d B =>
          exfalso
          rw [h.text] at hc
          cases hc
          exact hns (Or.inr (Or.inr (Or.inl (h.blanks c (by simp)))))
      subst hB
      have := congrArg List.length h.text
      simp only [List.length_append, List.length_nil] at this
      rw [NotWorse]
      cases k <;> simp only [Kind.rank, List.length_nil, true_and] <;> omega
  exact .round (a := []) (by simpa using hv0) (fun _ _ _ h => absurd h (by simp)) hbest (.stop (Or.inl rfl))

/-- The rounds of texts in which words that are read as a whole stand alone. -/
theorem splits_alone {u : UTables} {words : List Str} (hne : ∃ w ∈ words, w ≠ []) {a g v w g' b : Str}
    (hv : SplitsInto u words v [⟨[], [], v, []⟩] []) (hw : SplitsInto u words w [⟨[], [], w, []⟩] []) (h : StandsAlone u words a g v g' b)
    (h' : StandsAlone u words a g w g' b) (hb : ∃ rs last, SplitsInto u words b rs last)
    (ha : ∃ rs last, SplitsInto u words a rs last) :
    (∃ rs last last', SplitsInto u words (a ++ (g ++ (v ++ (g' ++ b)))) rs last ∧
      SplitsInto u words (a ++ (g ++ (w ++ (g' ++ b)))) rs last') ∨
    ∃ pre s post last, SplitsInto u words (a ++ (g ++ (v ++ (g' ++ b)))) (pre ++ ⟨[], [], v, s⟩ :: post) last ∧
      SplitsInto u words (a ++ (g ++ (w ++ (g' ++ b)))) (pre ++ ⟨[], [], w, s⟩ :: post) last := by
  -- the second part
  have key : ∃ s post last, ∀ z, SplitsInto u words z [⟨[], [], z, []⟩] [] → StandsAlone u words a g z g' b →
      SplitsInto u words (z ++ (g' ++ b)) (⟨[], [], z, s⟩ :: post) last := by
    rcases h.right with ⟨rfl, rfl⟩ | _
    · refine ⟨[], [], [], fun z hz hs => ?_⟩
      rw [List.append_nil, List.append_nil]
      exact hz
    · by_cases hg : g' = []
      · subst hg
        rcases h.right with ⟨_, rfl⟩ | hj
        · refine ⟨[], [], [], fun z hz hs => ?_⟩
          rw [List.append_nil, List.append_nil]
          exact hz
        · exact absurd rfl hj.nonempty
      · obtain ⟨rs, last, hrs⟩ := hb
        refine ⟨g', rs, last, fun z hz hs => ?_⟩
        have hj := hs.right.resolve_left fun hx => hg hx.1
        obtain ⟨pre, r, e1, _, e3⟩ := (splits_joint hne hj hz).2 rfl
        have e4 := congrArg List.length e1
        simp only [List.length_append, List.length_cons, List.length_nil] at e4
        have : pre = [] := List.eq_nil_of_length_eq_zero (by omega)
        subst this
        rw [List.nil_append, List.cons.injEq] at e1
        have e5 := e3 _ _ hrs
        rw [← e1.1] at e5
        exact e5
  obtain ⟨s, post, last, key⟩ := key
  by_cases hg : g = []
  · subst hg
    have ha0 : a = [] := by
      rcases h.left with hl | hl
      · exact hl.1
      · exact absurd rfl hl.nonempty
    subst ha0
    exact Or.inr ⟨[], s, post, last, key v hv h, key w hw h'⟩
  · have j := h.left.resolve_left fun hx => hg hx.2
    have j' := h'.left.resolve_left fun hx => hg hx.2
    obtain ⟨rs, la, hrs⟩ := ha
    by_cases hla : la = []
    · obtain ⟨pre, r, e1, e2, e3⟩ := (splits_joint hne j hrs).2 hla
      obtain ⟨pre', r', e1', e2', e3'⟩ := (splits_joint hne j' hrs).2 hla
      obtain ⟨rfl, e4⟩ := List.append_inj' (e1.symm.trans e1') rfl
      cases e4
      refine Or.inr ⟨pre ++ [{ r with sep := g }], s, post, last, ?_, ?_⟩
      · have := e3 _ _ (key v hv h)
        simpa using this
      · have := e3' _ _ (key w hw h')
        simpa using this
    · exact Or.inl ⟨rs, _, _, (splits_joint hne j hrs).1 hla, (splits_joint hne j' hrs).1 hla⟩

end Tokenizer
end AS
