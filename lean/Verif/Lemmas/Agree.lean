import Verif.Lemmas.Chars
import Verif.Lemmas.Classify
import Verif.Props.Codec
/-
What the functions take from the lexicon: the locale, the entries found for texts that come from the
address, and the patterns.
-/
namespace AS
open Tokenizer

/-- Texts with their parts, their forms with a point for a comma, and the single blank. -/
structure TextClosed (S : Str → Prop) : Prop where
  nil : S []
  blank : S c!" "
  sub : ∀ a b c, S (a ++ b ++ c) → S b
  comma : ∀ s, S s → S (firstComma s)

variable {S : Str → Prop}

theorem TextClosed.left (hS : TextClosed S) {a b : Str} (h : S (a ++ b)) : S a := hS.sub [] a b h

theorem TextClosed.right (hS : TextClosed S) {a b : Str} (h : S (a ++ b)) : S b :=
  hS.sub a b [] (by rw [List.append_nil]; exact h)

/-- Entries with the same classes, and the same standard word for each class. -/
def UseSame (a b : List LexEntry) : Prop :=
  (∀ c, (∃ e ∈ a, c ∈ e.type) ↔ ∃ e ∈ b, c ∈ e.type) ∧ ∀ inclass, Lexicon.stdLoop inclass a = Lexicon.stdLoop inclass b

theorem UseSame.of_eq {a b : List LexEntry} (h : a = b) : UseSame a b := by subst h; exact ⟨fun _ => Iff.rfl, fun _ => rfl⟩

/-- On these texts the lexicons find entries that are used in the same way. -/
def FindsSame (S : Str → Prop) (l l' : Lexicon) : Prop := ∀ w, S w → UseSame (l.find w) (l'.find w)

theorem addTypes_same {a b : List LexEntry} (h : UseSame a b) {t : Token} (ht : IsSet InType.code t.inclass) :
    Lexicon.addTypes a t = Lexicon.addTypes b t := by
  rw [addTypes_rest a, addTypes_rest b]
  have : (Lexicon.addTypes a t).inclass = (Lexicon.addTypes b t).inclass := by
    refine IsSet.ext (isSet_addTypes a ht) (isSet_addTypes b ht) fun c => ?_
    rw [mem_addTypes, mem_addTypes, h.1 c]
  rw [this]

theorem ofText_isSet (s : Str) : IsSet InType.code (Token.ofText s).inclass := by
  have key : ∀ x, IsSet InType.code (InType.asType x) := fun x => by
    obtain ⟨T, h1, h2⟩ := Props.C02_read_total x
    simp only [InType.asType, h1]
    exact h2
  exact key _

theorem trim_isSet (s : Str) (n : Int) : IsSet InType.code ((Token.ofText s).trim n).inclass := by
  unfold Token.trim
  split
  · exact ofText_isSet s
  · exact ofText_isSet s

/-- On these texts the pattern of all words matches the same, and those of attached words split the same. -/
structure MatchSame (S : Str → Prop) (u : UTables) (x x' : LexRe) : Prop where
  all : ∀ s, S s → x.all.run (s.map u.canon) = x'.all.run (s.map u.canon)
  pieces : ∀ s, S s → attachedPieces s (groups (prefixRx u x) s).1 (groups (prefixRx u x) s).2 (groups (suffixRx x) s).1
    (groups (suffixRx x) s).2 = attachedPieces s (groups (prefixRx u x') s).1 (groups (prefixRx u x') s).2
    (groups (suffixRx x') s).1 (groups (suffixRx x') s).2

/-! ### Texts of tokens -/

theorem cutAt_parts (d : Char) : ∀ s : Str, (∃ t, s = (cutAt d s).1 ++ t) ∧ ∀ r, (cutAt d s).2 = some r → ∃ t, s = t ++ r
  | [] => ⟨⟨[], rfl⟩, fun r h => by cases h⟩
  | c :: s => by
    obtain ⟨⟨t, h1⟩, h2⟩ := cutAt_parts d s
    rw [cutAt]
    split
    · exact ⟨⟨c :: s, rfl⟩, fun r e => by cases e; exact ⟨[c], rfl⟩⟩
    · refine ⟨⟨t, ?_⟩, fun r hr => ?_⟩
      · simp only [List.cons_append]; rw [← h1]
      · obtain ⟨t', h⟩ := h2 r hr
        exact ⟨c :: t', by rw [List.cons_append, ← h]⟩

theorem getline_texts (hS : TextClosed S) {s : IStream} {d : Char} {old : Str} (hs : S s.rest) (ho : S old) :
    S (s.getline d old).1.rest ∧ S (s.getline d old).2 := by
  obtain ⟨⟨t, h1⟩, h2⟩ := cutAt_parts d s.rest
  unfold IStream.getline
  split
  · split
    · next l r e =>
      rw [e] at h1 h2
      obtain ⟨t', h2⟩ := h2 r rfl
      exact ⟨hS.right (h2 ▸ hs), hS.left (h1 ▸ hs)⟩
    · next l e => rw [e] at h1; exact ⟨hS.nil, hS.left (h1 ▸ hs)⟩
  · exact ⟨hs, ho⟩

theorem ofText_text (hS : TextClosed S) {s : Str} (h : S s) : S (Token.ofText s).text := by
  unfold Token.ofText
  have h1 := getline_texts hS (s := IStream.ofStr s) (d := '\t') (old := []) h hS.nil
  simp only
  split
  · exact (getline_texts hS (d := '\t') h1.1 h1.2).2
  · exact h1.2

theorem ite_text {p : Prop} [Decidable p] {a b : Token} (ha : S a.text) (hb : S b.text) : S (if p then a else b).text := by
  split
  · exact ha
  · exact hb

theorem addClass_text {t : Token} (c : InType) (h : S t.text) : S (t.addClass c).text := h

theorem byShape_text (hS : TextClosed S) (u : UTables) {t : Token} (h : S t.text) : S (Lexicon.byShape u t).text := by
  unfold Lexicon.byShape
  refine ite_text (hS.comma _ h) ?_
  repeat' first
    | exact h
    | refine addClass_text _ ?_
    | refine ite_text ?_ ?_

theorem classify_text (hS : TextClosed S) (u : UTables) (l : Lexicon) {t : Token} (h : S t.text) (d : InType) :
    S (l.classify u t d).text := by
  have h1 : S (Lexicon.addTypes (l.find t.text) t).text := by
    rw [(addTypes_keeps _ _).1]
    exact h
  unfold Lexicon.classify
  simp only
  split
  · exact h1
  · have h2 := byShape_text hS u (t := { Lexicon.addTypes (l.find t.text) t with inlex := false }) h1
    split
    · exact h2
    · exact h2

theorem wordToken_text (hS : TextClosed S) (u : UTables) (l : Lexicon) {s : Str} (h : S s) : S (wordToken u l s).text :=
  classify_text hS u l (ofText_text hS h) _

theorem splitOn_parts (d : Char) : ∀ (s p : Str), p ∈ splitOn d s → d ∉ p ∧ ∃ a b, s = a ++ p ++ b
  | [], p, h => by
    rw [splitOn, List.mem_singleton] at h
    subst h
    exact ⟨by simp, [], [], rfl⟩
  | c :: s, p, h => by
    rw [splitOn] at h
    by_cases hc : c = d
    · rw [if_pos hc] at h
      rcases List.mem_cons.1 h with rfl | h
      · exact ⟨by simp, [], c :: s, rfl⟩
      · obtain ⟨h1, a, b, e⟩ := splitOn_parts d s p h
        exact ⟨h1, c :: a, b, by rw [e]; rfl⟩
    · rw [if_neg hc] at h
      have hfirst : ∀ q qs, splitOn d s = q :: qs → ∃ b, s = q ++ b := by
        intro q qs e
        clear h
        induction s generalizing q qs with
        | nil => simp only [splitOn, List.cons.injEq] at e; exact ⟨[], by rw [← e.1]; rfl⟩
        | cons x s ih =>
          rw [splitOn] at e
          split at e
          · simp only [List.cons.injEq] at e; exact ⟨x :: s, by rw [← e.1]; rfl⟩
          · cases hs : splitOn d s with
            | nil => rw [hs] at e; simp only [List.cons.injEq] at e; rw [← e.1]; exact ⟨s, rfl⟩
            | cons y ys =>
              rw [hs] at e
              simp only [List.cons.injEq] at e
              obtain ⟨b, hb⟩ := ih y ys hs
              exact ⟨b, by rw [← e.1, List.cons_append, ← hb]⟩
      cases hs : splitOn d s with
      | nil => exact absurd hs (splitOn_ne_nil _ _)
      | cons q qs =>
        rw [hs] at h
        simp only at h
        rcases List.mem_cons.1 h with rfl | h
        · obtain ⟨b, e⟩ := hfirst q qs hs
          obtain ⟨h1, _⟩ := splitOn_parts d s q (by rw [hs]; exact List.mem_cons_self ..)
          refine ⟨?_, [], b, by rw [e]; rfl⟩
          rw [List.mem_cons, not_or]
          exact ⟨fun e => hc e.symm, h1⟩
        · obtain ⟨h1, a, b, e⟩ := splitOn_parts d s p (by rw [hs]; exact List.mem_cons_of_mem _ h)
          exact ⟨h1, c :: a, b, by rw [e]; rfl⟩

theorem wordsOf_parts {s w : Str} (hw : w ∈ splitBlanks false [] s) : ' ' ∉ w ∧ ∃ a b, s = a ++ w ++ b := by
  refine splitOn_parts ' ' s w ?_
  rw [splitBlanks_eq] at hw
  unfold wordsOf at hw
  split at hw
  · cases hw
  · next p e => rw [e]; exact hw
  · next p q ps e =>
    rw [e]
    rw [List.cons_append] at hw
    rcases List.mem_cons.1 hw with rfl | hw
    · exact List.mem_cons_self ..
    · refine List.mem_cons_of_mem _ ?_
      rcases List.mem_append.1 hw with hw | hw
      · exact List.dropLast_subset _ (List.mem_filter.1 hw).1
      · rw [List.mem_singleton] at hw
        rw [hw]; exact List.getLast_mem _

/-- The second text is the first with blanks put in. -/
inductive Spaced : Str → Str → Prop
  | nil : Spaced [] []
  | keep {c a b} : Spaced a b → Spaced (c :: a) (c :: b)
  | blank {a b} : Spaced a b → Spaced a (' ' :: b)

theorem Spaced.refl : ∀ s : Str, Spaced s s
  | [] => .nil
  | _ :: s => .keep (Spaced.refl s)

theorem Spaced.append {a b a' b' : Str} (h : Spaced a b) (h' : Spaced a' b') : Spaced (a ++ a') (b ++ b') := by
  induction h with
  | nil => exact h'
  | keep _ ih => exact .keep ih
  | blank _ ih => exact .blank ih

/-- What has no blanks in the second text is in one piece in the first. -/
theorem Spaced.head {a b : Str} (h : Spaced a b) : ∀ {w z : Str}, b = w ++ z → ' ' ∉ w → ∃ y, a = w ++ y := by
  induction h with
  | nil =>
    intro w z e _
    obtain ⟨rfl, _⟩ := List.append_eq_nil_iff.1 e.symm
    exact ⟨[], rfl⟩
  | keep h ih =>
    intro w z e hw
    cases w with
    | nil => exact ⟨_, rfl⟩
    | cons d w =>
      rw [List.cons_append, List.cons.injEq] at e
      obtain ⟨y, hy⟩ := ih e.2 (fun h => hw (List.mem_cons_of_mem _ h))
      exact ⟨y, by rw [hy, e.1]; rfl⟩
  | blank h ih =>
    intro w z e hw
    cases w with
    | nil => exact ⟨_, rfl⟩
    | cons d w =>
      rw [List.cons_append, List.cons.injEq] at e
      exact absurd (by rw [← e.1]; exact List.mem_cons_self ..) hw

theorem Spaced.part {a b : Str} (h : Spaced a b) : ∀ {v w z : Str}, b = v ++ w ++ z → ' ' ∉ w → ∃ x y, a = x ++ w ++ y := by
  induction h with
  | nil =>
    intro v w z e _
    obtain ⟨e, _⟩ := List.append_eq_nil_iff.1 e.symm
    obtain ⟨_, rfl⟩ := List.append_eq_nil_iff.1 e
    exact ⟨[], [], rfl⟩
  | @keep c a b h ih =>
    intro v w z e hw
    cases v with
    | nil =>
      obtain ⟨y, hy⟩ := (Spaced.keep (c := c) h).head e hw
      exact ⟨[], y, hy⟩
    | cons d v =>
      simp only [List.cons_append, List.cons.injEq] at e
      obtain ⟨x, y, hxy⟩ := ih e.2 hw
      exact ⟨c :: x, y, by rw [hxy]; rfl⟩
  | @blank a b h ih =>
    intro v w z e hw
    cases v with
    | nil =>
      obtain ⟨y, hy⟩ := (Spaced.blank h).head e hw
      exact ⟨[], y, hy⟩
    | cons d v =>
      simp only [List.cons_append, List.cons.injEq] at e
      obtain ⟨x, y, hxy⟩ := ih e.2 hw
      exact ⟨x, y, hxy⟩

theorem replaceLoop_spaced {r : Rx} (hr : ∀ prev s m0 m, searchFrom r prev s = some (m0, m) →
      ∃ a, s = a ++ m0.rest ∧ m0.rest = m.cap 1 ++ m.cap 2 ++ m.rest ∧ m.cap 1 ≠ [] ∧ m.cap 2 ≠ []) :
    ∀ (n : Nat) (prev s : Str), Spaced s (replaceLoop r n prev s)
  | 0, prev, s => Spaced.refl _
  | n + 1, prev, s => by
    rw [replaceLoop]
    cases hs : searchFrom r prev s with
    | none => exact Spaced.refl _
    | some mm =>
      obtain ⟨m0, m⟩ := mm
      obtain ⟨a, h1, h2, _, _⟩ := hr _ _ _ _ hs
      have ih := replaceLoop_spaced hr n m.prev m.rest
      have htake : s.take (s.length - m0.rest.length) = a := by
        rw [h1]; simp
      simp only [htake]
      have e : s = a ++ (m.cap 1 ++ (m.cap 2 ++ m.rest)) := by rw [h1, h2]; simp
      have e' : a ++ m.cap 1 ++ c!" " ++ m.cap 2 ++ replaceLoop r n m.prev m.rest =
          a ++ (m.cap 1 ++ (' ' :: (m.cap 2 ++ replaceLoop r n m.prev m.rest))) := by simp
      rw [e', e]
      exact (Spaced.refl a).append ((Spaced.refl _).append (.blank ((Spaced.refl _).append ih)))

theorem Spaced.trans_part {a b d : Str} (h : Spaced a b) (h' : Spaced b d) {v w z : Str} (e : d = v ++ w ++ z) (hw : ' ' ∉ w) :
    ∃ x y, a = x ++ w ++ y := by
  obtain ⟨x, y, e'⟩ := h'.part e hw
  exact h.part e' hw

theorem mixed_texts (hS : TextClosed S) (u : UTables) {s : Str} (h : S s) : ∀ w ∈ mixedPieces u s, S w := by
  intro w hw
  unfold mixedPieces at hw
  obtain ⟨h1, a, b, e⟩ := wordsOf_parts hw
  obtain ⟨x, y, e'⟩ := (replaceLoop_spaced (digitsLetter_ok u) _ [] s).trans_part
    (replaceLoop_spaced (letterDigits_ok u) _ [] _) e h1
  exact hS.sub x w y (e' ▸ h)

theorem attached_texts (hS : TextClosed S) {s a b c d : Str} (h : S s) (ha : S a) (hb : S b) (hc : S c) (hd : S d) :
    ∀ w ∈ attachedPieces s a b c d, S w := by
  have hm : S ((s.drop a.length).take (s.length - a.length - d.length)) := by
    have h1 : S (s.drop a.length) := hS.right (a := s.take a.length) (by rw [List.take_append_drop]; exact h)
    exact hS.left (b := (s.drop a.length).drop (s.length - a.length - d.length)) (by rw [List.take_append_drop]; exact h1)
  intro w hw
  unfold attachedPieces at hw
  repeat' split at hw
  all_goals simp only [List.mem_cons, List.not_mem_nil, or_false] at hw
  all_goals rcases hw with rfl | rfl | rfl <;> assumption

theorem groups_texts (hS : TextClosed S) {r : Rx} {s : Str} (h : S s)
    (hc : ((groups r s).1 = [] ∧ (groups r s).2 = []) ∨ s = (groups r s).1 ++ (groups r s).2) :
    S (groups r s).1 ∧ S (groups r s).2 := by
  rcases hc with ⟨h1, h2⟩ | h1
  · rw [h1, h2]; exact ⟨hS.nil, hS.nil⟩
  · rw [h1] at h
    exact ⟨hS.left h, hS.right h⟩

theorem splitToken_texts (hS : TextClosed S) (u : UTables) (l : Lexicon) (x : LexRe) {t : Token} (h : S t.text) :
    ∀ t' ∈ splitToken u l x t, S t'.text := by
  intro t' ht'
  unfold splitToken at ht'
  simp only at ht'
  split at ht'
  · obtain ⟨w, hw, rfl⟩ := List.mem_map.1 ht'
    exact wordToken_text hS u l (mixed_texts hS u h w hw)
  · obtain ⟨w, hw, rfl⟩ := List.mem_map.1 ht'
    have h1 := groups_texts hS h ((prefix_cut u x t.text).imp id And.left)
    have h2 := groups_texts hS h ((suffix_cut x t.text).imp id And.left)
    exact wordToken_text hS u l (attached_texts hS h h1.1 h1.2 h2.1 h2.2 w hw)

theorem dropWhile_suffix' {α : Type} (p : α → Bool) : ∀ s : List α, ∃ a, s = a ++ s.dropWhile p
  | [] => ⟨[], rfl⟩
  | c :: s => by
    by_cases h : p c = true
    · obtain ⟨a, h1⟩ := dropWhile_suffix' p s
      rw [List.dropWhile_cons_of_pos h]
      exact ⟨c :: a, by rw [List.cons_append, ← h1]⟩
    · rw [List.dropWhile_cons_of_neg h]
      exact ⟨[], rfl⟩

theorem trim_text (hS : TextClosed S) {t : Token} (h : S t.text) (n : Int) : S (t.trim n).text := by
  unfold Token.trim
  split
  · simp only
    have hd : ∀ s : Str, S s → S (s.dropWhile Token.isTrimmed) := fun s hs => by
      obtain ⟨a, e⟩ := dropWhile_suffix' Token.isTrimmed s
      rw [e] at hs
      exact hS.right hs
    have hr : ∀ s : Str, S s → S (s.reverse.dropWhile Token.isTrimmed).reverse := fun s hs => by
      obtain ⟨a, e⟩ := dropWhile_suffix' Token.isTrimmed s.reverse
      have e' : s = (s.reverse.dropWhile Token.isTrimmed).reverse ++ a.reverse := by
        rw [← List.reverse_append, ← e, List.reverse_reverse]
      rw [e'] at hs
      exact hS.left hs
    have hi : ∀ (p : Prop) [Decidable p] (a b : Str), S a → S b → S (if p then a else b) := by
      intro p _ a b ha hb
      split
      · exact ha
      · exact hb
    have h1 : S (if n ≠ 2 then List.dropWhile Token.isTrimmed t.text else t.text) := hi _ _ _ (hd _ h) h
    exact hi _ _ _ hS.blank (hi _ _ _ (hr _ h1) h1)
  · exact h

theorem roundTokens_texts (hS : TextClosed S) (u : UTables) (l : Lexicon) (x : LexRe) {r : Round} (hw : S r.word) (hs : S r.sep) :
    ∀ t ∈ roundTokens u l x r, S t.text := by
  intro t ht
  unfold roundTokens at ht
  rcases List.mem_append.1 ht with ht | ht
  · split at ht
    · simp only at ht
      have hwt := wordToken_text hS u l hw
      split at ht
      · rw [List.mem_singleton.1 ht]; exact hwt
      · split at ht
        · exact splitToken_texts hS u l x hwt t ht
        · rw [List.mem_singleton.1 ht]; exact hwt
    · cases ht
  · split at ht
    · rw [List.mem_singleton.1 ht]
      exact classify_text hS u l (trim_text hS (ofText_text hS hs) 3) _
    · cases ht

theorem Tokenizer.Rounds.texts (hS : TextClosed S) {u : UTables} {x : LexRe} {s last : Str} {qs : List Round} (h : Rounds u x s qs last)
    (hs : S s) : ∀ r ∈ qs, S r.word ∧ S r.sep := by
  induction h with
  | stop _ => intro r hr; cases hr
  | @round s rest last r rs ok _ _ _ ih =>
    have e := ok.text
    unfold Round.text at e
    have h1 : S (r.skipped ++ r.blanks ++ r.word ++ r.sep) := hS.left (e ▸ hs)
    have h2 : S rest := hS.right (e ▸ hs)
    intro q hq
    rcases List.mem_cons.1 hq with rfl | hq
    · exact ⟨hS.right (hS.left h1), hS.right h1⟩
    · exact ih h2 q hq

theorem getTokens_texts (hS : TextClosed S) {icu : Icu} {u : UTables} {l : Lexicon} {x : LexRe} {f : List InType}
    {str : Str} (h : S (prepare icu l str)) {ts : List Token} (ht : getTokens icu u l x f str = some ts) :
    ∀ t ∈ ts, S t.text := by
  obtain ⟨qs, last, h1, h2⟩ := getTokens_spec icu u l x f str
  rw [ht] at h2
  injection h2 with h2
  intro t hm
  rw [h2] at hm
  obtain ⟨r, hr, hr'⟩ := List.mem_flatMap.1 (applyFilter_sub _ _ _ hm)
  obtain ⟨g1, g2⟩ := h1.texts hS h r hr
  exact roundTokens_texts hS u l x g1 g2 t hr'

theorem altOne_texts (hS : TextClosed S) (u : UTables) (l : Lexicon) (i : Nat) : ∀ (ts : List Token) (n : Nat) (r : List Token),
    (∀ t ∈ ts, S t.text) → altOne u l i n (ts.map (fun t => (t, splitBlanks false [] t.text))) = some r →
    ∀ t ∈ r, S t.text
  | [], n, r, _, h => by
    simp only [List.map_nil, altOne, Option.some.injEq] at h
    subst h; intro t ht; cases ht
  | t :: ts, n, r, hall, h => by
    have ht := hall t (List.mem_cons_self ..)
    have hts : ∀ t ∈ ts, S t.text := fun x hx => hall x (List.mem_cons_of_mem _ hx)
    have keep : ∀ m, (altOne u l i m (ts.map (fun t => (t, splitBlanks false [] t.text)))).map (t :: ·) = some r →
        ∀ t ∈ r, S t.text := by
      intro m h
      obtain ⟨r', hr', rfl⟩ := Option.map_eq_some_iff.1 h
      intro x hx
      rcases List.mem_cons.1 hx with rfl | hx
      · exact ht
      · exact altOne_texts hS u l i ts m r' hts hr' x hx
    rw [List.map_cons, altOne] at h
    split at h
    · exact keep _ h
    · split at h
      · cases h
      · split at h
        · exact keep _ h
        · obtain ⟨r', hr', rfl⟩ := Option.map_eq_some_iff.1 h
          intro x hx
          rcases List.mem_append.1 hx with hx | hx
          · obtain ⟨w, hw, rfl⟩ := List.mem_map.1 hx
            obtain ⟨_, a, b, e⟩ := wordsOf_parts hw
            exact wordToken_text hS u l (hS.sub a w b (e ▸ ht))
          · exact altOne_texts hS u l i ts _ r' hts hr' x hx

theorem getAltTokens_texts (hS : TextClosed S) {u : UTables} {l : Lexicon} {ts : List Token} (h : ∀ t ∈ ts, S t.text)
    {alts : List (List Token)} (ha : getAltTokens u l ts = some alts) : ∀ a ∈ alts, ∀ t ∈ a, S t.text := by
  unfold getAltTokens at ha
  simp only at ha
  split at ha
  · injection ha with ha; subst ha; intro a h; cases h
  · split at ha
    · cases ha
    · intro a hm
      obtain ⟨i, _, e⟩ := mapM_some ha a hm
      exact altOne_texts hS u l i ts 0 a h e

/-! ### The same results -/

/-- The expressions have the same matches on these texts. -/
def SameRuns (S : Str → Prop) (r r' : Rx) : Prop := ∀ m : M, S m.rest → r.run m = r'.run m

theorem flatMap_congr' {α β : Type} {f g : α → List β} : ∀ {l : List α}, (∀ a ∈ l, f a = g a) → l.flatMap f = l.flatMap g
  | [], _ => rfl
  | a :: l, h => by
    rw [List.flatMap_cons, List.flatMap_cons, h a (List.mem_cons_self ..),
      flatMap_congr' (fun b hb => h b (List.mem_cons_of_mem _ hb))]

theorem run_rest (hS : TextClosed S) {r : Rx} {m m' : M} (h : S m.rest) (hm : m' ∈ r.run m) : S m'.rest := by
  obtain ⟨a, e, _⟩ := run_eats r m m' hm
  rw [e] at h
  exact hS.right h

theorem SameRuns.refl (r : Rx) : SameRuns S r r := fun _ _ => rfl

theorem SameRuns.seq (hS : TextClosed S) {a a' b b' : Rx} (ha : SameRuns S a a') (hb : SameRuns S b b') :
    SameRuns S (.seq a b) (.seq a' b') := by
  intro m hm
  rw [Rx.run, Rx.run, ha m hm]
  exact flatMap_congr' (fun m' hm' => hb m' (run_rest hS hm hm'))

theorem SameRuns.alt {a a' b b' : Rx} (ha : SameRuns S a a') (hb : SameRuns S b b') : SameRuns S (.alt a b) (.alt a' b') := by
  intro m hm
  rw [Rx.run, Rx.run, ha m hm, hb m hm]

theorem SameRuns.cap {a a' : Rx} (k : Nat) (ha : SameRuns S a a') : SameRuns S (.cap k a) (.cap k a') := by
  intro m hm
  rw [Rx.run, Rx.run, ha m hm]

theorem SameRuns.gen {f : Char → Char} {r r' : Re} (h : ∀ s, S s → r.run (s.map f) = r'.run (s.map f)) :
    SameRuns S (.gen f r) (.gen f r') := by
  intro m hm
  rw [Rx.run, Rx.run, h _ hm]

theorem tokenRx_same (hS : TextClosed S) {u : UTables} {x x' : LexRe} (h : MatchSame S u x x') :
    SameRuns S (tokenRx u x) (tokenRx u x') := by
  unfold tokenRx wordRx
  simp only [Rx.seqs, Rx.alts]
  exact (SameRuns.refl _).seq hS ((SameRuns.refl _).seq hS ((SameRuns.refl _).seq hS
    (((SameRuns.gen h.all).alt (SameRuns.refl _)).cap 1 |>.seq hS (SameRuns.refl _))))

theorem searchFrom_same (hS : TextClosed S) {r r' : Rx} (h : SameRuns S r r') : ∀ (s prev : Str), S s →
    searchFrom r prev s = searchFrom r' prev s
  | [], prev, hs => by rw [searchFrom, searchFrom, h _ hs]
  | c :: s, prev, hs => by
    rw [searchFrom, searchFrom, h ⟨prev, c :: s, []⟩ hs, searchFrom_same hS h s (c :: prev) (hS.right (a := [c]) hs)]

theorem rounds_same (hS : TextClosed S) {r r' : Rx} (h : SameRuns S r r') : ∀ (n : Nat) (s : Str), S s →
    rounds r n s = rounds r' n s
  | 0, s, _ => rfl
  | n + 1, s, hs => by
    rw [rounds, rounds, ← searchFrom_same hS h s [] hs]
    cases hm : searchFrom r [] s with
    | none => rfl
    | some mm =>
      obtain ⟨m0, m⟩ := mm
      obtain ⟨a, b, hab, rfl, hmem, _⟩ := searchFrom_some hm
      have h1 : S m.rest := run_rest hS (m := ⟨a.reverse ++ [], b, []⟩) (hS.right (a := a) (hab ▸ hs)) (List.mem_of_head? hmem)
      simp only
      rw [rounds_same hS h n m.rest h1]

theorem classify_same {l l' : Lexicon} (h : FindsSame S l l') (u : UTables) {t : Token} (ht : S t.text)
    (hi : IsSet InType.code t.inclass) (d : InType) : l.classify u t d = l'.classify u t d := by
  unfold Lexicon.classify
  rw [addTypes_same (h _ ht) hi]

theorem wordToken_same (hS : TextClosed S) {l l' : Lexicon} (h : FindsSame S l l') (u : UTables) {s : Str} (hs : S s) :
    wordToken u l s = wordToken u l' s := classify_same h u (ofText_text hS hs) (ofText_isSet _) _

theorem splitToken_same (hS : TextClosed S) {l l' : Lexicon} {u : UTables} {x x' : LexRe} (h : FindsSame S l l')
    (hx : MatchSame S u x x') {t : Token} (ht : S t.text) : splitToken u l x t = splitToken u l' x' t := by
  unfold splitToken
  simp only
  rw [← hx.pieces _ ht]
  split
  · exact List.map_congr_left fun w hw => wordToken_same hS h u (mixed_texts hS u ht w hw)
  · have h1 := groups_texts hS ht ((prefix_cut u x t.text).imp id And.left)
    have h2 := groups_texts hS ht ((suffix_cut x t.text).imp id And.left)
    exact List.map_congr_left fun w hw => wordToken_same hS h u (attached_texts hS ht h1.1 h1.2 h2.1 h2.2 w hw)

theorem roundTokens_same (hS : TextClosed S) {l l' : Lexicon} {u : UTables} {x x' : LexRe} (h : FindsSame S l l')
    (hx : MatchSame S u x x') {r : Round} (hw : S r.word) (hs : S r.sep) : roundTokens u l x r = roundTokens u l' x' r := by
  unfold roundTokens
  simp only
  rw [← wordToken_same hS h u hw, ← splitToken_same hS h hx (wordToken_text hS u l hw),
    ← classify_same h u (trim_text hS (ofText_text hS hs) 3) (trim_isSet _ _)]

theorem getTokens_same (hS : TextClosed S) {icu : Icu} {l l' : Lexicon} {u : UTables} {x x' : LexRe} (h : FindsSame S l l')
    (hx : MatchSame S u x x') (hloc : l.locale = l'.locale) {f : List InType} {str : Str} (hs : S (prepare icu l str)) :
    getTokens icu u l x f str = getTokens icu u l' x' f str := by
  have e : prepare icu l str = prepare icu l' str := by unfold prepare; rw [hloc]
  unfold getTokens
  simp only
  rw [← e, ← rounds_same hS (tokenRx_same hS hx) _ _ hs]
  obtain ⟨rs, last, qs, h1, h2, h3⟩ := rounds_spec u x ((prepare icu l str).length + 2) (prepare icu l str) (by omega)
  rw [h1]
  simp only
  rw [h3 _ (roundTokens_empty u l x), h3 _ (roundTokens_empty u l' x')]
  rw [flatMap_congr' (fun r hr => roundTokens_same hS h hx (h2.texts hS hs r hr).1 (h2.texts hS hs r hr).2)]

theorem altOne_same (hS : TextClosed S) {l l' : Lexicon} {u : UTables} (h : FindsSame S l l') (i : Nat) :
    ∀ (ts : List Token) (n : Nat), (∀ t ∈ ts, S t.text) →
    altOne u l i n (ts.map (fun t => (t, splitBlanks false [] t.text))) =
      altOne u l' i n (ts.map (fun t => (t, splitBlanks false [] t.text)))
  | [], n, _ => rfl
  | t :: ts, n, hall => by
    have ht := hall t (List.mem_cons_self ..)
    have ih := fun n => altOne_same hS (u := u) h i ts n (fun x hx => hall x (List.mem_cons_of_mem _ hx))
    have hm : (splitBlanks false [] t.text).map (wordToken u l) = (splitBlanks false [] t.text).map (wordToken u l') :=
      List.map_congr_left fun w hw => by
        obtain ⟨_, a, b, e⟩ := wordsOf_parts hw
        exact wordToken_same hS h u (hS.sub a w b (e ▸ ht))
    rw [List.map_cons, altOne, altOne, ih, ih, hm]

theorem mapM_congr' {α β : Type} {f g : α → Option β} (h : ∀ a, f a = g a) (l : List α) : l.mapM f = l.mapM g := by
  rw [show f = g from funext h]

theorem getAltTokens_same (hS : TextClosed S) {l l' : Lexicon} {u : UTables} (h : FindsSame S l l') {ts : List Token}
    (hts : ∀ t ∈ ts, S t.text) : getAltTokens u l ts = getAltTokens u l' ts := by
  unfold getAltTokens
  simp only
  rw [mapM_congr' (fun i => altOne_same hS (u := u) h i ts 0 hts)]

/-! ### The interface -/
variable {F D : Type}

/-- The text from which tokens are made. -/
def textOf (env : Wrapper.Env F D) (l : Lexicon) (locale address : Str) : Str :=
  env.icu.upper l.locale (env.icu.norm (env.icu.upper locale (env.icu.norm address)))

theorem phrasesOf_texts (hS : TextClosed S) {env : Wrapper.Env F D} {l : Lexicon} {locale filter address : Str}
    (h : S (textOf env l locale address)) {phrases : List (List Token)}
    (hp : Wrapper.phrasesOf env l locale filter address = .ok phrases) : ∀ phrase ∈ phrases, ∀ t ∈ phrase, S t.text := by
  unfold Wrapper.phrasesOf at hp
  simp only at hp
  split at hp
  · cases hp
  · next ts hts =>
    split at hp
    · cases hp
    · next alts halts =>
      injection hp with hp
      subst hp
      have h1 := getTokens_texts hS h hts
      intro phrase hm
      rcases List.mem_cons.1 hm with rfl | hm
      · exact h1
      · exact getAltTokens_texts hS h1 halts phrase hm

theorem phrasesOf_same (hS : TextClosed S) {env : Wrapper.Env F D} {l l' : Lexicon} (h : FindsSame S l l')
    (hx : MatchSame S env.u (Wrapper.lexRe env l) (Wrapper.lexRe env l')) (hloc : l.locale = l'.locale) {locale filter address : Str}
    (hs : S (textOf env l locale address)) :
    Wrapper.phrasesOf env l locale filter address = Wrapper.phrasesOf env l' locale filter address := by
  unfold Wrapper.phrasesOf
  simp only
  rw [← getTokens_same hS (f := InType.asType filter) h hx hloc (icu := env.icu) hs]
  split
  · rfl
  · next ts hts =>
    rw [getAltTokens_same hS h (getTokens_texts hS hs hts)]

theorem standardize_same {l l' : Lexicon} (h : FindsSame S l l') {t : Token} (ht : S t.text) :
    l.standardize t = l'.standardize t := by
  unfold Lexicon.standardize
  rw [(h _ ht).2]

theorem collect_same {l l' : Lexicon} (h : FindsSame S l l') : ∀ (ts : List Token) (v : List Str), (∀ t ∈ ts, S t.text) →
    Wrapper.collect l v ts = Wrapper.collect l' v ts
  | [], v, _ => rfl
  | t :: ts, v, hts => by
    have ih := fun v => collect_same h ts v (fun x hx => hts x (List.mem_cons_of_mem _ hx))
    rw [Wrapper.collect, Wrapper.collect, standardize_same h (hts t (List.mem_cons_self ..))]
    split
    · rfl
    · split
      · exact ih _
      · exact ih _

/-- Functions that are given a lexicon. -/
theorem address_same (hS : TextClosed S) {env : Wrapper.Env F D} {l l' : Lexicon} (h : FindsSame S l l')
    (hx : MatchSame S env.u (Wrapper.lexRe env l) (Wrapper.lexRe env l')) (hloc : l.locale = l'.locale) {locale filter address : Str}
    (hs : S (textOf env l locale address)) (g : Grammar F) :
    Wrapper.standardizeAddr env g l locale filter address = Wrapper.standardizeAddr env g l' locale filter address ∧
    Wrapper.parseAddr env l locale filter address = Wrapper.parseAddr env l' locale filter address ∧
    Wrapper.matchAddr env g l locale filter address = Wrapper.matchAddr env g l' locale filter address := by
  have e := phrasesOf_same hS h hx hloc (filter := filter) hs
  refine ⟨?_, ?_, ?_⟩
  · unfold Wrapper.standardizeAddr Wrapper.standardizeAddrWith
    rw [← e]
    split
    · rfl
    · rfl
    · next phrases hp =>
      split
      · rfl
      · rfl
      · next b hb =>
        have ht : ∀ t ∈ b.tokens, S t.text :=
          bestOf_of (Q := fun t => S t.text) (fun _ _ _ h => h) (phrasesOf_texts hS hs hp) hb
        rw [collect_same h b.tokens _ ht]
  · unfold Wrapper.parseAddr
    rw [e]
  · unfold Wrapper.matchAddr
    rw [e]

/-! ### Lexicons that have the same words among these texts -/

theorem wordEnds_same {words words' : List Str} {text : Str} (h : ∀ a b, text = a ++ b → a ≠ [] → (a ∈ words ↔ a ∈ words')) :
    wordEnds words text = wordEnds words' text := by
  unfold wordEnds
  congr 1
  apply List.filter_congr
  intro n _
  by_cases hn : n = 0
  · simp [hn]
  · by_cases ht : text.take n = []
    · have : text = [] := by
        cases text with
        | nil => rfl
        | cons c s => cases n with
          | zero => exact absurd rfl hn
          | succ n => simp at ht
      subst this
      rename_i hm
      simp only [List.length_nil, List.mem_reverse, List.mem_range] at hm
      omega
    · rw [decide_eq_decide, h _ _ (List.take_append_drop n text).symm ht]

theorem prefix_agree {u : UTables} {words words' : List Str} {s : Str} (h : ∀ a b, s = a ++ b → (a ∈ words ↔ a ∈ words')) :
    (NoPrefix u words s ↔ NoPrefix u words' s) ∧ ∀ a b, LongestPrefix u words s a b ↔ LongestPrefix u words' s a b := by
  have key : ∀ a b, (s = a ++ b ∧ a ∈ words ∧ a ≠ [] ∧ b ≠ [] ∧ a.getLast?.map u.isWord = b.head?.map u.isWord) ↔
      (s = a ++ b ∧ a ∈ words' ∧ a ≠ [] ∧ b ≠ [] ∧ a.getLast?.map u.isWord = b.head?.map u.isWord) := by
    intro a b
    constructor
    · rintro ⟨h1, h2, h3⟩; exact ⟨h1, (h a b h1).1 h2, h3⟩
    · rintro ⟨h1, h2, h3⟩; exact ⟨h1, (h a b h1).2 h2, h3⟩
  constructor
  · unfold NoPrefix; simp only [key]
  · intro a b; unfold LongestPrefix; simp only [key]

theorem suffix_agree {words words' : List Str} {s : Str} (h : ∀ a b, s = a ++ b → (b ∈ words ↔ b ∈ words')) :
    (NoSuffix words s ↔ NoSuffix words' s) ∧ ∀ c d, ShortestSuffix words s c d ↔ ShortestSuffix words' s c d := by
  have key : ∀ c d, (s = c ++ d ∧ d ∈ words ∧ c ≠ [] ∧ d ≠ []) ↔ (s = c ++ d ∧ d ∈ words' ∧ c ≠ [] ∧ d ≠ []) := by
    intro c d
    constructor
    · rintro ⟨h1, h2, h3⟩; exact ⟨h1, (h c d h1).1 h2, h3⟩
    · rintro ⟨h1, h2, h3⟩; exact ⟨h1, (h c d h1).2 h2, h3⟩
  constructor
  · unfold NoSuffix; simp only [key]
  · intro a b; unfold ShortestSuffix; simp only [key]

theorem longestPrefix_unique {u : UTables} {words : List Str} {s a b a' b' : Str} (h : LongestPrefix u words s a b)
    (h' : LongestPrefix u words s a' b') : a = a' ∧ b = b' := by
  have h1 := h.2 a' b' h'.1
  have h2 := h'.2 a b h.1
  exact List.append_inj (h.1.1.symm.trans h'.1.1) (by omega)

theorem shortestSuffix_unique {words : List Str} {s c d c' d' : Str} (h : ShortestSuffix words s c d)
    (h' : ShortestSuffix words s c' d') : c = c' ∧ d = d' := by
  have h1 := h.2 c' d' h'.1
  have h2 := h'.2 c d h.1
  exact List.append_inj' (h.1.1.symm.trans h'.1.1) (by omega)

theorem attachedPieces_noSuffix (s a b c c' : Str) : attachedPieces s a b c [] = attachedPieces s a b c' [] := by
  simp [attachedPieces, byteLen]

theorem pieces_agree {u : UTables} {pre pre' suf suf' : List Str} {x x' : LexRe}
    (hp : ∀ w ∈ pre, ∀ c ∈ w, c ∉ unescaped) (hp' : ∀ w ∈ pre', ∀ c ∈ w, c ∉ unescaped)
    (hq : ∀ w ∈ suf, ∀ c ∈ w, c ∉ unescaped) (hq' : ∀ w ∈ suf', ∀ c ∈ w, c ∉ unescaped)
    (h1 : Reads (trieOf pre).getRegexp x.pre) (h1' : Reads (trieOf pre').getRegexp x'.pre)
    (h2 : Reads (trieOf suf).getRegexp x.suf) (h2' : Reads (trieOf suf').getRegexp x'.suf) {s : Str}
    (e1 : ∀ a b, s = a ++ b → (a ∈ pre ↔ a ∈ pre')) (e2 : ∀ a b, s = a ++ b → (b ∈ suf ↔ b ∈ suf')) :
    attachedPieces s (groups (prefixRx u x) s).1 (groups (prefixRx u x) s).2 (groups (suffixRx x) s).1
      (groups (suffixRx x) s).2 = attachedPieces s (groups (prefixRx u x') s).1 (groups (prefixRx u x') s).2
      (groups (suffixRx x') s).1 (groups (suffixRx x') s).2 := by
  have g := prefix_groups (u := u) hp h1 s
  have g' := prefix_groups (u := u) hp' h1' s
  have k := suffix_groups hq h2 s
  have k' := suffix_groups hq' h2' s
  obtain ⟨a1, a2⟩ := prefix_agree (u := u) e1
  obtain ⟨b1, b2⟩ := suffix_agree e2
  have hg : groups (prefixRx u x) s = groups (prefixRx u x') s := by
    rcases g with ⟨g0, g⟩ | g
    · rcases g' with ⟨_, g'⟩ | g'
      · rw [g, g']
      · exact absurd ⟨_, _, ((a2 _ _).2 g').1⟩ g0
    · rcases g' with ⟨g0, _⟩ | g'
      · exact absurd ⟨_, _, ((a2 _ _).1 g).1⟩ g0
      · obtain ⟨r1, r2⟩ := longestPrefix_unique ((a2 _ _).1 g) g'
        exact Prod.ext r1 r2
  rw [← hg]
  rcases k with ⟨k0, k⟩ | k
  · rcases k' with ⟨_, k'⟩ | k'
    · rw [k, k']; exact attachedPieces_noSuffix ..
    · exact absurd ⟨_, _, ((b2 _ _).2 k').1⟩ k0
  · rcases k' with ⟨k0, _⟩ | k'
    · exact absurd ⟨_, _, ((b2 _ _).1 k).1⟩ k0
    · obtain ⟨r1, r2⟩ := shortestSuffix_unique ((b2 _ _).1 k) k'
      rw [r1, r2]

/-- Both lexicons have words, and among these texts the same, with the same attachments. -/
theorem matchSame_of {u : UTables} {l l' : Lexicon} {x x' : LexRe} (hS : TextClosed S) (hl : PlainLexicon u l) (hl' : PlainLexicon u l')
    (hx : x.For u l) (hx' : x'.For u l') (hne : ∃ w ∈ lexWords l, w ≠ []) (hne' : ∃ w ∈ lexWords l', w ≠ [])
    (hall : ∀ s a b, S s → s.map u.canon = a ++ b → (a ∈ lexWords l ↔ a ∈ lexWords l'))
    (hpre : ∀ w, S w → (w ∈ prefixWords l ↔ w ∈ prefixWords l'))
    (hsuf : ∀ w, S w → (w ∈ suffixWords l ↔ w ∈ suffixWords l')) : MatchSame S u x x' := by
  have plain : ∀ (l : Lexicon), PlainLexicon u l → ∀ p : LexEntry → Bool, ∀ w ∈ Lexicon.attachedWords p l.lex, ∀ c ∈ w, c ∉ unescaped := by
    intro l hl p w hw c hc
    rw [mem_attachedWords, List.mem_map] at hw
    obtain ⟨e, he, rfl⟩ := hw
    exact (hl _ (List.mem_map.2 ⟨e, (List.mem_filter.1 he).1, rfl⟩) c hc).1
  have runs : ∀ (l : Lexicon) (x : LexRe), PlainLexicon u l → x.For u l → (∃ w ∈ lexWords l, w ≠ []) →
      ∀ text, x.all.run text = wordEnds (lexWords l) text := by
    intro l x hl hx hne text
    have h : Reads ((trieOf (lexWords l)).getRegexp.map u.canon) x.all := hx.1
    rw [pattern_map (canon_syntax u) (fun w hw c hc => (hl w hw c hc).2)] at h
    obtain ⟨r', _, hu, hrun⟩ := Props.C21_word_pattern (lexWords l) (fun w hw c hc => (hl w hw c hc).1) hne
    rw [hu _ h, hrun]
  refine ⟨fun s hs => ?_, fun s hs => ?_⟩
  · rw [runs l x hl hx hne, runs l' x' hl' hx' hne']
    exact wordEnds_same (fun a b e _ => hall s a b hs e)
  · refine pieces_agree (plain l hl _) (plain l' hl' _) (plain l hl _) (plain l' hl' _) hx.2.1 hx'.2.1 hx.2.2 hx'.2.2 ?_ ?_
    · intro a b e
      rw [mem_attachedWords, mem_attachedWords]
      exact hpre a (hS.left (e ▸ hs))
    · intro a b e
      rw [mem_attachedWords, mem_attachedWords]
      exact hsuf b (hS.right (e ▸ hs))

end AS
