import Verif.Lemmas.Compiled
import Verif.Lemmas.Split
/-
What reading does with the beginning of a text.
-/
namespace AS
namespace Archive
open Lexicon

/-- On the beginning of a text the reader fails, or does the same as on the text, or uses up all there is. -/
def Cut {α : Type} (f : Str → Option (α × Str)) : Prop := ∀ p q a r, f (p ++ q) = some (a, r) →
  f p = none ∨ (∃ r', f p = some (a, r') ∧ r = r' ++ q) ∨ ∃ b, f p = some (b, [])

/-- The reader fails without text, or at least leaves none. -/
def Ends {α : Type} (f : Str → Option (α × Str)) : Prop := ∀ a r, f [] = some (a, r) → r = []

theorem dropWhile_cut {α : Type} (f : α → Bool) : ∀ p q : List α,
    p.dropWhile f = [] ∨ (∃ c cs, p.dropWhile f = c :: cs ∧ (p ++ q).dropWhile f = c :: (cs ++ q))
  | [], _ => Or.inl rfl
  | c :: p, q => by
    by_cases h : f c = true
    · rcases dropWhile_cut f p q with e | ⟨d, ds, e, e'⟩
      · left; rw [List.dropWhile_cons_of_pos h, e]
      · right
        exact ⟨d, ds, by rw [List.dropWhile_cons_of_pos h, e], by rw [List.cons_append, List.dropWhile_cons_of_pos h, e']⟩
    · right
      exact ⟨c, p, List.dropWhile_cons_of_neg h, by rw [List.cons_append, List.dropWhile_cons_of_neg h]⟩

theorem takeWhile_cut {α : Type} (f : α → Bool) : ∀ p q : List α, p.dropWhile f ≠ [] →
    (p ++ q).takeWhile f = p.takeWhile f
  | [], _, h => absurd rfl h
  | c :: p, q, h => by
    by_cases hc : f c = true
    · rw [List.cons_append, List.takeWhile_cons_of_pos hc, List.takeWhile_cons_of_pos hc,
        takeWhile_cut f p q (by rwa [List.dropWhile_cons_of_pos hc] at h)]
    · rw [List.cons_append, List.takeWhile_cons_of_neg hc, List.takeWhile_cons_of_neg hc]

theorem readDigits_cut : Cut readDigits := by
  intro p q a r h
  rcases dropWhile_cut Char.isDigit p q with e | ⟨c, cs, e, e'⟩
  · unfold readDigits
    rw [e]
    split
    · exact Or.inl rfl
    · exact Or.inr (Or.inr ⟨_, rfl⟩)
  · have ht := takeWhile_cut Char.isDigit p q (by rw [e]; simp)
    unfold readDigits at h ⊢
    rw [ht, e'] at h
    rw [e]
    split at h
    · cases h
    · next d ds hd =>
      injection h with h
      injection h with h1 h2
      subst h1; subst h2
      exact Or.inr (Or.inl ⟨_, rfl, rfl⟩)

theorem Cut.map {α β : Type} {f : Str → Option (α × Str)} (hf : Cut f) (g : α → β) :
    Cut (fun s => (f s).map (fun r => (g r.1, r.2))) := by
  intro p q a r h
  obtain ⟨⟨a', r'⟩, h1, h2⟩ := Option.map_eq_some_iff.1 h
  injection h2 with h2 h3
  simp only at h2 h3
  subst h3
  rcases hf p q a' r' h1 with e | ⟨r'', e, e'⟩ | ⟨b, e⟩
  · left; simp only [e, Option.map_none]
  · right; left; exact ⟨r'', by simp only [e, Option.map_some, h2], e'⟩
  · right; right; exact ⟨g b, by simp only [e, Option.map_some]⟩

theorem readInt_cut : Cut readInt := by
  intro p q a r h
  unfold readInt at h ⊢
  rcases dropWhile_cut isCSpace p q with e | ⟨c, cs, e, e'⟩
  · left; rw [e]
  · rw [e'] at h
    rw [e]
    simp only at h ⊢
    by_cases hc : c = '-'
    · rw [if_pos hc] at h ⊢
      exact readDigits_cut.map (fun n => -(n : Int)) cs q a r h
    · rw [if_neg hc] at h ⊢
      exact readDigits_cut.map (fun n => (n : Int)) (c :: cs) q a r h

theorem readInt_nil : readInt [] = none := rfl

/-- One reader after the other. -/
def andThen {α β : Type} (f : Str → Option (α × Str)) (k : α → Str → Option (β × Str)) (s : Str) : Option (β × Str) :=
  match f s with
  | none => none
  | some (a, s) => k a s

theorem Cut.andThen {α β : Type} {f : Str → Option (α × Str)} {k : α → Str → Option (β × Str)} (hf : Cut f)
    (hk : ∀ a, Cut (k a)) (he : ∀ a, Ends (k a)) : Cut (andThen f k) := by
  intro p q b r h
  unfold Archive.andThen at h ⊢
  split at h
  · cases h
  · next a s hs =>
    rcases hf p q a s hs with e | ⟨s', e, e'⟩ | ⟨a', e⟩
    · left; rw [e]
    · subst e'
      rw [e]
      exact hk a s' q b r h
    · rw [e]
      simp only
      cases hb : k a' [] with
      | none => exact Or.inl rfl
      | some x =>
        obtain ⟨b', r'⟩ := x
        rw [he a' b' r' hb]
        exact Or.inr (Or.inr ⟨_, rfl⟩)

theorem Ends.andThen {α β : Type} {f : Str → Option (α × Str)} {k : α → Str → Option (β × Str)} (hf : Ends f)
    (he : ∀ a, Ends (k a)) : Ends (andThen f k) := by
  intro b r h
  unfold Archive.andThen at h
  split at h
  · cases h
  · next a s hs =>
    rw [hf a s hs] at h
    exact he a b r h

theorem cut_pure {α : Type} (a : α) : Cut (fun s => some (a, s)) := by
  intro p q a' r h
  injection h with h
  injection h with h1 h2
  subst h1; subst h2
  exact Or.inr (Or.inl ⟨p, rfl, rfl⟩)

theorem ends_pure {α : Type} (a : α) : Ends (fun s => some (a, s)) := by
  intro a' r h
  injection h with h
  injection h with _ h2
  exact h2.symm

theorem ends_of_none {α : Type} {f : Str → Option (α × Str)} (h : f [] = none) : Ends f := by
  intro a r e
  rw [h] at e; cases e

theorem takeBytes_nil (n : Nat) : takeBytes n [] = some (List.replicate n '\x00', []) := rfl

theorem takeBytes_cut : ∀ n, Cut (takeBytes n) := by
  intro n p
  induction p generalizing n with
  | nil =>
    intro q a r _
    exact Or.inr (Or.inr ⟨_, takeBytes_nil n⟩)
  | cons c p ih =>
    intro q a r h
    rw [List.cons_append] at h
    unfold takeBytes at h ⊢
    by_cases h0 : n = 0
    · rw [if_pos h0] at h ⊢
      injection h with h
      injection h with h1 h2
      subst h1; subst h2
      exact Or.inr (Or.inl ⟨_, rfl, rfl⟩)
    · rw [if_neg h0] at h ⊢
      by_cases h1 : c.utf8Size ≤ n
      · rw [if_pos h1] at h ⊢
        obtain ⟨⟨a', r'⟩, h2, h3⟩ := Option.map_eq_some_iff.1 h
        injection h3 with h3 h4
        simp only at h3 h4
        subst h4
        rcases ih _ q a' r' h2 with e | ⟨r'', e, e'⟩ | ⟨b, e⟩
        · left; rw [e]; rfl
        · right; left; exact ⟨r'', by rw [e, Option.map_some, h3], e'⟩
        · right; right; exact ⟨c :: b, by rw [e]; rfl⟩
      · rw [if_neg h1] at h; cases h

theorem tail_cut (n : Nat) : Cut (fun s => takeBytes n s.tail) := by
  intro p q a r h
  cases p with
  | nil =>
    exact Or.inr (Or.inr ⟨_, takeBytes_nil n⟩)
  | cons c p => exact takeBytes_cut n p q a r h

theorem tail_ends (n : Nat) : Ends (fun s => takeBytes n s.tail) := by
  intro a r h
  injection h with h
  injection h with _ h2
  exact h2.symm

theorem readText_eq : readText = andThen readInt (fun n s => takeBytes n.toNat s.tail) := by
  funext s
  unfold readText andThen
  cases readInt s <;> rfl

theorem readText_nil : readText [] = none := rfl

theorem readText_cut : Cut readText := by
  rw [readText_eq]
  exact readInt_cut.andThen (fun n => tail_cut _) (fun n => tail_ends _)

theorem readN_succ {α : Type} (f : Str → Option (α × Str)) (n : Nat) : readN f (n + 1) =
    andThen f (fun a => andThen (readN f n) (fun as s => some (a :: as, s))) := by
  funext s
  rw [readN]
  unfold andThen
  cases f s with
  | none => rfl
  | some x =>
    obtain ⟨a, s⟩ := x
    simp only
    cases readN f n s <;> rfl

theorem readN_ends {α : Type} {f : Str → Option (α × Str)} (he : Ends f) : ∀ n, Ends (readN f n)
  | 0 => ends_pure []
  | n + 1 => by
    rw [readN_succ]
    exact he.andThen (fun a => (readN_ends he n).andThen (fun as => ends_pure _))

theorem readN_cut {α : Type} {f : Str → Option (α × Str)} (hf : Cut f) (he : Ends f) : ∀ n, Cut (readN f n)
  | 0 => cut_pure []
  | n + 1 => by
    rw [readN_succ]
    exact hf.andThen (fun a => (readN_cut hf he n).andThen (fun as => cut_pure _) (fun as => ends_pure _))
      (fun a => (readN_ends he n).andThen (fun as => ends_pure _))

theorem readSeq_eq {α : Type} (f : Str → Option (α × Str)) : readSeq f = andThen readInt (fun n s => readN f n.toNat s) := by
  funext s
  unfold readSeq andThen
  cases readInt s <;> rfl

theorem readSeq_nil {α : Type} (f : Str → Option (α × Str)) : readSeq f [] = none := rfl

theorem readSeq_cut {α : Type} {f : Str → Option (α × Str)} (hf : Cut f) (he : Ends f) : Cut (readSeq f) := by
  rw [readSeq_eq]
  exact readInt_cut.andThen (fun n => readN_cut hf he _) (fun n => readN_ends he _)

theorem readEnum_nil {α : Type} (code : α → Int) (all : List α) : readEnum code all [] = none := rfl

theorem readEnum_cut {α : Type} (code : α → Int) (all : List α) : Cut (readEnum code all) := by
  have e : readEnum code all = andThen readInt (fun n s => (all.find? (fun a => code a = n)).map (fun a => (a, s))) := by
    funext s
    unfold readEnum andThen
    cases readInt s <;> rfl
  rw [e]
  refine readInt_cut.andThen (fun n => ?_) (fun n => ?_)
  · cases all.find? (fun a => code a = n) with
    | none => intro p q a r h; exact Or.inl rfl
    | some a => exact cut_pure a
  · cases all.find? (fun a => code a = n) with
    | none => intro a r h; cases h
    | some a => exact ends_pure a

theorem readEntry_cut : Cut readEntry := by
  have e : readEntry = andThen readText (fun word => andThen readText (fun stdword =>
      andThen (readSeq (readEnum InType.code InType.all)) (fun ts =>
        andThen (readSeq (readEnum Attach.code [.DET_PRE, .DET_SUF, .ATT_PRE, .ATT_SUF])) (fun as s =>
          some (({ word, stdword, type := ts.foldl (fun S t => setInsert InType.code t S) []
                   attached := as.foldl (fun S t => setInsert Attach.code t S) [] } : LexEntry), s))))) := by
    funext s
    unfold readEntry andThen
    cases readText s with
    | none => rfl
    | some x =>
      obtain ⟨word, s⟩ := x
      simp only
      cases readText s with
      | none => rfl
      | some x =>
        obtain ⟨stdword, s⟩ := x
        simp only
        cases readSeq (readEnum InType.code InType.all) s with
        | none => rfl
        | some x =>
          obtain ⟨ts, s⟩ := x
          simp only
          cases readSeq (readEnum Attach.code [.DET_PRE, .DET_SUF, .ATT_PRE, .ATT_SUF]) s <;> rfl
  have c1 := readSeq_cut (readEnum_cut InType.code InType.all) (ends_of_none (readEnum_nil _ _))
  have c2 := readSeq_cut (readEnum_cut Attach.code [.DET_PRE, .DET_SUF, .ATT_PRE, .ATT_SUF]) (ends_of_none (readEnum_nil _ _))
  rw [e]
  exact readText_cut.andThen (fun _ => readText_cut.andThen (fun _ => c1.andThen (fun _ => c2.andThen (fun _ => cut_pure _)
    (fun _ => ends_pure _)) (fun _ => ends_of_none rfl)) (fun _ => ends_of_none rfl)) (fun _ => ends_of_none rfl)

theorem readPair_cut : Cut readPair := by
  have e : readPair = andThen readText (fun k => andThen (readSeq readEntry) (fun es s => some ((k, es), s))) := by
    funext s
    unfold readPair andThen
    cases readText s with
    | none => rfl
    | some x =>
      obtain ⟨k, s⟩ := x
      simp only
      cases readSeq readEntry s <;> rfl
  rw [e]
  exact readText_cut.andThen (fun _ => (readSeq_cut readEntry_cut (ends_of_none rfl)).andThen (fun _ => cut_pure _)
    (fun _ => ends_pure _)) (fun _ => ends_of_none rfl)

theorem noDigit_prefix {p q : Str} (h : NoDigit (p ++ q)) : NoDigit p := by
  intro c hc
  cases p with
  | nil => cases hc
  | cons d p => exact h c hc

/-- The beginning of a string, for as many bytes as the string has, is read as far as it goes. -/
theorem takeBytes_begin : ∀ (p q : Str), ∃ r, takeBytes (byteLen (p ++ q)) p = some r
  | [], q => ⟨_, rfl⟩
  | c :: p, q => by
    obtain ⟨r, hr⟩ := takeBytes_begin p q
    have hp : 0 < c.utf8Size := Char.utf8Size_pos c
    have hb : byteLen (c :: p ++ q) = c.utf8Size + byteLen (p ++ q) := by simp [byteLen]
    rw [hb, takeBytes, if_neg (by omega), if_pos (by omega), Nat.add_sub_cancel_left, hr]
    exact ⟨_, rfl⟩

/-- The beginning of a string item, at least its first digit, is read as a string. -/
theorem readText_begin (m p q : Str) (hp : p ≠ []) (h : p ++ q = (Datum.text m).write) : ∃ r, readText (' ' :: p) = some r := by
  have hb : readText (' ' :: p) = readText p := by
    unfold readText
    rw [readInt_blank]
  rw [hb]
  replace h : p ++ q = natDigits (byteLen m) ++ (' ' :: m) := by
    rw [h, Datum.write, List.append_assoc]
    rfl
  rcases List.append_eq_append_iff.1 h with ⟨a, h1, h2⟩ | ⟨x, h1, h2⟩
  · have hd : ∀ c ∈ p, c.isDigit = true := by
      intro c hc
      exact natDigits_digit _ c (by rw [h1]; exact List.mem_append_left _ hc)
    unfold readText readInt
    cases p with
    | nil => exact absurd rfl hp
    | cons c p =>
      have hc := hd c (List.mem_cons_self ..)
      rw [List.dropWhile_cons_of_neg (by rw [digit_not_space hc]; decide)]
      simp only
      rw [if_neg (by rintro rfl; revert hc; decide)]
      have ht := takeWhile_digits (c :: p) [] hd noDigit_nil
      rw [List.append_nil] at ht
      unfold readDigits
      rw [ht.1, ht.2]
      exact ⟨_, rfl⟩
  · subst h1
    cases x with
    | nil =>
      unfold readText
      rw [readInt_nat _ _ noDigit_nil]
      exact ⟨_, rfl⟩
    | cons c x =>
      injection h2 with h2 h3
      subst h2
      replace h3 : m = x ++ q := h3
      unfold readText
      rw [readInt_nat _ _ (by intro c hc; injection hc with hc; subst hc; decide)]
      show ∃ r, takeBytes (byteLen m) x = some r
      rw [h3]
      exact takeBytes_begin x q

/-- The beginning of the items of a lexicon is not read as a lexicon. -/
theorem readLexicon_short (l : Lexicon) (hl : Storable l) (p q : Str)
    (h : p ++ q = outTo [' '] (lexFront l)) : readLexicon p = none := by
  have hx : NoDigit [' '] := by
    intro c hc
    injection hc with hc
    subst hc
    decide
  unfold lexFront at h
  simp only [List.cons_append, List.nil_append] at h
  unfold readLexicon
  have step : ∀ {α : Type} {f : Str → Option (α × Str)} {s r p : Str} {a : α}, Cut f → f s = some (a, r) → p ++ q = s →
      f p = none ∨ (∃ p', f p = some (a, p') ∧ p' ++ q = r) ∨ ∃ b, f p = some (b, []) := by
    intro α f s r p a hf hs hp
    rw [← hp] at hs
    rcases hf p q a r hs with e | ⟨r', e, e'⟩ | e
    · exact Or.inl e
    · exact Or.inr (Or.inl ⟨r', e, e'.symm⟩)
    · exact Or.inr (Or.inr e)
  rcases step readText_cut (readText_out _ _ _) h with e | ⟨p1, e, h⟩ | ⟨b, e⟩
  · rw [e]
  rotate_left
  · rw [e]; rfl
  rw [e]
  simp only
  rcases step (readEnum_cut _ _) (readEnum_out hx langCode Lang.all langCode_inj l.lang (by cases l.lang <;> decide) _) h with e | ⟨p2, e, h⟩ | ⟨b, e⟩
  · rw [e]
  rotate_left
  · rw [e]; rfl
  rw [e]
  simp only
  rcases step readText_cut (readText_out _ _ _) h with e | ⟨p3, e, h⟩ | ⟨b, e⟩
  · rw [e]
  rotate_left
  · rw [e]; rfl
  rw [e]
  simp only
  unfold mapData at h
  rcases step (readSeq_cut readPair_cut (ends_of_none rfl))
    (readSeq_out hx _ _ id _ _ (fun a ha ds => readPair_out hx a (hl.sets a ha) ds)) h with e | ⟨p4, e, h⟩ | ⟨b, e⟩
  · rw [e]
  rotate_left
  · rw [e]; rfl
  rw [e]
  simp only
  rcases step readText_cut (readText_out _ _ _) h with e | ⟨p5, e, h⟩ | ⟨b, e⟩
  · rw [e]
  rotate_left
  · rw [e]; rfl
  rw [e]
  simp only
  rcases step readText_cut (readText_out _ _ _) h with e | ⟨p6, e, h⟩ | ⟨b, e⟩
  · rw [e]
  rotate_left
  · rw [e]; rfl
  rw [e]
  simp only
  rcases step readText_cut (readText_out _ _ _) h with e | ⟨p7, e, h⟩ | ⟨b, e⟩
  · rw [e]
  rotate_left
  · rw [e]; rfl
  rw [e]
  simp only
  have : readText p7 = none := by
    match p7, h with
    | [], _ => rfl
    | [c], h =>
      injection h with h _
      subst h
      rfl
    | c :: d :: p8, h =>
      injection h with _ h
      cases h
  rw [this]

/-- The beginning of a compiled lexicon is no archive. -/
theorem load_short (lib lib' : Nat) (l : Lexicon) (hl : Storable l) (p q : Str)
    (h : p ++ q = writeAll (header lib' 2 ++ lexFront l) ++ [' ']) : load lib p = .notArchive := by
  have hx : NoDigit [' '] := by
    intro c hc
    injection hc with hc
    subst hc
    decide
  unfold header at h
  simp only [List.cons_append, List.nil_append] at h
  rw [writeAll_cons, List.append_assoc, ← outTo] at h
  unfold load
  rcases readText_cut p q _ _ (by rw [h]; exact readText_text _ _) with e | ⟨p1, e, h1⟩ | ⟨b, e⟩
  · rw [e]
  rotate_left
  · rw [e]
    simp only
    split
    · rfl
    · rfl
  rw [e]
  simp only [ne_eq, not_true_eq_false, if_false]
  rcases readInt_cut p1 q _ _ (by rw [← h1]; exact readInt_out _ hx _) with e | ⟨p2, e, h2⟩ | ⟨b, e⟩
  · rw [e]
  rotate_left
  · rw [e]
    simp only
    split
    · rfl
    · rfl
  rw [e]
  simp only
  split
  · rfl
  unfold readObject
  rcases readInt_cut p2 q _ _ (by rw [← h2]; exact readInt_out _ hx _) with e | ⟨p3, e, h3⟩ | ⟨b, e⟩
  · rw [e]
  rotate_left
  · rw [e]; rfl
  rw [e]
  simp only
  have h3' : p3 ++ q = ' ' :: '2' :: outTo [' '] (lexFront l) := by rw [← h3]; rfl
  match p3, h3' with
  | [], _ => rfl
  | [c], h3' =>
    injection h3' with h4 _
    subst h4
    rfl
  | c :: d :: p4, h3' =>
    injection h3' with h4 h5
    injection h5 with h5 h6
    subst h4; subst h5
    replace h6 : p4 ++ q = outTo [' '] (lexFront l) := h6
    have hd : NoDigit p4 := noDigit_prefix (q := q) (by rw [h6]; exact noDigit_outTo hx _)
    have e : readInt (' ' :: '2' :: p4) = some (((2 : Nat) : Int), p4) := by
      rw [readInt_blank]
      exact readInt_nat 2 p4 hd
    rw [e]
    simp only
    rw [if_neg (by decide), if_neg (by decide), readLexicon_short l hl p4 q h6]

/-- A compiled lexicon is what comes before its digest, a blank and the digest. -/
theorem save_front (lib : Nat) (l : Lexicon) :
    save lib l = writeAll (header lib 2 ++ lexFront l) ++ (' ' :: (Datum.text l.md5in).write) := by
  unfold save header
  simp only [List.cons_append, List.nil_append]
  rw [writeAll_cons, writeAll_cons, lexData_front, out_cons, out_cons, out_cons, out_cons, out_cons, out_cons, out_append]
  simp only [List.append_assoc, List.cons_append]
  rw [out_cons]
  simp [out]

/-- With the beginning of the digest it is read, but for the digest. -/
theorem load_within (lib lib' : Nat) (l : Lexicon) (hl : Storable l) (hlib : lib' ≤ lib) (p q : Str) (hp : p ≠ [])
    (h : p ++ q = (Datum.text l.md5in).write) :
    ∃ m, load lib (writeAll (header lib' 2 ++ lexFront l) ++ ' ' :: p) = .lexicon { l with md5in := m } := by
  have hx : NoDigit (' ' :: p) := by
    intro c hc
    injection hc with hc
    subst hc
    decide
  obtain ⟨r, hr⟩ := readText_begin _ p q hp h
  refine ⟨r.1, ?_⟩
  rw [load_headerTo _ _ _ _ hx hlib, if_neg (by decide), if_neg (by decide), readLexicon_front l hl hx, hr]
  rfl

/-- What follows a compiled lexicon is not read. -/
theorem load_trailing (lib lib' : Nat) (l : Lexicon) (hl : Storable l) (hlib : lib' ≤ lib) (x : Str) :
    load lib (save lib' l ++ x) = .lexicon l := by
  have hx : NoDigit (outTo x [.text l.md5in]) := by
    intro c hc
    injection hc with hc
    subst hc
    decide
  have e : save lib' l ++ x = writeAll (header lib' 2 ++ lexFront l) ++ outTo x [.text l.md5in] := by
    rw [save_front, List.append_assoc, outTo_cons]
    rfl
  rw [e, load_headerTo _ _ _ _ hx hlib, if_neg (by decide), if_neg (by decide), readLexicon_front l hl hx, readText_out]
  rfl

end Archive
end AS
