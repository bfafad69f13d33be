import Verif.Model.Archive
import Verif.Lemmas.LexiconRound
import Verif.Lemmas.Cache
/-
Lemmas about archives: what is written is read back.
-/
namespace AS
namespace Archive
open Lexicon

/-- Items, each with a blank before it. -/
def out (ds : List Datum) : Str := ds.flatMap (fun d => ' ' :: d.write)

theorem out_append (a b : List Datum) : out (a ++ b) = out a ++ out b := List.flatMap_append

theorem out_cons (d : Datum) (ds : List Datum) : out (d :: ds) = ' ' :: (d.write ++ out ds) := rfl

theorem writeAll_cons : ∀ (d : Datum) (ds : List Datum), writeAll (d :: ds) = d.write ++ out ds
  | d, [] => by simp [writeAll, out]
  | d, e :: ds => by
    rw [writeAll, writeAll_cons e ds, out_cons, List.append_assoc]
    rfl

/-- The text does not go on with a digit. -/
def NoDigit (s : Str) : Prop := ∀ c, s.head? = some c → c.isDigit = false

theorem noDigit_out (ds : List Datum) : NoDigit (out ds) := by
  intro c hc
  cases ds with
  | nil => cases hc
  | cons d ds =>
    rw [out_cons] at hc
    injection hc with hc
    subst hc
    decide

theorem takeWhile_digits : ∀ (ds rest : Str), (∀ c ∈ ds, c.isDigit = true) → NoDigit rest →
    (ds ++ rest).takeWhile Char.isDigit = ds ∧ (ds ++ rest).dropWhile Char.isDigit = rest
  | [], rest, _, hr => by
    cases rest with
    | nil => exact ⟨rfl, rfl⟩
    | cons c cs =>
      have := hr c rfl
      simp [this]
  | d :: ds, rest, hd, hr => by
    have h1 := hd d (List.mem_cons_self ..)
    obtain ⟨a, b⟩ := takeWhile_digits ds rest (fun c hc => hd c (List.mem_cons_of_mem _ hc)) hr
    simp [h1, a, b]

theorem natDigits_ne (n : Nat) : natDigits n ≠ [] := by
  unfold natDigits
  rw [Nat.toList_repr]
  exact Nat.toDigits_ne_nil

theorem readDigits_nat (n : Nat) (rest : Str) (hr : NoDigit rest) : readDigits (natDigits n ++ rest) = some (n, rest) := by
  obtain ⟨a, b⟩ := takeWhile_digits _ rest (natDigits_digit n) hr
  unfold readDigits
  rw [a, b]
  have hv : Nat.ofDigitChars 10 (natDigits n) 0 = n := by
    unfold natDigits
    rw [Nat.toList_repr]
    exact Nat.ofDigitChars_toDigits (by decide) (by decide)
  cases e : natDigits n with
  | nil => exact absurd e (natDigits_ne n)
  | cons d ds =>
    rw [e] at hv
    simp only
    rw [hv]

theorem digit_not_space {c : Char} (h : c.isDigit = true) : isCSpace c = false := by
  cases hs : isCSpace c with
  | false => rfl
  | true =>
    exfalso
    simp only [isCSpace, Bool.or_eq_true, decide_eq_true_eq] at hs
    rcases hs with ((((h' | h') | h') | h') | h') | h' <;> subst h' <;> revert h <;> decide

theorem readInt_nat (n : Nat) (rest : Str) (hr : NoDigit rest) : readInt (natDigits n ++ rest) = some ((n : Int), rest) := by
  cases e : natDigits n with
  | nil => exact absurd e (natDigits_ne n)
  | cons d ds =>
    have hd : d.isDigit = true := natDigits_digit n d (by rw [e]; exact List.mem_cons_self ..)
    have hrd := readDigits_nat n rest hr
    rw [e] at hrd
    unfold readInt
    rw [List.cons_append, List.dropWhile_cons_of_neg (by rw [digit_not_space hd]; decide)]
    have hm : d ≠ '-' := by rintro rfl; revert hd; decide
    simp only [if_neg hm]
    rw [← List.cons_append, hrd]
    rfl

theorem readInt_blank (s : Str) : readInt (' ' :: s) = readInt s := by
  unfold readInt
  rw [List.dropWhile_cons_of_pos (by decide)]

theorem readInt_int (n : Int) (rest : Str) (hr : NoDigit rest) : readInt (intDigits n ++ rest) = some (n, rest) := by
  cases n with
  | ofNat n => exact readInt_nat n rest hr
  | negSucc n =>
    unfold readInt intDigits
    rw [List.cons_append, List.dropWhile_cons_of_neg (by decide)]
    simp only [if_true]
    rw [readDigits_nat _ rest hr]
    rfl

theorem takeBytes_text : ∀ (s rest : Str), takeBytes (byteLen s) (s ++ rest) = some (s, rest)
  | [], rest => by
    cases rest <;> simp [byteLen, takeBytes]
  | c :: s, rest => by
    have hp : 0 < c.utf8Size := Char.utf8Size_pos c
    have hb : byteLen (c :: s) = c.utf8Size + byteLen s := by simp [byteLen]
    rw [List.cons_append, takeBytes, hb, if_neg (by omega), if_pos (by omega), Nat.add_sub_cancel_left, takeBytes_text s rest]
    rfl

theorem readText_text (s rest : Str) : readText ((Datum.text s).write ++ rest) = some (s, rest) := by
  unfold readText Datum.write
  rw [List.append_assoc, List.append_assoc, readInt_nat _ _ (by
    intro c hc
    injection hc with hc
    subst hc
    decide)]
  show takeBytes (byteLen s) (s ++ rest) = _
  exact takeBytes_text s rest

/-- The items and the text after them. -/
def outTo (x : Str) (ds : List Datum) : Str := out ds ++ x

theorem outTo_nil (ds : List Datum) : outTo [] ds = out ds := List.append_nil _

theorem outTo_cons (x : Str) (d : Datum) (ds : List Datum) : outTo x (d :: ds) = ' ' :: (d.write ++ outTo x ds) := by
  unfold outTo
  rw [out_cons, List.cons_append, List.append_assoc]

theorem noDigit_outTo {x : Str} (hx : NoDigit x) (ds : List Datum) : NoDigit (outTo x ds) := by
  cases ds with
  | nil => exact hx
  | cons d ds =>
    intro c hc
    rw [outTo_cons] at hc
    injection hc with hc
    subst hc
    decide

theorem readText_out (s : Str) (x : Str) (ds : List Datum) : readText (outTo x (.text s :: ds)) = some (s, outTo x ds) := by
  rw [outTo_cons]
  have : ∀ t, readText (' ' :: t) = readText t := fun t => by unfold readText; rw [readInt_blank]
  rw [this, readText_text]

theorem readInt_out (n : Int) {x : Str} (hx : NoDigit x) (ds : List Datum) : readInt (outTo x (.int n :: ds)) = some (n, outTo x ds) := by
  rw [outTo_cons, readInt_blank]
  exact readInt_int n _ (noDigit_outTo hx ds)

theorem readN_out {α β : Type} (x : Str) (f : Str → Option (β × Str)) (g : α → List Datum) (h : α → β) : ∀ (l : List α) (ds : List Datum),
    (∀ a ∈ l, ∀ ds, f (outTo x (g a ++ ds)) = some (h a, outTo x ds)) →
    readN f l.length (outTo x (l.flatMap g ++ ds)) = some (l.map h, outTo x ds)
  | [], ds, _ => rfl
  | a :: l, ds, hf => by
    rw [List.flatMap_cons, List.append_assoc, List.length_cons, readN, hf a (List.mem_cons_self ..)]
    simp only
    rw [readN_out x f g h l ds (fun b hb => hf b (List.mem_cons_of_mem _ hb))]
    rfl

theorem readSeq_out {α β : Type} {x : Str} (hx : NoDigit x) (f : Str → Option (β × Str)) (g : α → List Datum) (h : α → β) (l : List α) (ds : List Datum)
    (hf : ∀ a ∈ l, ∀ ds, f (outTo x (g a ++ ds)) = some (h a, outTo x ds)) :
    readSeq f (outTo x (seqData g l ++ ds)) = some (l.map h, outTo x ds) := by
  unfold readSeq seqData
  rw [List.cons_append, readInt_out _ hx]
  show readN f l.length _ = _
  exact readN_out x f g h l ds hf

theorem readEnum_out {α : Type} {x : Str} (hx : NoDigit x) (code : α → Int) (all : List α) (hinj : ∀ a b, code a = code b → a = b) (a : α) (ha : a ∈ all)
    (ds : List Datum) : readEnum code all (outTo x (.int (code a) :: ds)) = some (a, outTo x ds) := by
  unfold readEnum
  rw [readInt_out _ hx]
  simp only
  have : all.find? (fun b => decide (code b = code a)) = some a := by
    induction all with
    | nil => cases ha
    | cons b all ih =>
      rw [List.find?_cons]
      by_cases e : code b = code a
      · simp [hinj _ _ e]
      · simp only [e, decide_false]
        rcases List.mem_cons.1 ha with rfl | ha
        · exact absurd rfl e
        · exact ih ha
  rw [this]
  rfl

theorem foldl_setInsert {α : Type} (key : α → Int) : ∀ (l acc : List α), IsSet key (acc ++ l) →
    l.foldl (fun S t => setInsert key t S) acc = acc ++ l
  | [], acc, _ => by simp
  | a :: l, acc, h => by
    have hi : ∀ (acc : List α), (∀ b ∈ acc, key b < key a) → setInsert key a acc = acc ++ [a] := by
      intro acc
      induction acc with
      | nil => intro _; rfl
      | cons b acc ih =>
        intro hb
        have := hb b (List.mem_cons_self ..)
        rw [setInsert, if_neg (by omega), if_neg (by omega), ih (fun c hc => hb c (List.mem_cons_of_mem _ hc))]
        rfl
    rw [List.foldl_cons, hi acc (fun b hb => (List.pairwise_append.1 h).2.2 b hb a (List.mem_cons_self ..)),
      foldl_setInsert key l (acc ++ [a]) (by rw [List.append_assoc]; exact h), List.append_assoc]
    rfl

/-- An entry whose sets are sets. -/
def SetsOk (e : LexEntry) : Prop := IsSet InType.code e.type ∧ IsSet Attach.code e.attached

theorem readEntry_out {x : Str} (hx : NoDigit x) (e : LexEntry) (he : SetsOk e) (ds : List Datum) : readEntry (outTo x (entryData e ++ ds)) = some (e, outTo x ds) := by
  unfold readEntry entryData
  simp only [List.cons_append, List.nil_append, List.append_assoc]
  rw [readText_out]
  simp only
  rw [readText_out]
  simp only
  rw [readSeq_out hx _ _ id _ _ (fun a _ ds => readEnum_out hx _ _ code_inj a (by cases a <;> decide) ds)]
  simp only
  rw [readSeq_out hx _ _ id _ _ (fun a _ ds => readEnum_out hx _ _ attach_code_inj a (by cases a <;> decide) ds)]
  simp only [List.map_id]
  rw [foldl_setInsert _ _ [] he.1, foldl_setInsert _ _ [] he.2]
  rfl

theorem readPair_out {x : Str} (hx : NoDigit x) (a : Str × List LexEntry) (ha : ∀ e ∈ a.2, SetsOk e) (ds : List Datum) :
    readPair (outTo x (.text a.1 :: seqData entryData a.2 ++ ds)) = some (a, outTo x ds) := by
  unfold readPair
  rw [List.cons_append, readText_out]
  simp only
  rw [readSeq_out hx _ _ id _ _ (fun e he ds => readEntry_out hx e (ha e he) ds), List.map_id]

theorem omSet_last {α : Type} (k : Str) (v : α) : ∀ (m : List (Str × α)), (∀ a ∈ m, strLt a.1 k = true) →
    omFind k m = none ∧ omSet k v m = m ++ [(k, v)]
  | [], _ => ⟨rfl, rfl⟩
  | (k', v') :: m, h => by
    have h1 := h _ (List.mem_cons_self ..)
    obtain ⟨a, b⟩ := omSet_last k v m (fun a ha => h a (List.mem_cons_of_mem _ ha))
    have hne : ¬ k = k' := fun e => strLt_ne h1 e.symm
    have hlt : ¬ strLt k k' = true := fun h2 => strLt_ne (strLt_trans _ _ _ h1 h2) rfl
    exact ⟨by rw [omFind, if_neg hne, a], by rw [omSet, if_neg hne, if_neg hlt, b]; rfl⟩

theorem foldl_mapInsert : ∀ (m acc : List (Str × List LexEntry)), OmSorted (acc ++ m) → m.foldl mapInsert acc = acc ++ m
  | [], acc, _ => by simp
  | a :: m, acc, h => by
    have hs := omSet_last a.1 a.2 acc (fun b hb => (List.pairwise_append.1 h).2.2 b hb a (List.mem_cons_self ..))
    have hi : mapInsert acc a = acc ++ [a] := by
      unfold mapInsert
      rw [hs.1]
      exact hs.2
    rw [List.foldl_cons, hi, foldl_mapInsert m (acc ++ [a]) (by rw [List.append_assoc]; exact h), List.append_assoc]
    rfl

theorem langCode_inj (a b : Lang) (h : langCode a = langCode b) : a = b := by
  revert b
  cases a <;> intro b <;> cases b <;> first | (intro _; rfl) | (intro h; exact absurd h (by decide))

/-- What is needed of a lexicon to be read back. -/
structure Storable (l : Lexicon) : Prop where
  sorted : OmSorted l.lex
  sets : ∀ a ∈ l.lex, ∀ e ∈ a.2, SetsOk e

/-- What is written of a lexicon before its digest. -/
def lexFront (l : Lexicon) : List Datum :=
  [.text l.name, .int (langCode l.lang), .text l.locale] ++ mapData l.lex ++ [.text l.regex_, .text l.regexPrefix, .text l.regexSuffix]

theorem lexData_front (l : Lexicon) : lexData l = lexFront l ++ [.text l.md5in] := by
  unfold lexData lexFront
  simp only [List.append_assoc, List.cons_append, List.nil_append]

/-- What is read after that is the digest. -/
theorem readLexicon_front (l : Lexicon) (hl : Storable l) {x : Str} (hx : NoDigit x) :
    readLexicon (outTo x (lexFront l)) = (readText x).map (fun r => { l with md5in := r.1 }) := by
  unfold readLexicon lexFront
  simp only [List.cons_append, List.nil_append]
  rw [readText_out]
  simp only
  rw [readEnum_out hx _ _ langCode_inj _ (by cases l.lang <;> decide)]
  simp only
  rw [readText_out]
  simp only
  unfold mapData
  rw [readSeq_out hx _ _ id _ _ (fun a ha ds => readPair_out hx a (hl.sets a ha) ds)]
  simp only [List.map_id]
  rw [readText_out]
  simp only
  rw [readText_out]
  simp only
  rw [readText_out]
  simp only
  rw [foldl_mapInsert _ [] hl.sorted]
  show (match readText x with | none => none | some (md5in, _) => _) = _
  cases readText x <;> rfl

theorem readLexicon_outTo (l : Lexicon) (hl : Storable l) (x : Str) : readLexicon (outTo x (lexData l)) = some l := by
  have hx : NoDigit (outTo x [.text l.md5in]) := by
    intro c hc
    injection hc with hc
    subst hc
    decide
  have e : outTo x (lexData l) = outTo (outTo x [.text l.md5in]) (lexFront l) := by
    rw [lexData_front]
    unfold outTo
    rw [out_append, List.append_assoc]
  rw [e, readLexicon_front l hl hx, readText_out]
  rfl

theorem readLexicon_out (l : Lexicon) (hl : Storable l) : readLexicon (out (lexData l)) = some l := by
  rw [← outTo_nil]
  exact readLexicon_outTo l hl []

theorem load_headerTo (lib lib' v : Nat) (ds : List Datum) {x : Str} (hx : NoDigit x) (h : lib' ≤ lib) :
    load lib (writeAll (header lib' v ++ ds) ++ x) = if v > 2 then .notArchive else if v < 2 then .recompile else
      match readLexicon (outTo x ds) with
      | none => .notArchive
      | some l => .lexicon l := by
  unfold load header
  simp only [List.cons_append, List.nil_append]
  rw [writeAll_cons, List.append_assoc, readText_text]
  simp only [ne_eq, not_true_eq_false, if_false]
  rw [← outTo, readInt_out _ hx]
  simp only
  rw [if_neg (by omega)]
  unfold readObject
  rw [readInt_out _ hx]
  simp only
  rw [readInt_out _ hx]
  simp only
  by_cases h1 : v > 2
  · rw [if_pos h1, if_pos (by omega)]
  · rw [if_neg h1, if_neg (by omega)]
    by_cases h2 : v < 2
    · rw [if_pos h2, if_pos (by omega)]
    · rw [if_neg h2, if_neg (by omega)]
      rfl

theorem noDigit_nil : NoDigit [] := by
  intro c hc; cases hc

theorem load_header (lib lib' v : Nat) (ds : List Datum) (h : lib' ≤ lib) :
    load lib (writeAll (header lib' v ++ ds)) = if v > 2 then .notArchive else if v < 2 then .recompile else
      match readLexicon (out ds) with
      | none => .notArchive
      | some l => .lexicon l := by
  have := load_headerTo lib lib' v ds noDigit_nil h
  rwa [List.append_nil, outTo_nil] at this

theorem load_save (lib lib' : Nat) (l : Lexicon) (hl : Storable l) (h : lib' ≤ lib) : load lib (save lib' l) = .lexicon l := by
  unfold save
  rw [load_header _ _ _ _ h, if_neg (by decide), if_neg (by decide), readLexicon_out l hl]

end Archive
end AS
