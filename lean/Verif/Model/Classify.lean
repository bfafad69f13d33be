import Verif.Model.Lexicon
import Verif.Model.Grammar
import Verif.Model.Rx
/-
Model of `Lexicon::classify` (src/lexicon.cpp:201-308).
-/
namespace AS

/-- The tables of ICU used by the patterns of the tokenizer: `\d`, `[:alpha:]`, `\p{L}`, `\p{Nd}`,
`[:punct:]`; `fold` is the case folding applied before a class is tested under `icase`; `canon` chooses
one character of each class of characters that are equal under `icase`. -/
structure UTables extends CharTables where
  digit  : Char → Bool
  alpha  : Char → Bool
  letter : Char → Bool
  nd     : Char → Bool
  punct  : Char → Bool
  fold   : Char → Char
  canon  : Char → Char
  /-- Line separators are blanks. -/
  sep_space : ∀ c, isSep c = true → isSpace c = true
  space_fold : ∀ c, isSpace (fold c) = isSpace c
  canon_ascii : ∀ c, c.toNat < 128 → ¬ c.isLower → canon c = c
  digit_fold : ∀ c, digit (fold c) = digit c
  digit_comma : digit ',' = false
  digit_point : digit '.' = false
  word_slash : isWord '/' = false
  digit_word : ∀ c, digit c = true → isWord c = true
  alpha_word : ∀ c, alpha c = true → isWord c = true
  letter_word : ∀ c, letter c = true → isWord c = true
  nd_word : ∀ c, nd c = true → isWord c = true
  digit_not_letter : ∀ c, digit c = true → alpha c = false ∧ letter c = false

/-- ASCII instance, with the other line separators as blanks, for examples. -/
def asciiU : UTables where
  isSpace c := isCSpace c || isSep c
  isWord c := c.isAlphanum || c = '_' || (0xC0 ≤ c.toNat && c.toNat < 0x250)
  space_not_word := by
    intro c h
    simp only [isCSpace, isSep, Bool.or_eq_true, decide_eq_true_eq] at h
    rcases h with (((((rfl | rfl) | rfl) | rfl) | rfl) | rfl) | (((((rfl | rfl) | rfl) | rfl) | rfl) | rfl) <;> decide
  space_underscore := by decide
  space_at := by decide
  space_hash := by decide
  space_open := by decide
  space_close := by decide
  word_at := by decide
  cspace_space := fun _ h => by simp [h]
  digit := Char.isDigit
  alpha c := c.isAlpha || (0xC0 ≤ c.toNat && c.toNat < 0x250)
  letter c := c.isAlpha || (0xC0 ≤ c.toNat && c.toNat < 0x250)
  nd := Char.isDigit
  punct c := c!"!\"#%&'()*,-./:;?@[\\]_{}".contains c || c = '—'
  fold := Char.toLower
  canon := Char.toUpper
  sep_space := fun _ h => by simp [h]
  space_fold := by
    intro c
    simp only [Char.toLower]
    split
    · rename_i h
      have h1 : c.toNat ≥ 65 := h.1
      have h2 : c.toNat ≤ 90 := h.2
      have key : ∀ d : Char, (isCSpace d || isSep d) = true → d.toNat < 65 ∨ 128 < d.toNat := by
        intro d hd
        simp only [isCSpace, isSep, Bool.or_eq_true, decide_eq_true_eq] at hd
        rcases hd with (((((rfl | rfl) | rfl) | rfl) | rfl) | rfl) | (((((rfl | rfl) | rfl) | rfl) | rfl) | rfl) <;> decide
      have e : (c.val + ('a'.val - 'A'.val)).toNat = c.toNat + 32 := by
        rw [UInt32.toNat_add]
        show (c.toNat + _) % _ = _
        simp only [show ('a'.val - 'A'.val).toNat = 32 by decide]
        omega
      have a1 : (isCSpace c || isSep c) = false := by
        rw [Bool.eq_false_iff]; intro h; have := key _ h; omega
      rw [a1, Bool.eq_false_iff]
      intro h
      have := key _ h
      simp only [Char.toNat] at this
      rw [e] at this
      omega
    · rfl
  canon_ascii := by
    intro c _ h
    rw [Char.toUpper]
    split
    · rename_i hl
      exact absurd (by simpa [Char.isLower] using hl) h
    · rfl
  digit_fold := by
    intro c
    simp only [Char.toLower]
    split
    · rename_i h
      have h1 : c.toNat ≥ 65 := h.1
      have h2 : c.toNat ≤ 90 := h.2
      have e : (c.val + ('a'.val - 'A'.val)).toNat = c.toNat + 32 := by
        rw [UInt32.toNat_add]
        show (c.toNat + _) % _ = _
        simp only [show ('a'.val - 'A'.val).toNat = 32 by decide]
        omega
      have a : Char.isDigit c = false := by
        simp only [Char.isDigit, Bool.and_eq_false_iff, decide_eq_false_iff_not, UInt32.le_iff_toNat_le]
        right; simp; omega
      rw [a]
      simp only [Char.isDigit, Bool.and_eq_false_iff, decide_eq_false_iff_not, UInt32.le_iff_toNat_le]
      right; rw [e]; simp; omega
    · rfl
  digit_comma := by decide
  digit_point := by decide
  word_slash := by decide
  digit_word := fun c h => by simp [Char.isAlphanum, h]
  alpha_word := fun c h => by
    simp only [Bool.or_eq_true] at h ⊢
    rcases h with h | h
    · simp [Char.isAlphanum, h]
    · exact Or.inr h
  letter_word := fun c h => by
    simp only [Bool.or_eq_true] at h ⊢
    rcases h with h | h
    · simp [Char.isAlphanum, h]
    · exact Or.inr h
  nd_word := fun _ h => by simp [Char.isAlphanum, h]
  digit_not_letter := fun c h => by
    simp only [Char.isDigit, Bool.and_eq_true, decide_eq_true_eq, ge_iff_le, UInt32.le_iff_toNat_le] at h
    have h1 : c.toNat ≤ 57 := h.2
    have : (c.isAlpha || (decide (0xC0 ≤ c.toNat) && decide (c.toNat < 0x250))) = false := by
      simp only [Char.isAlpha, Char.isUpper, Char.isLower, Bool.or_eq_false_iff, Bool.and_eq_false_iff,
        decide_eq_false_iff_not, ge_iff_le, UInt32.le_iff_toNat_le]
      refine ⟨⟨?_, Or.inl ?_⟩, Or.inl ?_⟩
      · rintro ⟨h, _⟩
        have : 65 ≤ c.toNat := h
        omega
      · show ¬ 97 ≤ c.toNat
        omega
      · omega
    exact ⟨this, this⟩

/-- `std::string::length()`: number of bytes. -/
def byteLen (s : Str) : Nat := (s.map Char.utf8Size).foldr (· + ·) 0

namespace Shape
variable (u : UTables)

/-- `[A-Z]` under `icase`. -/
def az (c : Char) : Bool := 'a' ≤ u.fold c && u.fold c ≤ 'z'

/-- `\d` under `icase`. -/
def dI (c : Char) : Bool := u.digit (u.fold c)

/-- src/lexicon.cpp:226-236. -/
def num : Rx := .seqs [.bol, .plus u.digit, .eol]
def float : Rx := .seqs [.bol, .plus u.digit, .cls (fun c => c = ',' || c = '.'), .plus u.digit, .eol]
def word : Rx := .seqs [.bol, .plus u.isWord, .eol]
def hasDigit : Rx := .seqs [.bol, .star (fun _ => true), .cls u.digit, .star (fun _ => true), .eol]
def dash : Rx := .seqs [.bol, .plus (fun c => c = '-'), .eol]
def emdash : Rx := .seqs [.bol, .cls (fun c => c = '—'), .eol]
def punct : Rx := .seqs [.bol, .plus (fun c => c = '|' || u.punct c), .eol]
def space : Rx := .seqs [.bol, .plus u.isSpace, .eol]
def fract : Rx := .seqs [.bol, .plus u.digit, .cls (fun c => c = '/'), .plus u.digit, .eol]
def pch : Rx := .seqs [.bol, .cls (az u), .opt (.cls (az u)), .cls (dI u), .opt (.cls (dI u)), .opt (.cls (az u)), .eol]
def pct : Rx := .seqs [.bol, .alt (.seqs [.cls (dI u), .cls (az u), .cls (dI u)])
  (.seqs [.cls (dI u), .cls (az u), .cls (az u)]), .eol]

end Shape

namespace Token

/-- `Token::inclass( e )` (src/token.h): `inclass_.insert( e )`. -/
def addClass (t : Token) (c : InType) : Token := { t with inclass := setInsert InType.code c t.inclass }

end Token

/-- `text[pos] = '.'` for the first comma (src/lexicon.cpp:241-245). -/
def firstComma : Str → Str
  | [] => []
  | c :: s => if c = ',' then '.' :: s else c :: firstComma s

namespace Lexicon

/-- The loops over the entries and their types (src/lexicon.cpp:209-214). -/
def addTypes (es : List LexEntry) (t : Token) : Token :=
  es.foldl (fun t e => e.type.foldl Token.addClass t) t

/-- The tests of the shape of the text (src/lexicon.cpp:239-304). -/
def byShape (u : UTables) (t : Token) : Token :=
  let text := t.text
  if (Shape.float u).full text then
    { t.addClass .NUMBER with text := firstComma text }
  else if (Shape.num u).full text then
    let t := t.addClass .NUMBER
    let t := if byteLen text = 4 then t.addClass .QUAD else t
    if byteLen text = 5 then t.addClass .QUINT else t
  else if text = c!"@" then t.addClass .ATSIGN
  else if text = c!"/" then t.addClass .SLASH
  else if (Shape.fract u).full text then t.addClass .FRACT
  else if (Shape.pch u).full text then (t.addClass .MIXED).addClass .PCH
  else if (Shape.pct u).full text then (t.addClass .MIXED).addClass .PCT
  else if (Shape.word u).full text then
    if (Shape.hasDigit u).full text then t.addClass .MIXED
    else
      let t := if byteLen text = 2 then t.addClass .DOUBLE
        else if byteLen text = 1 then t.addClass .SINGLE else t
      t.addClass .WORD
  else if Shape.emdash.full text then t.addClass .EMDASH
  else if Shape.dash.full text then t.addClass .DASH
  else if text = c!"&" then t.addClass .AMPERS
  else if (Shape.space u).full text then t.addClass .SPACE
  else if (Shape.punct u).full text then t.addClass .PUNCT
  else t

/-- `Lexicon::classify` (src/lexicon.cpp:201-308). -/
def classify (u : UTables) (l : Lexicon) (t : Token) (typ : InType) : Token :=
  let t := addTypes (l.find t.text) t
  if !t.inclass.isEmpty then { t with inlex := true }
  else
    let t := byShape u { t with inlex := false }
    if t.inclass.isEmpty then t.addClass typ else t

end Lexicon
end AS
