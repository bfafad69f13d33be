import Verif.Model.Classify
/-
What a text looks like, in plain terms.
-/
namespace AS

/-- A non-empty text of characters of a class. -/
def RunOf (p : Char → Bool) (s : Str) : Prop := s ≠ [] ∧ ∀ c ∈ s, p c = true

/-- Number of bytes of a text in UTF-8. -/
def utf8Bytes (s : Str) : Nat := (String.ofList s).utf8ByteSize

/-- Digits, a comma or point, digits. -/
def IsDecimal (u : UTables) (s : Str) : Prop :=
  ∃ a x b, s = a ++ [x] ++ b ∧ RunOf u.digit a ∧ (x = ',' ∨ x = '.') ∧ RunOf u.digit b

/-- Digits, a slash, digits. -/
def IsFraction (u : UTables) (s : Str) : Prop :=
  ∃ a b, s = a ++ ['/'] ++ b ∧ RunOf u.digit a ∧ RunOf u.digit b

/-- A character that is a letter A to Z when its case is ignored; a digit when case is ignored. -/
def AZ (u : UTables) (c : Char) : Prop := 'a' ≤ u.fold c ∧ u.fold c ≤ 'z'
def Dig (u : UTables) (c : Char) : Prop := u.digit (u.fold c) = true

/-- The head of a postal code: one or two letters, one or two digits, possibly a letter. -/
def IsPostHead (u : UTables) (s : Str) : Prop :=
  ∃ a b c, s = a ++ b ++ c ∧ (a.length = 1 ∨ a.length = 2) ∧ (∀ x ∈ a, AZ u x) ∧
    (b.length = 1 ∨ b.length = 2) ∧ (∀ x ∈ b, Dig u x) ∧ c.length ≤ 1 ∧ ∀ x ∈ c, AZ u x

/-- The tail of a postal code: digit, letter, digit or letter. -/
def IsPostTail (u : UTables) (s : Str) : Prop :=
  ∃ x y z, s = [x, y, z] ∧ Dig u x ∧ AZ u y ∧ (Dig u z ∨ AZ u z)

/-- The classes given to a text by the first shape that applies. -/
def FirstShape : List ((Str → Prop) × (Str → InType → Prop)) → Str → InType → Prop
  | [], _, _ => False
  | (applies, gives) :: more, s, c => (applies s ∧ gives s c) ∨ (¬ applies s ∧ FirstShape more s c)

/-- The shapes and the classes each gives, in order of priority. -/
def shapes (u : UTables) (dflt : InType) : List ((Str → Prop) × (Str → InType → Prop)) := [
  (IsDecimal u, fun _ c => c = .NUMBER),
  (RunOf u.digit, fun s c => c = .NUMBER ∨ (c = .QUAD ∧ utf8Bytes s = 4) ∨ (c = .QUINT ∧ utf8Bytes s = 5)),
  ((· = c!"@"), fun _ c => c = .ATSIGN),
  ((· = c!"/"), fun _ c => c = .SLASH),
  (IsFraction u, fun _ c => c = .FRACT),
  (IsPostHead u, fun _ c => c = .MIXED ∨ c = .PCH),
  (IsPostTail u, fun _ c => c = .MIXED ∨ c = .PCT),
  (fun s => RunOf u.isWord s ∧ ∃ c ∈ s, u.digit c = true, fun _ c => c = .MIXED),
  (RunOf u.isWord, fun s c => c = .WORD ∨ (c = .DOUBLE ∧ utf8Bytes s = 2) ∨ (c = .SINGLE ∧ utf8Bytes s = 1)),
  ((· = c!"—"), fun _ c => c = .EMDASH),
  (RunOf (· == '-'), fun _ c => c = .DASH),
  ((· = c!"&"), fun _ c => c = .AMPERS),
  (RunOf u.isSpace, fun _ c => c = .SPACE),
  (RunOf (fun c => c == '|' || u.punct c), fun _ c => c = .PUNCT),
  (fun _ => True, fun _ c => c = dflt)]

end AS
