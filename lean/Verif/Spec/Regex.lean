import Verif.Model.Str
/-
Perl regular expressions: the fragment the library generates, its syntax and its backtracking
semantics (contract of Boost.Regex).
-/
namespace AS

/-- Regular expressions. -/
inductive Re where
  /-- Matches the empty text. -/
  | eps
  /-- One character of a class. -/
  | one (p : Char → Bool)
  /-- One after the other. -/
  | seq (a b : Re)
  /-- The first, or else the second. -/
  | alt (a b : Re)
  /-- Greedy `?`. -/
  | opt (a : Re)

/-- What remains of the text after each of the possible matches at its start, in the order in which a
backtracking matcher tries them. -/
def Re.run : Re → Str → List Str
  | eps, s => [s]
  | one _, [] => []
  | one p, c :: s => if p c then [s] else []
  | seq a b, s => (a.run s).flatMap b.run
  | alt a b, s => a.run s ++ b.run s
  | opt a, s => a.run s ++ [s]

/-- The characters with a meaning in patterns. -/
def patternSpecial : Str := c!".[]{}()\\*+?|^$"

/-- Escapes that are not the character itself. -/
def escapeMeans (c : Char) : Bool := c.isAlphanum || c == '<' || c == '>' || c == '`' || c == '\''

/-- The characters listed in a class, up to the closing bracket. A range is not part of the fragment. -/
def readClass : Str → Option (List Char × Str)
  | [] => none
  | c :: s =>
    if c = ']' then some ([], s)
    else if c = '\\' then
      match s with
      | [] => none
      | d :: s => if escapeMeans d then none else (readClass s).map (fun r => (d :: r.1, r.2))
    else if c = '-' ∨ c = '[' then none
    else (readClass s).map (fun r => (c :: r.1, r.2))

mutual
/-- Alternatives separated by bars. -/
def readAlt : Nat → Str → Option (Re × Str)
  | 0, _ => none
  | n + 1, s =>
    match readSeq n s with
    | none => none
    | some (a, '|' :: s) => (readAlt n s).map (fun r => (.alt a r.1, r.2))
    | some (a, s) => some (a, s)
/-- A sequence of optional or plain atoms, up to a bar, a closing parenthesis or the end. -/
def readSeq : Nat → Str → Option (Re × Str)
  | 0, _ => none
  | n + 1, s =>
    match s with
    | [] => some (.eps, [])
    | c :: _ =>
      if c = '|' ∨ c = ')' then some (.eps, s)
      else
        match readAtom n s with
        | none => none
        | some (a, '?' :: s) => (readSeq n s).map (fun r => (.seq (.opt a) r.1, r.2))
        | some (a, s) => (readSeq n s).map (fun r => (.seq a r.1, r.2))
/-- An escaped or plain character, a class or a group `(?:...)`. -/
def readAtom : Nat → Str → Option (Re × Str)
  | 0, _ => none
  | n + 1, s =>
    match s with
    | [] => none
    | '\\' :: c :: s => if escapeMeans c then none else some (.one (fun d => d == c), s)
    | '[' :: '^' :: s => (readClass s).map (fun r => (.one (fun d => !r.1.contains d), r.2))
    | '[' :: s => (readClass s).map (fun r => (.one (fun d => r.1.contains d), r.2))
    | '(' :: '?' :: ':' :: s =>
      match readAlt n s with
      | some (a, ')' :: s) => some (a, s)
      | _ => none
    | c :: s => if c ∈ patternSpecial then none else some (.one (fun d => d == c), s)
end

/-- The pattern is read as this regular expression. -/
def Reads (pattern : Str) (r : Re) : Prop := ∃ n, readAlt n pattern = some (r, [])

end AS
