/-
Strings, `std::set` and the parts of `std::istream` the code relies on.

Trusted contract of libstdc++ (no file of /repo): `std::getline` and
`operator>>(istream&, string&)` first construct a sentry; if the stream is not good the
sentry fails, `failbit` is set and **the target string is left unchanged**; otherwise the
target is erased and characters are extracted.
-/
namespace AS

/-- `std::string`, as the code points of its UTF-8 text. -/
abbrev Str := List Char

/-- `c!"ABC"` is the literal list `['A', 'B', 'C']`. -/
macro:max "c!" s:str : term => do
  let cs := s.getString.toList
  let elems := cs.map fun c => Lean.Syntax.mkCharLit c
  `([$(elems.toArray),*])

/-- `std::istringstream`: unread characters and the `eofbit`/`failbit` flags. -/
structure IStream where
  rest : Str
  eof  : Bool := false
  fail : Bool := false
deriving Repr, DecidableEq

/-- `good()`. -/
def IStream.good (s : IStream) : Bool := !s.eof && !s.fail

/-- Stream over a fresh string buffer. -/
def IStream.ofStr (s : Str) : IStream := { rest := s }

/-- Split at the first occurrence of a character: the part before it and, if it occurs, the part
after it. -/
def cutAt (d : Char) : Str → Str × Option Str
  | [] => ([], none)
  | c :: cs =>
    if c = d then ([], some cs)
    else let r := cutAt d cs; (c :: r.1, r.2)

/-- `std::getline(is, target, delim)`; `old` is the previous content of the target. -/
def IStream.getline (s : IStream) (delim : Char) (old : Str) : IStream × Str :=
  if s.good then
    match cutAt delim s.rest with
    | (l, some r) => ({ rest := r }, l)
    | (l, none)   => ({ rest := [], eof := true, fail := l.isEmpty }, l)
  else ({ s with fail := true }, old)

/-- `isspace` in the C locale. -/
def isCSpace (c : Char) : Bool :=
  c = ' ' || c = '\t' || c = '\n' || c = '\x0b' || c = '\x0c' || c = '\r'

/-- `is >> target` for a string target. -/
def IStream.readWord (s : IStream) (old : Str) : IStream × Str :=
  if s.good then
    match s.rest.dropWhile isCSpace with
    | [] => ({ rest := [], eof := true, fail := true }, old)
    | c :: cs =>
      let w := (c :: cs).takeWhile (fun x => !isCSpace x)
      let r := (c :: cs).dropWhile (fun x => !isCSpace x)
      ({ rest := r, eof := r.isEmpty, fail := false }, w)
  else ({ s with fail := true }, old)

/-- `std::set::insert` on the in-order sequence of a set ordered by an integer key. -/
def setInsert {α : Type} (key : α → Int) (x : α) : List α → List α
  | [] => [x]
  | y :: ys =>
    if key x < key y then x :: y :: ys
    else if key x = key y then y :: ys
    else y :: setInsert key x ys

/-- The in-order sequence of a `std::set`: strictly increasing keys. -/
def IsSet {α : Type} (key : α → Int) (l : List α) : Prop :=
  l.Pairwise (fun a b => key a < key b)

/-- Join with a separator (used only in specifications). -/
def joinWith (sep : Str) : List Str → Str
  | [] => []
  | [x] => x
  | x :: y :: ys => x ++ sep ++ joinWith sep (y :: ys)

end AS
