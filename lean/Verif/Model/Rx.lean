import Verif.Spec.Regex
/-
Backtracking regular expressions with captures and assertions: the contract of Boost.Regex (Perl
syntax, `match_default`) for the patterns written out in the source. No file of /repo. Exceptions
because of excessive complexity are not modelled.
-/
namespace AS

/-- A position in a text: the characters before it, last first, back to where the search started;
the characters after it; the groups captured so far, last first. -/
structure M where
  prev : Str
  rest : Str
  caps : List (Nat × Str) := []
deriving DecidableEq, Repr

/-- The text matched by a group; empty if it did not take part. -/
def capOf (k : Nat) : List (Nat × Str) → Str
  | [] => []
  | (j, s) :: cs => if j = k then s else capOf k cs

/-- `what[k]`. -/
def M.cap (m : M) (k : Nat) : Str := capOf k m.caps

/-- Moving over `n` characters. -/
def M.advance (m : M) (n : Nat) : M :=
  { m with prev := (m.rest.take n).reverse ++ m.prev, rest := m.rest.drop n }

/-- Regular expressions; `p` are character classes. -/
inductive Rx where
  | eps
  | cls (p : Char → Bool)
  /-- Greedy `*` on a class. -/
  | star (p : Char → Bool)
  /-- Greedy `+` on a class. -/
  | plus (p : Char → Bool)
  | seq (a b : Rx)
  | alt (a b : Rx)
  /-- Greedy `?`. -/
  | opt (a : Rx)
  /-- Capturing group. -/
  | cap (k : Nat) (a : Rx)
  /-- A generated pattern, compared after mapping the text with `f`. -/
  | gen (f : Char → Char) (r : Re)
  /-- `^` and `$`, also at line separators. -/
  | bol
  | eol
  /-- `\<`, `\>` and `\B`; `w` is the class `\w`. -/
  | wordStart (w : Char → Bool)
  | wordEnd (w : Char → Bool)
  | within (w : Char → Bool)
  /-- Negative look-ahead. -/
  | notAhead (a : Rx)

/-- Line separators (`is_separator` of Boost). Boost compares the last three after cutting the character to 16 bits, so that
characters beyond U+FFFF such as U+10085 count too; that is left out. -/
def isSep (c : Char) : Bool :=
  c = '\n' || c = '\r' || c = '\x0c' || c = '\u0085' || c = '\u2028' || c = '\u2029'

/-- `^`. -/
def atBol (m : M) : Bool :=
  match m.prev, m.rest with
  | [], _ => true
  | c :: _, [] => isSep c
  | c :: _, d :: _ => isSep c && !(c = '\r' && d = '\n')

/-- `$`. -/
def atEol (m : M) : Bool :=
  match m.prev, m.rest with
  | _, [] => true
  | [], d :: _ => isSep d
  | c :: _, d :: _ => isSep d && !(c = '\r' && d = '\n')

/-- `\<`. -/
def atWordStart (w : Char → Bool) (m : M) : Bool :=
  match m.prev, m.rest with
  | _, [] => false
  | [], d :: _ => w d
  | c :: _, d :: _ => w d && !w c

/-- `\>`. -/
def atWordEnd (w : Char → Bool) (m : M) : Bool :=
  match m.prev, m.rest with
  | [], _ => false
  | c :: _, [] => w c
  | c :: _, d :: _ => w c && !w d

/-- `\B`: never at the beginning or the end. -/
def atWithin (w : Char → Bool) (m : M) : Bool :=
  match m.prev, m.rest with
  | [], _ => false
  | _, [] => false
  | c :: _, d :: _ => w c == w d

/-- Characters of a class, as many as possible first. -/
def starRun (p : Char → Bool) (caps : List (Nat × Str)) : Str → Str → List M
  | prev, [] => [⟨prev, [], caps⟩]
  | prev, c :: s => if p c then starRun p caps (c :: prev) s ++ [⟨prev, c :: s, caps⟩] else [⟨prev, c :: s, caps⟩]

/-- The positions after each possible match, in the order in which they are tried. -/
def Rx.run : Rx → M → List M
  | eps, m => [m]
  | cls p, m =>
    match m.rest with
    | [] => []
    | c :: s => if p c then [⟨c :: m.prev, s, m.caps⟩] else []
  | star p, m => starRun p m.caps m.prev m.rest
  | plus p, m =>
    match m.rest with
    | [] => []
    | c :: s => if p c then starRun p m.caps (c :: m.prev) s else []
  | seq a b, m => (a.run m).flatMap b.run
  | alt a b, m => a.run m ++ b.run m
  | opt a, m => a.run m ++ [m]
  | cap k a, m => (a.run m).map (fun m' =>
      { m' with caps := (k, m.rest.take (m.rest.length - m'.rest.length)) :: m'.caps })
  | gen f r, m => (r.run (m.rest.map f)).map (fun s => m.advance (m.rest.length - s.length))
  | bol, m => if atBol m then [m] else []
  | eol, m => if atEol m then [m] else []
  | wordStart w, m => if atWordStart w m then [m] else []
  | wordEnd w, m => if atWordEnd w m then [m] else []
  | within w, m => if atWithin w m then [m] else []
  | notAhead a, m => if (a.run m).isEmpty then [m] else []

/-- `u32regex_match( s, what, re )`: the first match that covers the whole text. -/
def Rx.fullMatch (r : Rx) (s : Str) : Option M := (r.run ⟨[], s, []⟩).find? (fun m => m.rest.isEmpty)

/-- `u32regex_match( s, re )`. -/
def Rx.full (r : Rx) (s : Str) : Bool := (r.run ⟨[], s, []⟩).any (fun m => m.rest.isEmpty)

/-- `u32regex_search`: the first match at the first position that has one; the position it starts at
and the one it ends at. `rest` is what the recursion is over. -/
def searchFrom (r : Rx) (prev : Str) : Str → Option (M × M)
  | [] =>
    match r.run ⟨prev, [], []⟩ with
    | m :: _ => some (⟨prev, [], []⟩, m)
    | [] => none
  | c :: s =>
    match r.run ⟨prev, c :: s, []⟩ with
    | m :: _ => some (⟨prev, c :: s, []⟩, m)
    | [] => searchFrom r (c :: prev) s

/-- A sequence of expressions. -/
def Rx.seqs : List Rx → Rx
  | [] => .eps
  | [r] => r
  | r :: s :: rs => .seq r (Rx.seqs (s :: rs))

/-- Alternatives. -/
def Rx.alts : List Rx → Rx
  | [] => .eps
  | [r] => r
  | r :: s :: rs => .alt r (Rx.alts (s :: rs))

end AS
