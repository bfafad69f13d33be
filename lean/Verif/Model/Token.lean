import Verif.Model.InClass
import Verif.Model.OutClass
/-
Model of `Token` (src/token.h, src/token.cpp).
-/
namespace AS

/-- `Token` (src/token.h:25-79). The class sets are in-order sequences of `std::set`s. -/
structure Token where
  text     : Str := []
  stdtext  : Str := []
  inclass  : List InType := []
  outclass : OutType := .BADTOKEN
  attached : List Attach := []
  inlex    : Bool := false
deriving DecidableEq, Repr

namespace Token

/-- `Token::Token(std::string)` (src/token.cpp:28-51): tab separated fields. Each `getline` keeps the
previous content of its target when the stream is exhausted. -/
def ofText (text : Str) : Token :=
  let buf := IStream.ofStr text
  let (buf, w) := buf.getline '\t' []
  let (buf, w) := if w = c!"TOKEN:" then buf.getline '\t' w else (buf, w)
  let (buf, sw) := buf.getline '\t' []
  let (buf, ic) := buf.getline '\t' []
  let (buf, oc) := buf.getline '\t' []
  let (_, at_) := buf.getline '\t' []
  { text := w, stdtext := sw, inclass := InType.asType ic, outclass := OutType.asType oc,
    attached := Attach.asAttach at_, inlex := false }

/-- `operator<<(ostream, Token)` (src/token.cpp:54-68); `inlex_` prints as 0/1. -/
def print (t : Token) : Str :=
  c!"TOKEN:" ++ c!"\t" ++ t.text ++ c!"\t" ++ t.stdtext ++ c!"\t" ++ InType.setAsString t.inclass ++ c!"\t"
    ++ t.outclass.asString ++ c!"\t" ++ Attach.setAsString t.attached ++ c!"\t"
    ++ (if t.inlex then c!"1" else c!"0")

/-- `Token::isInClass(Type)` (src/token.cpp:71-75). -/
def isInClass (t : Token) (c : InType) : Bool := t.inclass.contains c

/-- `Token::isInClass(set<Type>)` (src/token.cpp:78-84). -/
def isInAnyClass (t : Token) : List InType → Bool
  | [] => false
  | c :: cs => if t.inclass.contains c then true else isInAnyClass t cs

/-- `Token::inSize` (src/token.h). -/
def inSize (t : Token) : Nat := t.inclass.length

/-- Arithmetic of `long unsigned int`. -/
def u64 (n : Nat) : Nat := n % 2 ^ 64

/-- First loop of `Token::enumerate` (src/token.cpp:98-100). -/
def countCombos : Nat → List Token → Nat
  | cnt, [] => cnt
  | cnt, t :: ts => countCombos (u64 (cnt * t.inSize)) ts

/-- Inner loop of `Token::enumerate` (src/token.cpp:109-115) with `Token::in` (src/token.cpp:87-92)
inlined; `none`: the iterator is dereferenced at or past the end (undefined behaviour). -/
def enumOne (cnt i : Nat) : Nat → List Token → Option (List InType)
  | _, [] => some []
  | num, t :: ts =>
    let num := u64 (num * t.inSize)
    match t.inclass[(u64 (i * num) / cnt) % t.inSize]? with
    | none => none
    | some x =>
      match enumOne cnt i num ts with
      | none => none
      | some r => some (x :: r)

/-- `Token::enumerate` (src/token.cpp:95-121). -/
def enumerate (tokens : List Token) : Option (List (List InType)) :=
  let cnt := countCombos 1 tokens
  (List.range cnt).mapM (fun i => enumOne cnt i 1 tokens)

/-- Blank characters of `Token::trim` (src/token.cpp:129). -/
def isTrimmed (c : Char) : Bool :=
  c = ' ' || c = '\x0c' || c = '\n' || c = '\r' || c = '\t' || c = '\x0b'

/-- `Token::trim(int)` (src/token.cpp:128-146): `erase(0, npos)` erases all; `npos + 1 = 0`, so
`erase(0)` erases all too. -/
def trim (t : Token) (which : Int) : Token :=
  if 0 < t.text.length then
    let s := if which ≠ 2 then t.text.dropWhile isTrimmed else t.text
    let s := if which ≠ 1 then (s.reverse.dropWhile isTrimmed).reverse else s
    { t with text := if s.length = 0 then c!" " else s }
  else t

end Token
end AS
