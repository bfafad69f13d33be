import Verif.Model.Str
/-
Model of `Trie` (src/trie.h, src/trie.cpp), the trie over the bytes of `std::string`. No other file of
the project includes it; `TrieUtf8` (Model/Trie.lean) took its place. A `char` is signed, as with the
compilers of the supported platforms: `std::map<char, Trie*>` puts the bytes from 128 on first.
`std::set<std::string>` compares bytes as unsigned (`std::char_traits<char>::lt`).
-/
namespace AS.ByteTrie

/-- The value of a `char`. -/
def signed (b : UInt8) : Int := if b.toNat < 128 then b.toNat else (b.toNat : Int) - 256

/-- A `std::string`. -/
abbrev Bytes := List UInt8

mutual
/-- `Trie` (src/trie.h:34-60). -/
inductive Trie where
  | node (isEnd : Bool) (size : Nat) (kids : Kids)
/-- `ChildMap` (src/trie.h:32). -/
inductive Kids where
  | nil
  | cons (c : UInt8) (t : Trie) (rest : Kids)
end

namespace Trie

/-- `_isEnd`. -/
def isEnd : Trie → Bool
  | node e _ _ => e

/-- `_children`. -/
def kids : Trie → Kids
  | node _ _ k => k

/-- `size()` (src/trie.h:47). -/
def size : Trie → Nat
  | node _ s _ => s

/-- `Trie( end )` (src/trie.h:37). -/
def new (e : Bool) : Trie := node e 0 .nil

/-- `_isEnd = true`. -/
def markEnd : Trie → Trie
  | node _ s k => node true s k

end Trie

namespace Kids

/-- `_children.find( c )`. -/
def find (c : UInt8) : Kids → Option Trie
  | nil => none
  | cons d t rest => if d = c then some t else find c rest

/-- `_children.size()`. -/
def count : Kids → Nat
  | nil => 0
  | cons _ _ rest => rest.count + 1

/-- Replacing the child for `c`, or inserting a new one at its place in the order of signed `char`. -/
def update (c : UInt8) (old : Trie → Trie) (fresh : Trie) : Kids → Kids
  | nil => cons c fresh nil
  | cons d t rest =>
    if d = c then cons d (old t) rest
    else if signed c < signed d then cons c fresh (cons d t rest)
    else cons d t (update c old fresh rest)

end Kids

namespace Trie

/-- `Trie::addWord` (src/trie.cpp:22-41). -/
def addWord : Bytes → Trie → Trie
  | [], t => t
  | c :: sub, node e s k =>
    node e (s + 1) (k.update c
      (fun child => if sub = [] then child.markEnd else addWord sub child)
      (addWord sub (Trie.new (decide (sub = [])))))

/-- `Trie::isPrefix` (src/trie.cpp:45-54). -/
def isPrefix : Bytes → Trie → Bool
  | [], _ => true
  | c :: sub, t =>
    match t.kids.find c with
    | some child => isPrefix sub child
    | none => false

/-- `Trie::isWord` (src/trie.cpp:58-74); the loop as a recursion over `cursub`. -/
def isWord : Bytes → Trie → Bool
  | [], t => t.isEnd
  | c :: sub, t =>
    match t.kids.find c with
    | some child => isWord sub child
    | none => false

end Trie

/-- `operator<` of `std::string`: bytes as unsigned numbers. -/
def strLt : Bytes → Bytes → Bool
  | [], [] => false
  | [], _ :: _ => true
  | _ :: _, [] => false
  | a :: as, b :: bs => decide (a.toNat < b.toNat) || (decide (a = b) && strLt as bs)

/-- `std::set<std::string>::insert` on the in-order sequence. -/
def wordInsert (w : Bytes) : List Bytes → List Bytes
  | [] => [w]
  | x :: xs => if w = x then x :: xs else if strLt w x then w :: x :: xs else x :: wordInsert w xs

mutual
/-- `Trie::getWords` (src/trie.cpp:78-89). -/
def Trie.getWords : Trie → Bytes → List Bytes → List Bytes
  | .node e _ k, sofar, words =>
    Kids.getWords k sofar (if e then wordInsert sofar words else words)
/-- The loop over the children (src/trie.cpp:82-88). -/
def Kids.getWords : Kids → Bytes → List Bytes → List Bytes
  | .nil, _, words => words
  | .cons c t rest, sofar, words =>
    let tmp := sofar ++ [c]
    let words := if t.isEnd then wordInsert tmp words else words
    Kids.getWords rest sofar (Trie.getWords t tmp words)
end

/-- `Trie::getWordsStartingWith` (src/trie.cpp:93-104). -/
def Trie.getWordsStartingWith : Bytes → Trie → Bytes → List Bytes → List Bytes
  | [], t, sofar, words => t.getWords sofar words
  | c :: sub, t, sofar, words =>
    match t.kids.find c with
    | some child => getWordsStartingWith sub child (sofar ++ [c]) words
    | none => words

/-- A text of the source as bytes; its characters are ASCII. -/
def ascii (s : Str) : Bytes := s.map (fun c => c.toNat.toUInt8)

/-- The bytes `quoteChar` wants to escape (src/trie.cpp:109). -/
def special : Bytes := ascii c!"-.+*~$()[]\\|?"

/-- `Trie::quoteChar` (src/trie.cpp:108-115). Line 114 returns `"\\" + c`, which adds the value of the
`char` to a pointer to the two bytes of the literal: `none`, undefined. -/
def quoteChar (c : UInt8) : Option Bytes := if c ∈ special then none else some [c]

/-- `boost::algorithm::join( v, "|" )`. -/
def joinBar : List Bytes → Bytes
  | [] => []
  | [x] => x
  | x :: y :: ys => x ++ ascii c!"|" ++ joinBar (y :: ys)

/-- What `getRegexp` does with the alternatives `alt`, the single bytes `cc` and the flag `q`
(src/trie.cpp:139-153). -/
def finishRegexp (alt cc : List Bytes) (q : Bool) : Bytes :=
  let cconly := alt.length = 0
  let alt := if cc.length > 0 then
      alt ++ [if cc.length = 1 then cc.headD [] else ascii c!"[" ++ cc.flatten ++ ascii c!"]"]
    else alt
  let result := if alt.length = 1 then alt.headD [] else ascii c!"(?:" ++ joinBar alt ++ ascii c!")"
  if q then (if cconly then result ++ ascii c!"?" else ascii c!"(?:" ++ result ++ ascii c!")?") else result

mutual
/-- `Trie::getRegexp` (src/trie.cpp:119-154); `none` where `quoteChar` is undefined. -/
def Trie.getRegexp : Trie → Option Bytes
  | .node e _ k =>
    if e = true ∧ k.count = 0 then some []
    else match Kids.regexps k with
      | none => none
      | some (alt, cc) => some (finishRegexp alt cc (e && decide (k.count > 0)))
/-- The loop over the children (src/trie.cpp:127-138): the vectors `alt` and `cc`. -/
def Kids.regexps : Kids → Option (List Bytes × List Bytes)
  | .nil => some ([], [])
  | .cons c t rest =>
    match quoteChar c, Trie.getRegexp t, Kids.regexps rest with
    | some qchar, some recurse, some (alt, cc) =>
      if recurse.length > 0 then some ((qchar ++ recurse) :: alt, cc) else some (alt, qchar :: cc)
    | _, _, _ => none
end

/-- Adding a list of words to an empty trie. -/
def trieOf (words : List Bytes) : Trie := words.foldl (fun t w => t.addWord w) (Trie.new false)

end AS.ByteTrie
