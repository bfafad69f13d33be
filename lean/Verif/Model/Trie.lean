import Verif.Model.Str
/-
Model of `TrieUtf8` (src/trieutf8.h, src/trieutf8.cpp). A word is a list of code points; the walk over
the UTF-8 bytes with `Utf8Iterator` is the subject of C24 and C25. `std::map<char32_t, TrieUtf8*>` is
the sequence of its nodes in key order; a pointer is the trie it owns (no child is ever `NULL`: the
`NULL` that `_children[ c ]` inserts at src/trieutf8.cpp:32 is replaced at line 41).
-/
namespace AS

mutual
/-- `TrieUtf8` (src/trieutf8.h:37-63). -/
inductive Trie where
  | node (isEnd : Bool) (size : Nat) (kids : Kids)
/-- `ChildMap` (src/trieutf8.h:35). -/
inductive Kids where
  | nil
  | cons (c : Char) (t : Trie) (rest : Kids)
end

namespace Trie

/-- `_isEnd`. -/
def isEnd : Trie → Bool
  | node e _ _ => e

/-- `_children`. -/
def kids : Trie → Kids
  | node _ _ k => k

/-- `size()` (src/trieutf8.h:50). -/
def size : Trie → Nat
  | node _ s _ => s

/-- `TrieUtf8( end )` (src/trieutf8.h:40). -/
def new (e : Bool) : Trie := node e 0 .nil

/-- `_isEnd = true`. -/
def markEnd : Trie → Trie
  | node _ s k => node true s k

end Trie

namespace Kids

/-- `_children.find( c )`. -/
def find (c : Char) : Kids → Option Trie
  | nil => none
  | cons d t rest => if d = c then some t else find c rest

/-- `_children.size()`. -/
def count : Kids → Nat
  | nil => 0
  | cons _ _ rest => rest.count + 1

/-- Replacing the child for `c`, or inserting a new one at its place in the key order
(`std::map` ordered by `char32_t`). -/
def update (c : Char) (old : Trie → Trie) (fresh : Trie) : Kids → Kids
  | nil => cons c fresh nil
  | cons d t rest =>
    if d = c then cons d (old t) rest
    else if c.toNat < d.toNat then cons c fresh (cons d t rest)
    else cons d t (update c old fresh rest)

end Kids

namespace Trie

/-- `TrieUtf8::addWord` (src/trieutf8.cpp:23-44). -/
def addWord : Str → Trie → Trie
  | [], t => t
  | c :: sub, node e s k =>
    node e (s + 1) (k.update c
      (fun child => if sub = [] then child.markEnd else addWord sub child)
      (addWord sub (Trie.new (decide (sub = [])))))

/-- `TrieUtf8::isPrefix` (src/trieutf8.cpp:48-61). -/
def isPrefix : Str → Trie → Bool
  | [], _ => true
  | c :: sub, t =>
    match t.kids.find c with
    | some child => isPrefix sub child
    | none => false

/-- `TrieUtf8::isWord` (src/trieutf8.cpp:65-85); the loop as a recursion over `cursub`. -/
def isWord : Str → Trie → Bool
  | [], t => t.isEnd
  | c :: sub, t =>
    match t.kids.find c with
    | some child => isWord sub child
    | none => false

end Trie

/-- `operator<` of `std::string`, by code points (the order of the UTF-8 bytes is the same). -/
def strLt : Str → Str → Bool
  | [], [] => false
  | [], _ :: _ => true
  | _ :: _, [] => false
  | a :: as, b :: bs => decide (a.toNat < b.toNat) || (decide (a = b) && strLt as bs)

/-- `std::set<std::string>::insert` on the in-order sequence. -/
def wordInsert (w : Str) : List Str → List Str
  | [] => [w]
  | x :: xs => if w = x then x :: xs else if strLt w x then w :: x :: xs else x :: wordInsert w xs

mutual
/-- `TrieUtf8::getWords` (src/trieutf8.cpp:89-100). -/
def Trie.getWords : Trie → Str → List Str → List Str
  | .node e _ k, sofar, words =>
    Kids.getWords k sofar (if e then wordInsert sofar words else words)
/-- The loop over the children (src/trieutf8.cpp:93-99). -/
def Kids.getWords : Kids → Str → List Str → List Str
  | .nil, _, words => words
  | .cons c t rest, sofar, words =>
    let tmp := sofar ++ [c]
    let words := if t.isEnd then wordInsert tmp words else words
    Kids.getWords rest sofar (Trie.getWords t tmp words)
end

/-- `TrieUtf8::getWordsStartingWith` (src/trieutf8.cpp:104-119). -/
def Trie.getWordsStartingWith : Str → Trie → Str → List Str → List Str
  | [], t, sofar, words => t.getWords sofar words
  | c :: sub, t, sofar, words =>
    match t.kids.find c with
    | some child => getWordsStartingWith sub child (sofar ++ [c]) words
    | none => words

/-- The characters `quoteMeta` escapes (src/trieutf8.cpp:124). -/
def quoteSpecial : Str := c!"-.+*~$()[]\\|?"

/-- `TrieUtf8::quoteMeta` (src/trieutf8.cpp:123-139). -/
def quoteMeta : Str → Str
  | [] => []
  | c :: cs => if c ∈ quoteSpecial then '\\' :: c :: quoteMeta cs else c :: quoteMeta cs

/-- `boost::algorithm::join( v, "|" )`. -/
def joinBar : List Str → Str
  | [] => []
  | [x] => x
  | x :: y :: ys => x ++ '|' :: joinBar (y :: ys)

/-- What `getRegexp` does with the alternatives `alt`, the single characters `cc` and the flag `q`
(src/trieutf8.cpp:163-177). -/
def finishRegexp (alt cc : List Str) (q : Bool) : Str :=
  let cconly := alt.length = 0
  let alt := if cc.length > 0 then
      alt ++ [if cc.length = 1 then cc.headD [] else c!"[" ++ cc.flatten ++ c!"]"]
    else alt
  let result := if alt.length = 1 then alt.headD [] else c!"(?:" ++ joinBar alt ++ c!")"
  if q then (if cconly then result ++ c!"?" else c!"(?:" ++ result ++ c!")?") else result

mutual
/-- `TrieUtf8::getRegexp` (src/trieutf8.cpp:143-178). -/
def Trie.getRegexp : Trie → Str
  | .node e _ k =>
    if e = true ∧ k.count = 0 then []
    else finishRegexp (Kids.regexps k).1 (Kids.regexps k).2 (e && decide (k.count > 0))
/-- The loop over the children (src/trieutf8.cpp:151-162): the vectors `alt` and `cc`. -/
def Kids.regexps : Kids → List Str × List Str
  | .nil => ([], [])
  | .cons c t rest =>
    let qchar := quoteMeta [c]
    let recurse := Trie.getRegexp t
    if recurse.length > 0 then ((qchar ++ recurse) :: (Kids.regexps rest).1, (Kids.regexps rest).2)
    else ((Kids.regexps rest).1, qchar :: (Kids.regexps rest).2)
end

/-- Adding a list of words to an empty trie. -/
def trieOf (words : List Str) : Trie := words.foldl (fun t w => t.addWord w) (Trie.new false)

end AS
