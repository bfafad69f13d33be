import Verif.Model.Classify
/-
Model of `Tokenizer` (src/tokenizer.h, src/tokenizer.cpp).

The patterns generated from the lexicon enter as expressions that have been read (`LexRe`); which
expressions they are is `LexRe.For`. Exceptions of Boost because of excessive complexity, which
`splitToken` catches and `getTokens` does not, are not modelled.
-/
namespace AS

/-- The three patterns generated from the lexicon: all words, prefix-attached, suffix-attached. -/
structure LexRe where
  all : Re
  pre : Re
  suf : Re

/-- They are the patterns of `Lexicon::regex`, `regexPrefixAtt`, `regexSuffixAtt`
(src/lexicon.cpp:382-497) without what is around the generated part. The first is used under `icase`,
so its characters are compared by their representatives. -/
def LexRe.For (u : UTables) (l : Lexicon) (x : LexRe) : Prop :=
  Reads ((trieOf (l.lex.map (·.1))).getRegexp.map u.canon) x.all ∧
  Reads (trieOf (Lexicon.attachedWords LexEntry.isPrefixAttached l.lex)).getRegexp x.pre ∧
  Reads (trieOf (Lexicon.attachedWords LexEntry.isSuffixAttached l.lex)).getRegexp x.suf

/-- `boost::split( words, s, is_any_of(" "), token_compress_on )`: the parts between runs of
blanks. `cur` is the part being read, `sep` tells that the last character was a blank. -/
def splitBlanks (sep : Bool) (cur : Str) : Str → List Str
  | [] => [cur.reverse]
  | c :: s =>
    if c = ' ' then
      if sep then splitBlanks true cur s else cur.reverse :: splitBlanks true [] s
    else splitBlanks false (c :: cur) s

namespace Tokenizer

/-! ### `splitToken` -/

/-- `boost::u32regex_replace( s, re, "$1 $2" )` for expressions that do not match the empty text. -/
def replaceLoop (r : Rx) : Nat → Str → Str → Str
  | 0, _, rest => rest
  | n + 1, prev, rest =>
    match searchFrom r prev rest with
    | none => rest
    | some (m0, m) =>
      rest.take (rest.length - m0.rest.length) ++ m.cap 1 ++ c!" " ++ m.cap 2 ++ replaceLoop r n m.prev m.rest

def replace12 (r : Rx) (s : Str) : Str := replaceLoop r (s.length + 1) [] s

/-- `[[:alpha:]\p{L}]`. -/
def isLetter (u : UTables) (c : Char) : Bool := u.alpha c || u.letter c

/-- `^(\d+)([[:alpha:]\p{L}])$` (src/tokenizer.cpp:50). -/
def digitsLetter (u : UTables) : Rx :=
  .seqs [.bol, .cap 1 (.plus u.digit), .cap 2 (.cls (isLetter u)), .eol]

/-- `\<([[:alpha:]\p{L}])(\d+)\>` (src/tokenizer.cpp:53). -/
def letterDigits (u : UTables) : Rx :=
  .seqs [.wordStart u.isWord, .cap 1 (.cls (isLetter u)), .cap 2 (.plus u.digit), .wordEnd u.isWord]

/-- `Token ta( e ); lex_.classify( ta, InClass::WORD );` -/
def wordToken (u : UTables) (l : Lexicon) (s : Str) : Token := l.classify u (Token.ofText s) .WORD

/-- The pieces of a token that mixes letters and digits (src/tokenizer.cpp:46-66). -/
def mixedPieces (u : UTables) (s : Str) : List Str :=
  splitBlanks false [] (replace12 (letterDigits u) (replace12 (digitsLetter u) s))

/-- `(^PREFIXES\B)(.+)` (src/tokenizer.cpp:78). -/
def prefixRx (u : UTables) (x : LexRe) : Rx :=
  .seq (.cap 1 (.seqs [.bol, .gen id x.pre, .within u.isWord])) (.cap 2 (.plus (fun _ => true)))

/-- `(.+)(SUFFIXES)` (src/tokenizer.cpp:99). -/
def suffixRx (x : LexRe) : Rx := .seq (.cap 1 (.plus (fun _ => true))) (.cap 2 (.gen id x.suf))

/-- Both groups of a match of the whole text; empty without a match (src/tokenizer.cpp:78-119). The
test `attached.length() > 6` is always true. -/
def groups (r : Rx) (s : Str) : Str × Str :=
  match r.fullMatch s with
  | some m => (m.cap 1, m.cap 2)
  | none => ([], [])

/-- The cases by the lengths of the parts (src/tokenizer.cpp:123-160). `substr` counts bytes; as the
parts end at characters it is modelled on characters. -/
def attachedPieces (s a b c d : Str) : List Str :=
  if byteLen a > 0 then
    if byteLen d = 0 ∨ byteLen b = byteLen d then [a, b]
    else if byteLen d > 0 ∧ byteLen a + byteLen d < byteLen s then
      [a, (s.drop a.length).take (s.length - a.length - d.length), d]
    else if byteLen d > 0 ∧ byteLen a + byteLen d > byteLen s then [c, d]
    else []
  else if byteLen d > 0 then [c, d]
  else []

/-- `Tokenizer::splitToken` (src/tokenizer.cpp:39-161). -/
def splitToken (u : UTables) (l : Lexicon) (x : LexRe) (tok : Token) : List Token :=
  let str := tok.text
  if tok.isInClass .MIXED then (mixedPieces u str).map (wordToken u l)
  else
    let p := groups (prefixRx u x) str
    let q := groups (suffixRx x) str
    (attachedPieces str p.1 p.2 q.1 q.2).map (wordToken u l)

/-! ### `getTokens` -/

/-- The first group of the pattern for a token, under `icase` (src/tokenizer.cpp:203). -/
def wordRx (u : UTables) (x : LexRe) : Rx :=
  .alts [
    .gen u.canon x.all,
    .seqs [.plus (Shape.dI u), .cls (fun c => c = '/' || c = ',' || c = '.'), .plus (Shape.dI u)],
    .plus (Shape.dI u),
    .seqs [.wordStart u.isWord, .plus (fun c => u.alpha (u.fold c)), .wordEnd u.isWord],
    .plus (fun c => u.letter (u.fold c) || u.nd (u.fold c)),
    .plus (fun c => u.alpha (u.fold c) || Shape.dI u c)]

/-- The second group (src/tokenizer.cpp:203). -/
def sepRx (u : UTables) : Rx :=
  .alts [
    .plus (fun c => c = '-' || c = '&' || u.isSpace (u.fold c) || c = '|' || u.punct (u.fold c)),
    .cls (fun c => c = '—'),
    .eol]

/-- The pattern for a token and what follows it (src/tokenizer.cpp:203). -/
def tokenRx (u : UTables) (x : LexRe) : Rx :=
  .seqs [
    .bol,
    .star (fun c => u.isSpace (u.fold c)),
    .notAhead (.plus (fun c => c = '—')),
    .cap 1 (wordRx u x),
    .cap 2 (sepRx u)]

/-- One match: the text skipped before it, the blanks before the first group, the two groups. Only the
groups are used; the others are there to say what becomes of the text. -/
structure Round where
  skipped : Str
  blanks  : Str
  word    : Str
  sep     : Str
deriving DecidableEq, Repr

/-- The loop (src/tokenizer.cpp:217-254): the matches and the text on which the last search was made
after them. `none`: the loop has not ended after `fuel` rounds. -/
def rounds (r : Rx) : Nat → Str → Option (List Round × Str)
  | 0, _ => none
  | n + 1, s =>
    match searchFrom r [] s with
    | none => some ([], s)
    | some (m0, m) =>
      let rd : Round :=
        { skipped := m0.prev.reverse
          blanks := m0.rest.take (m0.rest.length - m.rest.length - (m.cap 1).length - (m.cap 2).length)
          word := m.cap 1
          sep := m.cap 2 }
      if s = [] then some ([rd], s)
      else
        match rounds r n m.rest with
        | none => none
        | some (rs, rest) => some (rd :: rs, rest)

/-- The tokens made in one round (src/tokenizer.cpp:219-243). -/
def roundTokens (u : UTables) (l : Lexicon) (x : LexRe) (rd : Round) : List Token :=
  (if rd.word ≠ [] then
      let tok := wordToken u l rd.word
      if tok.inlex then [tok]
      else
        let toks := splitToken u l x tok
        if toks.length > 0 then toks else [tok]
    else []) ++
  (if rd.sep ≠ [] then [l.classify u ((Token.ofText rd.sep).trim 3) .PUNCT] else [])

/-- `Tokenizer::applyFilter` (src/tokenizer.cpp:260-268). -/
def applyFilter (filter : List InType) : List Token → List Token
  | [] => []
  | t :: ts => if !t.isInAnyClass filter then t :: applyFilter filter ts else applyFilter filter ts

/-- The text that is searched (src/tokenizer.cpp:167-170). -/
def prepare (icu : Icu) (l : Lexicon) (str : Str) : Str := icu.upper l.locale (icu.norm str)

/-- `Tokenizer::getTokens` (src/tokenizer.cpp:164-257). -/
def getTokens (icu : Icu) (u : UTables) (l : Lexicon) (x : LexRe) (filter : List InType) (str : Str) :
    Option (List Token) :=
  let s := prepare icu l str
  match rounds (tokenRx u x) (s.length + 2) s with
  | none => none
  | some (rs, _) => some (applyFilter filter (rs.flatMap (roundTokens u l x)))

/-! ### `getAltTokens` -/

/-- Number of combinations, in `unsigned long` (src/tokenizer.cpp:285-287). -/
def countAlts : Nat → List (Token × List Str) → Nat
  | cnt, [] => cnt
  | cnt, a :: as => countAlts (if a.2.length > 1 then Token.u64 (cnt * 2) else cnt) as

/-- The inner loop (src/tokenizer.cpp:304-318); `none`: `1 << n` overflows (undefined behaviour). -/
def altOne (u : UTables) (l : Lexicon) (i : Nat) : Nat → List (Token × List Str) → Option (List Token)
  | _, [] => some []
  | n, (t, ws) :: as =>
    if ws.length = 1 then (altOne u l i n as).map (t :: ·)
    else if 31 ≤ n then none
    else if i / 2 ^ n % 2 = 0 then (altOne u l i (n + 1) as).map (t :: ·)
    else (altOne u l i (n + 1) as).map (ws.map (wordToken u l) ++ ·)

/-- `Tokenizer::getAltTokens` (src/tokenizer.cpp:271-323). `none`: undefined behaviour, or
`reserve( 2^64 - 1 )` throws. That `reserve` may run out of memory is not modelled. -/
def getAltTokens (u : UTables) (l : Lexicon) (ts : List Token) : Option (List (List Token)) :=
  let alt := ts.map (fun t => (t, splitBlanks false [] t.text))
  let cnt := countAlts 1 alt
  if cnt = 1 then some []
  else if cnt = 0 then none
  else (List.range' 1 (cnt - 1)).mapM (fun i => altOne u l i 0 alt)

/-! ### The filter -/

/-- `addFilter` (src/tokenizer.h:39), `removeFilter` (src/tokenizer.cpp:22-26). -/
def addFilter (filter : List InType) (c : InType) : List InType := setInsert InType.code c filter
def removeFilter (filter : List InType) (c : InType) : List InType := filter.filter (· ≠ c)

end Tokenizer
end AS
