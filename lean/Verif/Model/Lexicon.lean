import Verif.Model.LexEntry
import Verif.Model.Trie
import Verif.Model.Token
/-
Model of `Lexicon` (src/lexicon.h, src/lexicon.cpp) except `classify`, which is in
Verif/Model/Classify.lean.
-/
namespace AS

/-- The ICU functions behind `Utils::normalizeUTF8` and `Utils::upperCaseUTF8`
(src/utils.cpp:64-106). The laws are what a theorem about printed lexicons relies on: a tab is a
boundary for both, text of ASCII characters other than small letters is unchanged. ICU failures
(`"ERROR"`) are not modelled. -/
structure Icu where
  norm  : Str → Str
  upper : Str → Str → Str
  norm_tab : ∀ a b, norm (a ++ '\t' :: b) = norm a ++ '\t' :: norm b
  upper_tab : ∀ loc a b, upper loc (a ++ '\t' :: b) = upper loc a ++ '\t' :: upper loc b
  norm_ascii : ∀ s, (∀ c ∈ s, c.toNat < 128 ∧ ¬ c.isLower) → norm s = s
  upper_ascii : ∀ loc s, (∀ c ∈ s, c.toNat < 128 ∧ ¬ c.isLower) → upper loc s = s

/-- A model of ICU on ASCII text, for examples. -/
def asciiIcu : Icu where
  norm s := s
  upper _ s := s.map Char.toUpper
  norm_tab _ _ := rfl
  upper_tab _ a b := by simp [show Char.toUpper '\t' = '\t' by decide]
  norm_ascii _ _ := rfl
  upper_ascii _ s h := by
    induction s with
    | nil => rfl
    | cons c s ih =>
      have hc := (h c (List.mem_cons_self ..)).2
      have e : c.toUpper = c := by
        rw [Char.toUpper]
        split
        · rename_i hl
          exact absurd (by simpa [Char.isLower] using hl) hc
        · rfl
      rw [List.map_cons, e, ih (fun x hx => h x (List.mem_cons_of_mem _ hx))]

/-! ### `std::map<std::string, T>` as the sequence of its nodes in key order -/

/-- `find`. -/
def omFind {α : Type} (k : Str) : List (Str × α) → Option α
  | [] => none
  | (k', v) :: m => if k = k' then some v else omFind k m

/-- `m[k] = v`. -/
def omSet {α : Type} (k : Str) (v : α) : List (Str × α) → List (Str × α)
  | [] => [(k, v)]
  | (k', v') :: m =>
    if k = k' then (k', v) :: m
    else if strLt k k' then (k, v) :: (k', v') :: m
    else (k', v') :: omSet k v m

/-- `erase( k )`. -/
def omErase {α : Type} (k : Str) : List (Str × α) → List (Str × α)
  | [] => []
  | (k', v) :: m => if k = k' then m else (k', v) :: omErase k m

/-- `Lexicon` (src/lexicon.h:35-131). `md5in` is the string whose digest is `md5_`. -/
structure Lexicon where
  name        : Str := []
  lang        : Lang := .UNKNOWN
  locale      : Str := []
  lex         : List (Str × List LexEntry) := []
  regex_      : Str := []
  regexPrefix : Str := []
  regexSuffix : Str := []
  md5in       : Str := []
deriving DecidableEq, Repr

namespace Lexicon

/-- `Lexicon::find` (src/lexicon.cpp:151-160). -/
def find (l : Lexicon) (key : Str) : List LexEntry :=
  match omFind key l.lex with
  | some es => es
  | none => []

/-- `lex_.size()`, printed in the header (src/lexicon.cpp:170). -/
def size (l : Lexicon) : Nat := l.lex.length

/-- The last lines of `insert` and `remove` (src/lexicon.cpp:335-337, 371-373). -/
def clearCaches (l : Lexicon) : Lexicon := { l with regex_ := [], regexPrefix := [], regexSuffix := [] }

/-- The loop `for entry : entries if ( entry == le ) return` (src/lexicon.cpp:323-325). -/
def present (e : LexEntry) : List LexEntry → Bool
  | [] => false
  | x :: xs => if x = e then true else present e xs

/-- `Lexicon::insert` (src/lexicon.cpp:313-338). -/
def insert (l : Lexicon) (e : LexEntry) : Lexicon :=
  let entries := l.find e.word
  if present e entries then l
  else clearCaches { l with lex := omSet e.word (entries ++ [e]) l.lex }

/-- The loop that erases the first equal entry (src/lexicon.cpp:353-367): the remaining entries, if an
equal one was found. -/
def eraseFirst (e : LexEntry) : List LexEntry → Option (List LexEntry)
  | [] => none
  | x :: xs => if x = e then some xs else (eraseFirst e xs).map (x :: ·)

/-- `Lexicon::remove` (src/lexicon.cpp:341-374). -/
def remove (l : Lexicon) (e : LexEntry) : Lexicon :=
  let entries := l.find e.word
  if entries.length = 0 then l
  else
    match eraseFirst e entries with
    | none => clearCaches l
    | some rest =>
      if rest.length = 0 then clearCaches { l with lex := omErase e.word l.lex }
      else clearCaches { l with lex := omSet e.word rest l.lex }

/-- `Lexicon::regex` (src/lexicon.cpp:382-415, `USE_TRIE`). -/
def regex (l : Lexicon) : Lexicon × Str :=
  let l := if l.regex_.length = 0 then
      { l with regex_ := (trieOf (l.lex.map (·.1))).getRegexp ++ c!"|" } else l
  (l, l.regex_)

/-- The words added to the trie by the nested loops of `regexPrefixAtt` and `regexSuffixAtt`: the key
once for each of its entries with the property. -/
def attachedWords (p : LexEntry → Bool) (m : List (Str × List LexEntry)) : List Str :=
  m.flatMap (fun e => (e.2.filter p).map (fun _ => e.1))

/-- `Lexicon::regexPrefixAtt` (src/lexicon.cpp:418-456, `USE_TRIE`). -/
def regexPrefixAtt (l : Lexicon) : Lexicon × Str :=
  let l := if l.regexPrefix.length = 0 then
      { l with regexPrefix := c!"^" ++ (trieOf (attachedWords LexEntry.isPrefixAttached l.lex)).getRegexp ++ c!"\\B" }
    else l
  (l, l.regexPrefix)

/-- `Lexicon::regexSuffixAtt` (src/lexicon.cpp:459-497, `USE_TRIE`). -/
def regexSuffixAtt (l : Lexicon) : Lexicon × Str :=
  let l := if l.regexSuffix.length = 0 then
      { l with regexSuffix := (trieOf (attachedWords LexEntry.isSuffixAttached l.lex)).getRegexp }
    else l
  (l, l.regexSuffix)

/-! ### Loading -/

/-- The exceptions of `initialize`. -/
inductive Error where
  /-- `std::out_of_range` of `line.substr(4)` -/
  | outOfRange
  /-- `Lexicon-LexEntry-Before-Lexicon` -/
  | entryBeforeLexicon
  /-- `Lexicon-Invalid-File-Format` -/
  | invalidFileFormat
  /-- `Lexicon-Invalid-Data-Format` -/
  | invalidDataFormat (line : Str)
  /-- `Lexicon-Invalid-LexEntry` -/
  | invalidLexEntry (line : Str)
  /-- the model ran out of fuel (never happens) -/
  | diverges
deriving DecidableEq, Repr

/-- Removal of a byte order mark (src/lexicon.cpp:76-77): `line.substr(4)` removes the three bytes of
U+FEFF and one more. A line of only the mark throws. If the next character has more than one byte the
line is left with its continuation bytes, represented by U+FFFD; the line is then only compared with
ASCII text. -/
def stripBom (line : Str) : Except Error Str :=
  match line with
  | [] => .ok []
  | c :: cs =>
    if c = '\uFEFF' then
      match cs with
      | [] => .error .outOfRange
      | d :: ds => if d.toNat < 128 then .ok ds else .ok ('\uFFFD' :: ds)
    else .ok line

/-- The loop that skips to the header (src/lexicon.cpp:81-88) and the check after it (90-91). `inp` is
`lexicon_in`. -/
def headerLoop : Nat → IStream → Str → Str → Except Error (IStream × Str × Str)
  | 0, _, _, _ => .error .diverges
  | fuel + 1, is, line, inp =>
    if is.fail then .error .invalidFileFormat
    else if line.take 8 ≠ c!"LEXICON:" then
      if line.take 9 = c!"LEXENTRY:" then .error .entryBeforeLexicon
      else
        let (is, line) := is.getline '\n' line
        headerLoop fuel is line (inp ++ line)
    else .ok (is, line, inp)

/-- The header fields (src/lexicon.cpp:96-108): language and locale; `loc` is the previous `locale_`. -/
def readHeader (line loc : Str) : Except Error (Lang × Str) :=
  let buf := IStream.ofStr line
  let (buf, term) := buf.getline '\t' []
  if term ≠ c!"LEXICON:" ∧ term ≠ c!"Lexicon:" then .error (.invalidDataFormat line)
  else
    let (buf, term) := buf.getline '\t' term
    let (buf, term) := buf.getline '\t' term
    let lang := Lang.asLang term
    let (_, loc) := buf.getline '\t' loc
    .ok (lang, loc)

/-- `u32regex_replace( line, "( +)", " " )` (src/lexicon.cpp:122-124); the flag says that the previous
character was a blank. -/
def collapse : Bool → Str → Str
  | _, [] => []
  | prev, c :: cs =>
    if c = ' ' then (if prev then collapse true cs else c :: collapse true cs)
    else c :: collapse false cs

/-- The body of the entry loop after collapsing blanks (src/lexicon.cpp:127-142). The second component
is the variable `line` afterwards. -/
def loadEntry (icu : Icu) (l : Lexicon) (line : Str) : Except Error (Lexicon × Str) :=
  if line.length = 0 then .ok (l, line)
  else if line.take 9 = c!"LEXENTRY:" ∨ line.take 9 = c!"LexEntry:" then
    let line := icu.norm line
    let line := if l.locale ≠ [] then icu.upper l.locale line else line
    let e := LexEntry.ofLine line
    if e.isInClass .BADTOKEN then .error (.invalidLexEntry line)
    else .ok (l.insert e, line)
  else .error (.invalidLexEntry line)

/-- The entry loop (src/lexicon.cpp:114-143). -/
def entryLoop (icu : Icu) : Nat → IStream → Str → Str → Lexicon → Except Error (Lexicon × Str)
  | 0, _, _, _, _ => .error .diverges
  | fuel + 1, is, line, inp, l =>
    if is.fail then .ok (l, inp)
    else
      let (is, line) := is.getline '\n' line
      let inp := inp ++ line
      match loadEntry icu l (collapse false line) with
      | .error e => .error e
      | .ok (l, line) => entryLoop icu fuel is line inp l

/-- `Lexicon::initialize` (src/lexicon.cpp:67-146) on a lexicon without entries, for a string stream;
the line numbers in messages are left out. -/
def «initialize» (icu : Icu) (name text : Str) : Except Error Lexicon :=
  let (is, line) := (IStream.ofStr text).getline '\n' []
  match stripBom line with
  | .error e => .error e
  | .ok line' =>
    match headerLoop (text.length + 3) is line' line with
    | .error e => .error e
    | .ok (is, line, inp) =>
      match readHeader line [] with
      | .error e => .error e
      | .ok (lang, locale) =>
        match entryLoop icu (text.length + 3) is line inp { name, lang, locale } with
        | .error e => .error e
        | .ok (l, inp) => .ok { l with md5in := inp }

/-- Decimal digits of a number. -/
def natDigits (n : Nat) : Str := (Nat.repr n).toList

/-- `operator<<(ostream, Lexicon)` (src/lexicon.cpp:165-178). -/
def print (l : Lexicon) : Str :=
  c!"LEXICON:" ++ c!"\t" ++ l.name ++ c!"\t" ++ l.lang.asString ++ c!"\t" ++ l.locale ++ c!"\t" ++ natDigits l.size ++ c!"\n"
    ++ l.lex.flatMap (fun e => e.2.flatMap (fun d => d.print ++ c!"\n"))

/-! ### Standardizing a token -/

/-- The loop of `standardize` (src/lexicon.cpp:187-192): the standard word of the first entry in the
token's first class. `none`: `*(token.inclass().begin())` of an empty set (undefined behaviour). -/
def stdLoop (inclass : List InType) : List LexEntry → Option (Option Str)
  | [] => some none
  | e :: es =>
    match inclass with
    | [] => none
    | c :: _ => if e.isInClass c then some (some e.stdword) else stdLoop inclass es

/-- `Lexicon::standardize` (src/lexicon.cpp:181-198). -/
def standardize (l : Lexicon) (t : Token) : Option Token :=
  match stdLoop t.inclass (l.find t.text) with
  | none => none
  | some r =>
    let t := match r with
      | some s => { t with stdtext := s }
      | none => t
    some (if t.stdtext.length = 0 then { t with stdtext := t.text } else t)

end Lexicon
end AS
