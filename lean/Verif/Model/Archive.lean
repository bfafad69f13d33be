import Verif.Model.Wrapper
/-
Model of compiled lexicons: `serialize_lexicon` (src/as_wrapper.cpp:641-686), `as_compile_lexicon`
(src/address_standardizer.c:112-135), `Lexicon::save` and `Lexicon::load` (src/lexicon.h:40-65) and
`LexEntry::serialize` (src/lexentry.h:28-34).

The text archives of Boost are sequences of items separated by blanks: a number in decimal, a string as its
length in bytes, a blank and the string. Simplifications: of the class information only that of the lexicon
(tracking, version) is kept; that of the members, and the item versions of the containers, are written and read
without being used. The digest `md5_` is represented by the string it is computed from. Numbers are not
bounded. Numbers with a sign other than a minus, numbers of no enumerator and a length that ends inside a
character make the text no archive.
-/
namespace AS
namespace Archive
open Lexicon (natDigits)

/-- What `ar << x` is applied to. -/
inductive Datum where
  | int (n : Int)
  | text (s : Str)
deriving DecidableEq, Repr

/-- A number as `os << n` prints it. -/
def intDigits : Int → Str
  | .ofNat n => natDigits n
  | .negSucc n => '-' :: natDigits (n + 1)

/-- An item of the archive. -/
def Datum.write : Datum → Str
  | .int n => intDigits n
  | .text s => natDigits (byteLen s) ++ c!" " ++ s

/-- The items, separated by blanks. -/
def writeAll : List Datum → Str
  | [] => []
  | [d] => d.write
  | d :: e :: ds => d.write ++ c!" " ++ writeAll (e :: ds)

/-! ### Writing -/

/-- The value of a language (src/inclass.h:63-143). -/
def langCode (l : Lang) : Int := if l = .UNKNOWN then -1 else (Lang.all.idxOf l : Nat)

/-- A sequence: its length and its elements. -/
def seqData {α : Type} (f : α → List Datum) (l : List α) : List Datum := .int l.length :: l.flatMap f

/-- `LexEntry::serialize` (src/lexentry.h:28-34), writing. -/
def entryData (e : LexEntry) : List Datum :=
  [.text e.word, .text e.stdword] ++ seqData (fun t => [.int t.code]) e.type ++
    seqData (fun t => [.int t.code]) e.attached

/-- `ar << lex_`. -/
def mapData (m : List (Str × List LexEntry)) : List Datum :=
  seqData (fun (a : Str × List LexEntry) => .text a.1 :: seqData entryData a.2) m

/-- `Lexicon::save` (src/lexicon.h:53-64). -/
def lexData (l : Lexicon) : List Datum :=
  [.text l.name, .int (langCode l.lang), .text l.locale] ++ mapData l.lex ++
    [.text l.regex_, .text l.regexPrefix, .text l.regexSuffix, .text l.md5in]

/-- The signature of an archive, the version of the library, tracking and the class version. -/
def header (lib version : Nat) : List Datum := [.text c!"serialization::archive", .int lib, .int 0, .int version]

/-- `oa << lex` (src/as_wrapper.cpp:657-660); `LEXICON_ARCHIVE_VERSION` is 2 (src/lexicon.h:33). -/
def save (lib : Nat) (l : Lexicon) : Str := writeAll (header lib 2 ++ lexData l)

/-! ### Reading -/

/-- The digits of a number. -/
def readDigits (s : Str) : Option (Nat × Str) :=
  match s.takeWhile Char.isDigit with
  | [] => none
  | d :: ds => some (Nat.ofDigitChars 10 (d :: ds) 0, s.dropWhile Char.isDigit)

/-- `is >> n`. -/
def readInt (s : Str) : Option (Int × Str) :=
  match s.dropWhile isCSpace with
  | [] => none
  | c :: cs =>
    if c = '-' then (readDigits cs).map (fun r => (-(r.1 : Int), r.2))
    else (readDigits (c :: cs)).map (fun r => ((r.1 : Int), r.2))

/-- `s.resize(n); is.read(&s[0], n)`: so many bytes. Boost does not look whether they were there; what is missing
stays zero. The stream is then at its end, where reading a number fails. -/
def takeBytes : Nat → Str → Option (Str × Str)
  | n, [] => some (List.replicate n '\x00', [])
  | n, c :: cs =>
    if n = 0 then some ([], c :: cs)
    else if c.utf8Size ≤ n then (takeBytes (n - c.utf8Size) cs).map (fun r => (c :: r.1, r.2))
    else none

/-- `ar >> s`: the length, one character skipped, the string. -/
def readText (s : Str) : Option (Str × Str) :=
  match readInt s with
  | none => none
  | some (n, s) => takeBytes n.toNat s.tail

/-- So many elements. -/
def readN {α : Type} (f : Str → Option (α × Str)) : Nat → Str → Option (List α × Str)
  | 0, s => some ([], s)
  | n + 1, s =>
    match f s with
    | none => none
    | some (a, s) =>
      match readN f n s with
      | none => none
      | some (as, s) => some (a :: as, s)

/-- A sequence: its length and its elements. -/
def readSeq {α : Type} (f : Str → Option (α × Str)) (s : Str) : Option (List α × Str) :=
  match readInt s with
  | none => none
  | some (n, s) => readN f n.toNat s

/-- An enumerator given by its value. -/
def readEnum {α : Type} (code : α → Int) (all : List α) (s : Str) : Option (α × Str) :=
  match readInt s with
  | none => none
  | some (n, s) => (all.find? (fun a => code a = n)).map (fun a => (a, s))

/-- `LexEntry::serialize` (src/lexentry.h:28-34), reading; the elements of the sets are inserted. -/
def readEntry (s : Str) : Option (LexEntry × Str) :=
  match readText s with
  | none => none
  | some (word, s) =>
    match readText s with
    | none => none
    | some (stdword, s) =>
      match readSeq (readEnum InType.code InType.all) s with
      | none => none
      | some (ts, s) =>
        match readSeq (readEnum Attach.code [.DET_PRE, .DET_SUF, .ATT_PRE, .ATT_SUF]) s with
        | none => none
        | some (as, s) =>
          some ({ word, stdword, type := ts.foldl (fun S t => setInsert InType.code t S) []
                  attached := as.foldl (fun S t => setInsert Attach.code t S) [] }, s)

/-- An element of the map. -/
def readPair (s : Str) : Option ((Str × List LexEntry) × Str) :=
  match readText s with
  | none => none
  | some (k, s) =>
    match readSeq readEntry s with
    | none => none
    | some (es, s) => some ((k, es), s)

/-- `map::insert`: nothing if the key is present. -/
def mapInsert (m : List (Str × List LexEntry)) (a : Str × List LexEntry) : List (Str × List LexEntry) :=
  match omFind a.1 m with
  | some _ => m
  | none => omSet a.1 a.2 m

/-- `Lexicon::load` (src/lexicon.h:40-51) after the check of the version. -/
def readLexicon (s : Str) : Option Lexicon :=
  match readText s with
  | none => none
  | some (name, s) =>
    match readEnum langCode Lang.all s with
    | none => none
    | some (lang, s) =>
      match readText s with
      | none => none
      | some (locale, s) =>
        match readSeq readPair s with
        | none => none
        | some (as, s) =>
          match readText s with
          | none => none
          | some (regex_, s) =>
            match readText s with
            | none => none
            | some (regexPrefix, s) =>
              match readText s with
              | none => none
              | some (regexSuffix, s) =>
                match readText s with
                | none => none
                | some (md5in, _) =>
                  some { name, lang, locale, lex := as.foldl mapInsert [], regex_, regexPrefix, regexSuffix, md5in }

/-- `ia >> lexicon`: the class information; Boost rejects a version above that of the program, `load` one
below (src/lexicon.h:41-42). -/
def readObject (s : Str) : Wrapper.Archive :=
  match readInt s with
  | none => .notArchive
  | some (_, s) =>
    match readInt s with
    | none => .notArchive
    | some (version, s) =>
      if version > 2 then .notArchive
      else if version < 2 then .recompile
      else
        match readLexicon s with
        | none => .notArchive
        | some l => .lexicon l

/-- `text_iarchive ia(iss); ia >> lexicon` (src/as_wrapper.cpp:63-65, 307-309, 422-424, 569-571) for version `lib` of the
library. -/
def load (lib : Nat) (s : Str) : Wrapper.Archive :=
  match readText s with
  | none => .notArchive
  | some (sig, s) =>
    if sig ≠ c!"serialization::archive" then .notArchive
    else
      match readInt s with
      | none => .notArchive
      | some (v, s) => if v > lib then .notArchive else readObject s

/-! ### Compiling -/

/-- `serialize_lexicon` (src/as_wrapper.cpp:641-686). -/
def serializeLexicon (icu : Icu) (lexWhat : Lexicon.Error → Str) (lib : Nat) (text : Str) : Wrapper.Ret Str :=
  match Lexicon.initialize icu c!"query-lex" text with
  | .error e => ⟨none, some (Wrapper.cstr (lexWhat e))⟩
  | .ok l =>
    let l := l.regex.1
    let l := l.regexPrefixAtt.1
    let l := l.regexSuffixAtt.1
    let out := save lib l
    if out.length = 0 then ⟨none, some c!"Compiled lexicon should not be size=0!"⟩
    else ⟨some (Wrapper.cstr out), none⟩

/-- What an SQL function does: return a value or report an error. -/
inductive Sql (α : Type) where
  | value (a : α)
  | error (msg : Str)
deriving DecidableEq, Repr

/-- `as_compile_lexicon` (src/address_standardizer.c:112-135). -/
def asCompileLexicon (icu : Icu) (lexWhat : Lexicon.Error → Str) (lib : Nat) (text : Str) : Sql Str :=
  match serializeLexicon icu lexWhat lib text with
  | ⟨_, some m⟩ => .error (c!"std_standardize threw an error: " ++ m)
  | ⟨some c, none⟩ => .value c
  | ⟨none, none⟩ => .error c!"lexicon failed to compile!"

end Archive
end AS
