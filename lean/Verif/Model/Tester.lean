import Verif.Model.Archive
/-
Model of the command-line programs of src/tester that are built by its Makefile and show what the classes do:
`t2` (src/tester/t2.cpp), `t4` (src/tester/t4.cpp), `t5` (src/tester/t5.cpp), `compile-lexicon`
(src/tester/compile-lexicon.cpp), `read-dump-grammar` (src/tester/read-dump-grammar.cpp).

What is written to the standard output is a list of pieces, each ended by a line feed. Left out: the lines with
times and the two lines with counters (`Timer: …`, `Stats: …`). A file is its contents, or `none` if it cannot be
opened; reading does not fail. Arguments contain no NUL (they are C strings).
-/
namespace AS
namespace Tester
open Wrapper

variable {F D : Type}

/-- How a program ends. -/
inductive Finish where
  /-- `return` from `main` -/
  | code (n : Nat)
  /-- an exception that is not caught: `std::terminate` -/
  | terminate
  | undefined
deriving DecidableEq, Repr

/-- What a run leaves: the pieces written to standard output and to standard error, the file written, the end. -/
structure Run where
  out : List Str := []
  err : List Str := []
  file : Option (Str × Str) := none
  fin : Finish
deriving DecidableEq, Repr

/-- More output before that of a run. -/
def Run.after (out : List Str) (r : Run) : Run := { r with out := out ++ r.out }

/-- What the programs get from outside besides the libraries: the files, and the digest of a text. -/
structure World where
  files : Str → Option Str
  digest : Str → Str

/-! ### t2 -/

/-- Loading the lexicon (src/tester/t2.cpp:92-114). -/
def t2Lexicon (env : Env F D) (text : Str) : List Str × Outcome Lexicon :=
  match env.archive text with
  | .lexicon l => ([], .ok l)
  | .recompile => ([], .throws c!"Re-compile-lexicon")
  | .notArchive =>
    ([c!"Load from serialized failed! Trying to load lexicon."],
      match Lexicon.initialize env.icu c!"query-lex" text with
      | .ok l => .ok l
      | .error e => .throws (env.lexWhat e))

/-- The line of dashes (src/tester/t2.cpp:152, 156). -/
def dashes : Str := c!"-------------------------------"

/-- The longer line of dashes (src/tester/t2.cpp:240). -/
def longDashes : Str := c!"-----------------------------------------------------"

/-- Printing the token lists (src/tester/t2.cpp:151-156). -/
def t2Phrases (phrases : List (List Token)) : List Str :=
  phrases.flatMap (fun phrase => dashes :: phrase.map Token.print) ++ [dashes]

/-- `lex.standardize( token )` for each token (src/tester/t2.cpp:234-237). -/
def standardizeEach (l : Lexicon) : List Token → Option (List Token)
  | [] => some []
  | t :: ts =>
    match l.standardize t with
    | none => none
    | some t =>
      match standardizeEach l ts with
      | none => none
      | some ts => some (t :: ts)

/-- `sortByScoresDesc` (src/tester/t2.cpp:35-37). -/
def sortByScoresDesc (dops : FloatOps D) (lhs rhs : MatchResult D) : Bool := dops.lt rhs.score lhs.score

/-- One row of the listing (src/tester/t2.cpp:249-250). -/
def t2Row (dops : FloatOps D) (t : MatchResult D) : Str :=
  t.matched ++ c!", " ++ dops.print t.score ++ c!", " ++ dops.print t.nrules

/-- The `catch` clauses of the second `try` (src/tester/t2.cpp:253-260) for a `runtime_error`. -/
def t2Runtime (what : Str) : Run := { out := [c!"Runtime Error: " ++ what], fin := .code 1 }

/-- Listing all matches (src/tester/t2.cpp:240-250). -/
def t2All (env : Env F D) (g : Grammar F) (phrases : List (List Token)) : Run :=
  match searchAndReclassAll g env.dops env.widen phrases with
  | .undefined => { fin := .undefined }
  | .throws m => t2Runtime m
  | .ok toks =>
    if strictWeakOn (sortByScoresDesc env.dops) toks then
      { out := (env.sort (sortByScoresDesc env.dops) toks).map (t2Row env.dops), fin := .code 0 }
    else { fin := .undefined }

/-- The search (src/tester/t2.cpp:210-250). -/
def t2Search (env : Env F D) (l : Lexicon) (g : Grammar F) (phrases : List (List Token)) : Run :=
  match searchAndReclassBestOf g env.fo phrases with
  | .undefined => { fin := .undefined }
  | .throws m => t2Runtime m
  | .ok b =>
    if env.fo.lt b.score env.fo.zero then
      { out := [c!"#### Failed to find a match (searchAndReclassBest)(" ++ env.fo.print b.score ++ c!")"]
        fin := .code 1 }
    else
      match standardizeEach l b.tokens with
      | none => { out := [c!"bestCost: " ++ env.fo.print b.score], fin := .undefined }
      | some ts =>
        (t2All env g phrases).after
          ([c!"bestCost: " ++ env.fo.print b.score] ++ ts.map Token.print ++
            [c!"matched: " ++ b.matched.getD [] ++ c!", " ++ env.fo.print b.nrules, longDashes])

/-- Loading the grammar and what follows (src/tester/t2.cpp:161-260). Of the exceptions of the loader only
`std::out_of_range` is no `runtime_error`. -/
def t2Grammar (env : Env F D) (w : World) (l : Lexicon) (gfile : Str) (phrases : List (List Token)) : Run :=
  match w.files gfile with
  | none => { out := [c!"ERROR: failed to open '" ++ gfile ++ c!"' for read!"], fin := .code 1 }
  | some text =>
    match Grammar.initialize env.u.toCharTables env.fo text with
    | .error .outOfRange => { out := [c!"Error: Unknown exception caught!"], fin := .code 1 }
    | .error e => t2Runtime (env.gramWhat e)
    | .ok g =>
      match g.status with
      | .CHECK_FATAL => { out := [c!"FATAL loading grammar: " ++ g.issues], fin := .code 1 }
      | .CHECK_WARN =>
        (t2Search env l g phrases).after
          [c!"WARNING loading grammar: " ++ g.issues, c!"Grammar md5: " ++ w.digest g.md5in]
      | .CHECK_OK =>
        (t2Search env l g phrases).after [c!"OK loading grammar: " ++ g.issues, c!"Grammar md5: " ++ w.digest g.md5in]

/-- From the lexicon on (src/tester/t2.cpp:66-261). Exceptions up to the second `try` are not caught. -/
def t2Main (env : Env F D) (w : World) (lfile gfile filter ustr : Str) : Run :=
  match w.files lfile with
  | none => { out := [c!"ERROR: failed to open '" ++ lfile ++ c!"' for read!"], fin := .code 1 }
  | some text =>
    Run.after [c!"t.tellg() = " ++ Lexicon.natDigits (byteLen text)] <|
    match t2Lexicon env text with
    | (o, .undefined) => { out := o, fin := .undefined }
    | (o, .throws _) => { out := o, fin := .terminate }
    | (o, .ok l) =>
      Run.after (o ++ [c!"Lexicon md5: " ++ w.digest l.md5in]) <|
      match Tokenizer.getTokens env.icu env.u l (lexRe env l) (InType.asType filter) ustr with
      | none => { fin := .undefined }
      | some ts =>
        match Tokenizer.getAltTokens env.u l ts with
        | none => { fin := .undefined }
        | some alts => (t2Grammar env w l gfile (ts :: alts)).after (t2Phrases (ts :: alts))

/-- `main` of `t2` after the count of arguments (src/tester/t2.cpp:47-261). -/
def t2Run (env : Env F D) (w : World) (lfile gfile str filter : Str) : Run :=
  let nstr := env.icu.norm str
  let ustr := env.icu.upper c!"en" nstr
  (t2Main env w lfile gfile filter ustr).after
    [c!"Address: '" ++ str ++ c!"'", c!"Normalized: '" ++ nstr ++ c!"'", c!"UpperCase: '" ++ ustr ++ c!"'"]

/-- `main` of `t2` (src/tester/t2.cpp:40-262), given the arguments after the name of the program. -/
def t2 (env : Env F D) (w : World) : List Str → Run
  | [lfile, gfile, str] => t2Run env w lfile gfile str c!"PUNCT,SPACE,EMDASH,STOPWORD"
  | [lfile, gfile, str, filter] => t2Run env w lfile gfile str filter
  | _ => { err := [c!"Usage: t2 lex.txt grammar.txt 'address to parse' ['filter']"], fin := .code 1 }

/-! ### t4 and t5 -/

/-- `Lexicon::Lexicon( name, file )` (src/lexicon.cpp:57-64). The stream of a file that cannot be opened has
failed: the line read is empty and the test of the stream (src/lexicon.cpp:91-92) throws. -/
def lexiconOfFile (icu : Icu) (w : World) (name file : Str) : Except Lexicon.Error Lexicon :=
  match w.files file with
  | some text => Lexicon.initialize icu name text
  | none => .error .invalidFileFormat

/-- The three patterns (src/tester/t4.cpp:50-52, src/tester/t5.cpp:51-53). -/
def patterns (l : Lexicon) : List Str :=
  [c!"Lexicon regex: '" ++ l.regex.2 ++ c!"'\n", c!"Lexicon regexPrefixAtt: '" ++ l.regexPrefixAtt.2 ++ c!"'\n",
    c!"Lexicon regexSuffixAtt: '" ++ l.regexSuffixAtt.2 ++ c!"'\n"]

/-- `main` of `t4` (src/tester/t4.cpp:25-64); further arguments are ignored. -/
def t4 (env : Env F D) (w : World) : List Str → Run
  | file :: str :: _ =>
    let nstr := env.icu.norm str
    let ustr := env.icu.upper c!"en" nstr
    Run.after [c!"Address: '" ++ str ++ c!"'", c!"Normalized: '" ++ nstr ++ c!"'", c!"UpperCase: '" ++ ustr ++ c!"'"] <|
    match lexiconOfFile env.icu w c!"test-lex" file with
    | .error _ => { fin := .terminate }
    | .ok l =>
      Run.after (patterns l) <|
      match Tokenizer.getTokens env.icu env.u l (lexRe env l) [] ustr with
      | none => { fin := .undefined }
      | some ts => { out := ts.map Token.print, fin := .code 0 }
  | _ => { err := [c!"Usage: t4 lex.txt 'address to parse'"], fin := .code 1 }

/-- `main` of `t5` (src/tester/t5.cpp:26-65); further arguments are ignored. `tokenizer.addFilter` adds to the
empty filter. -/
def t5 (env : Env F D) (w : World) : List Str → Run
  | file :: str :: _ =>
    let nstr := env.icu.norm str
    let ustr := env.icu.upper c!"en" nstr
    Run.after [c!"Lexicon: '" ++ file ++ c!"'", c!"Address: '" ++ str ++ c!"'", c!"Normalized: '" ++ nstr ++ c!"'",
      c!"UpperCase: '" ++ ustr ++ c!"'"] <|
    match lexiconOfFile env.icu w c!"test-lex" file with
    | .error _ => { fin := .terminate }
    | .ok l =>
      Run.after (l.print :: patterns l) <|
      match Tokenizer.getTokens env.icu env.u l (lexRe env l) [.PUNCT] ustr with
      | none => { fin := .undefined }
      | some ts => { out := (c!"tokens.size() = " ++ Lexicon.natDigits ts.length) :: ts.map Token.print, fin := .code 0 }
  | _ => { err := [c!"Usage: t2 lex.txt 'address to parse'"], fin := .code 1 }

/-! ### compile-lexicon and read-dump-grammar -/

/-- `main` of `compile-lexicon` (src/tester/compile-lexicon.cpp:27-55), `writable` telling which files can be
created. The archive is not ended by a NUL. -/
def compileLexicon (icu : Icu) (lib : Nat) (w : World) (writable : Str → Bool) : List Str → Run
  | file :: target :: _ =>
    match lexiconOfFile icu w c!"lexicon" file with
    | .error _ => { fin := .terminate }
    | .ok l =>
      let l := l.regex.1
      let l := l.regexPrefixAtt.1
      let l := l.regexSuffixAtt.1
      if writable target then { file := some (target, Archive.save lib l), fin := .code 0 }
      else { err := [c!"ERROR: failed to create '" ++ target ++ c!"' for write!"], fin := .code 1 }
  | _ => { err := [c!"Usage: compile-lexicon test.lex test.clex"], fin := .code 1 }

/-- `Grammar::Grammar( file )` (src/grammar.cpp:31-38). The loop does not run for the stream of a file that
cannot be opened (src/grammar.cpp:63): only the check of an empty grammar is left. -/
def grammarOfFile (ct : CharTables) (fo : FloatOps F) (w : World) (file : Str) : Except GrammarError (Grammar F) :=
  match w.files file with
  | some text => Grammar.initialize ct fo text
  | none =>
    match updatePointers fo ({} : Grammar F) with
    | .error e => .error e
    | .ok g => if g.status = .CHECK_FATAL then .error (.fatal g.issues) else .ok g

/-- `main` of `read-dump-grammar` (src/tester/read-dump-grammar.cpp:22-36). -/
def readDumpGrammar (ct : CharTables) (fo : FloatOps F) (w : World) : List Str → Run
  | file :: _ =>
    match grammarOfFile ct fo w file with
    | .error _ => { fin := .terminate }
    | .ok g => { out := [g.print fo], fin := .code 0 }
  | _ => { err := [c!"Usage: read-dump-grammar test.grammar"], fin := .code 1 }

end Tester
end AS
