import Verif.Model.Str
/-
Model of tools/load-lex-gmr-files, the script that makes the statements by which lexicons and grammars are put into the table
`as_config` (called by src/Makefile.pg:65-66 and tools/getting-started.sh:19).

Simplifications: file names are such that the shell reads them as one word, also without quotes around them; `grep` takes the
files for text; messages on the standard error are not modelled.
-/
namespace AS
namespace Tools

/-- A file found: the name of the lexicon without directory and `.lex`, its text, and the text of the grammar beside it if there
is one (tools/load-lex-gmr-files:68-71 and 91-99). -/
structure Source where
  country : Str
  lexicon : Str
  grammar : Option Str
deriving DecidableEq, Repr

/-- `s/'/''/g` (tools/load-lex-gmr-files:100-101). -/
def dupQuotes : Str → Str
  | [] => []
  | c :: s => if c = '\'' then '\'' :: '\'' :: dupQuotes s else c :: dupQuotes s

/-- Whether a text is found in a line, as `grep` does for a pattern of plain letters (tools/load-lex-gmr-files:102). -/
def found (p : Str) : Str → Bool
  | [] => p.isEmpty
  | c :: s => p.isPrefixOf (c :: s) || found p s

/-- What `grep LEXICON:` prints: the lines with that text, each with a newline, the last one also if it has none in the file
(tools/load-lex-gmr-files:102). `line` is the part of the current line already read, in reverse. -/
def grepLexicon (line : Str) : Str → Str
  | [] => if found c!"LEXICON:" line.reverse then line.reverse ++ ['\n'] else []
  | c :: s =>
    if c = '\n' then (if found c!"LEXICON:" line.reverse then line.reverse ++ ['\n'] else []) ++ grepLexicon [] s
    else grepLexicon (c :: line) s

/-- `chomp` (tools/load-lex-gmr-files:103). -/
def chomp (s : Str) : Str := if s.getLast? = some '\n' then s.dropLast else s

/-- `(split(/\t/, $head))[3]`; without such a field, nothing is printed for it (tools/load-lex-gmr-files:104). -/
def fieldThree : Nat → Str → Str
  | _, [] => []
  | 0, c :: s => if c = '\t' then [] else c :: fieldThree 0 s
  | n + 1, c :: s => fieldThree (if c = '\t' then n else n + 1) s

/-- `s/^[^_]+_//` (tools/load-lex-gmr-files:105). -/
def dropLang (s : Str) : Str :=
  match s.takeWhile (· ≠ '_'), s.dropWhile (· ≠ '_') with
  | _ :: _, _ :: r => r
  | _, _ => s

/-- `lc`, on bytes (tools/load-lex-gmr-files:106). -/
def lc (s : Str) : Str := s.map (fun c => if 'A'.toNat ≤ c.toNat ∧ c.toNat ≤ 'Z'.toNat then Char.ofNat (c.toNat + 32) else c)

/-- The value of `$head` (tools/load-lex-gmr-files:102-106). -/
def countryCode (lexicon : Str) : Str := lc (dropLang (fieldThree 3 (chomp (grepLexicon [] lexicon))))

/-- The beginning of the statement, up to the first constant (tools/load-lex-gmr-files:107). -/
def insertHead : Str :=
  c!"insert into as_config (countrycode, countryname, " ++ c!"dataset, lexicon, grammar, filter) values ( '"

/-- `loadFile`; without a grammar nothing is printed (tools/load-lex-gmr-files:90-112). -/
def loadFile (dataset : Str) (f : Source) : Str :=
  match f.grammar with
  | none => []
  | some g =>
    insertHead ++ (countryCode f.lexicon ++
    (c!"', '" ++ (f.country ++ (c!"', '" ++ (dataset ++ (c!"', '" ++ (dupQuotes f.lexicon ++ (c!"', '" ++ (dupQuotes g ++
    c!"', 'PUNCT,SPACE,DASH' );\n")))))))))

/-- `createTable` (tools/load-lex-gmr-files:73-88). -/
def createTable : Str :=
  c!"drop table if exists as_config cascade;\n" ++ c!"create table as_config (\n" ++
  c!"    id serial not null primary key,\n" ++ c!"    countrycode char(2),\n" ++ c!"    countryname text,\n" ++
  c!"    dataset text,\n" ++ c!"    lexicon text,\n" ++ c!"    clexicon text,\n" ++ c!"    grammar text,\n" ++
  c!"    filter text\n" ++ c!");\n"

/-- What the script prints (tools/load-lex-gmr-files:51-62); `create` is the option `-c`, `files` are the files in the order
they are found. -/
def script (create : Bool) (dataset : Str) (files : List Source) : Str :=
  c!"set client_encoding to 'utf8';\nbegin;\n" ++ (if create && !files.isEmpty then createTable else []) ++
  files.flatMap (loadFile dataset) ++
  c!"update as_config set clexicon=as_compile_lexicon(lexicon);\n" ++
  c!"create index as_config_countrycode_idx " ++ c!"on as_config using btree (countrycode);\n" ++
  c!"commit;\nanalyze as_config;\n"

end Tools
end AS
