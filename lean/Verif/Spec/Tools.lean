import Verif.Spec.Lexicon
import Verif.Spec.Further
import Verif.Model.Tools
/-
What the statements in a file mean to the data base, for the statements that tools/load-lex-gmr-files prints: how psql and
PostgreSQL read constants and separate statements, and what the statements do to the table `as_config` inside and outside of a
transaction. This is a contract of PostgreSQL (no file of /repo), with `standard_conforming_strings` on as it is by default.

The column `id` is left out, and the order of the rows, which is that of insertion here, has no meaning in the data base.
-/
namespace AS
namespace Load

/-- A character outside of constants, a constant, or the beginning of a constant that does not end. -/
inductive Tok
  | chr (c : Char)
  | const (s : Str)
  | unended
deriving DecidableEq, Repr

/-- The text as the data base reads it: `''` inside a constant is one quote. The first argument is the part of the constant
already read, in reverse. -/
def lexGo : Option Str → Str → List Tok
  | none, [] => []
  | some _, [] => [.unended]
  | none, c :: s => if c = '\'' then lexGo (some []) s else .chr c :: lexGo none s
  | some b, [c] => if c = '\'' then [.const b.reverse] else [.unended]
  | some b, c :: d :: s =>
    if c = '\'' then
      if d = '\'' then lexGo (some ('\'' :: b)) s else .const b.reverse :: .chr d :: lexGo none s
    else lexGo (some (c :: b)) (d :: s)

def lex (s : Str) : List Tok := lexGo none s

/-- The parts between semicolons. -/
def splitStmts : List Tok → List (List Tok)
  | [] => [[]]
  | t :: ts =>
    if t = .chr ';' then [] :: splitStmts ts
    else
      match splitStmts ts with
      | [] => [[t]]
      | x :: xs => (t :: x) :: xs

/-- Without the line ends before it. -/
def trim (ts : List Tok) : List Tok := ts.dropWhile (· = .chr '\n')

/-- The statements of a text. -/
def stmts (s : Str) : List (List Tok) := ((splitStmts (lex s)).map trim).filter (· ≠ [])

/-- A text without constants. -/
def plain (s : Str) : List Tok := s.map .chr

/-- The values of an insert statement, in the order of the columns named. -/
structure Values where
  code : Str
  country : Str
  dataset : Str
  lexicon : Str
  grammar : Str
  filter : Str
deriving DecidableEq, Repr

/-- The statements. -/
inductive Stmt
  | encoding
  | begin
  | dropTable
  | createTable
  | insert (v : Values)
  | compile
  | createIndex
  | commit
  | analyze
deriving DecidableEq, Repr

/-- The columns of the insert statement. -/
def insertText : Str := c!"insert into as_config (countrycode, countryname, " ++ c!"dataset, lexicon, grammar, filter) values ( "

/-- `insert into as_config (...) values ( ... )`. -/
def insertToks (v : Values) : List Tok :=
  plain insertText ++
    [.const v.code] ++ plain c!", " ++ [.const v.country] ++ plain c!", " ++ [.const v.dataset] ++ plain c!", " ++
    [.const v.lexicon] ++ plain c!", " ++ [.const v.grammar] ++ plain c!", " ++ [.const v.filter] ++ plain c!" )"

/-- The constants of a statement. -/
def consts (ts : List Tok) : List Str := ts.filterMap fun | .const s => some s | _ => none

/-- `create table as_config` with its columns. -/
def tableText : Str :=
  c!"create table as_config (\n" ++ c!"    id serial not null primary key,\n" ++ c!"    countrycode char(2),\n" ++
  c!"    countryname text,\n" ++ c!"    dataset text,\n" ++ c!"    lexicon text,\n" ++ c!"    clexicon text,\n" ++
  c!"    grammar text,\n" ++ c!"    filter text\n" ++ c!")"

/-- `create index`. -/
def indexText : Str := c!"create index as_config_countrycode_idx " ++ c!"on as_config using btree (countrycode)"

/-- Which statement it is; anything else is an error. -/
def meaning (ts : List Tok) : Option Stmt :=
  if ts = plain c!"set client_encoding to " ++ [.const c!"utf8"] then some .encoding
  else if ts = plain c!"begin" then some .begin
  else if ts = plain c!"drop table if exists as_config cascade" then some .dropTable
  else if ts = plain tableText then some .createTable
  else if ts = plain c!"update as_config set clexicon=as_compile_lexicon(lexicon)" then some .compile
  else if ts = plain indexText then some .createIndex
  else if ts = plain c!"commit" then some .commit
  else if ts = plain c!"analyze as_config" then some .analyze
  else
    match consts ts with
    | [a, b, c, d, e, f] => if ts = insertToks ⟨a, b, c, d, e, f⟩ then some (.insert ⟨a, b, c, d, e, f⟩) else none
    | _ => none

/-- A row of the table. -/
structure Row where
  code : Str
  country : Str
  dataset : Str
  lexicon : Str
  clexicon : Option Str
  grammar : Str
  filter : Str
deriving DecidableEq, Repr

/-- The table if it exists, and whether it has the index. -/
structure Db where
  table : Option (List Row)
  index : Bool
deriving DecidableEq, Repr

/-- The value fits into `char(2)`: what is beyond two characters is blank. -/
def Fits (s : Str) : Prop := ∀ c ∈ s.drop 2, c = ' '

instance (s : Str) : Decidable (Fits s) := inferInstanceAs (Decidable (∀ c ∈ s.drop 2, c = ' '))

/-- A value of `char(2)`. -/
def char2 (s : Str) : Str := (s ++ c!"  ").take 2

/-- The row an insert statement adds; the column not named is null. -/
def Values.row (v : Values) : Row := ⟨char2 v.code, v.country, v.dataset, v.lexicon, none, v.grammar, v.filter⟩

/-- All rows compiled; `comp` is what the function `as_compile_lexicon` gives, `none` if it raises an error. -/
def compileRows (comp : Str → Option Str) : List Row → Option (List Row)
  | [] => some []
  | r :: rs =>
    match comp r.lexicon, compileRows comp rs with
    | some c, some rs => some ({ r with clexicon := some c } :: rs)
    | _, _ => none

/-- What a statement does to the data base; `none` is an error. -/
def exec (comp : Str → Option Str) : Stmt → Db → Option Db
  | .encoding, d => some d
  | .begin, d => some d
  | .commit, d => some d
  | .dropTable, _ => some ⟨none, false⟩
  | .createTable, d => if d.table = none then some ⟨some [], false⟩ else none
  | .insert v, d =>
    match d.table with
    | none => none
    | some rs => if Fits v.code then some { d with table := some (rs ++ [v.row]) } else none
  | .compile, d =>
    match d.table with
    | none => none
    | some rs => (compileRows comp rs).map fun rs => { d with table := some rs }
  | .createIndex, d => if d.table = none ∨ d.index then none else some { d with index := true }
  | .analyze, d => if d.table = none then none else some d

/-- A connection: what is committed, and the transaction if there is one: what it sees, or `none` after an error. -/
structure Session where
  db : Db
  tx : Option (Option Db)
deriving DecidableEq, Repr

/-- One statement: after an error in a transaction nothing but its end is done, and its end undoes it. -/
def step (comp : Str → Option Str) (s : Session) (st : Option Stmt) : Session :=
  match st, s.tx with
  | some .begin, none => { s with tx := some (some s.db) }
  | some .begin, some _ => s
  | some .commit, none => s
  | some .commit, some none => { s with tx := none }
  | some .commit, some (some d) => ⟨d, none⟩
  | some st, none => { s with db := (exec comp st s.db).getD s.db }
  | some st, some d => { s with tx := some (d.bind (exec comp st)) }
  | none, none => s
  | none, some _ => { s with tx := some none }

/-- What is committed after a file has been given to `psql -f`. -/
def psql (comp : Str → Option Str) (text : Str) (d : Db) : Db :=
  (((stmts text).map meaning).foldl (step comp) ⟨d, none⟩).db

/-- The one line with the text `LEXICON:`. -/
def OneHeader (text h : Str) : Prop :=
  ∃ pre post, splitOn '\n' text = pre ++ h :: post ∧ c!"LEXICON:" <:+: h ∧ ∀ l ∈ pre ++ post, ¬ c!"LEXICON:" <:+: l

/-- ASCII letters in lower case. -/
def lower (s : Str) : Str := s.map Char.toLower

/-- A header line whose locale is language and country, and the code of the country. -/
def HeaderCode (h code : Str) : Prop :=
  ∃ lang cc, lang ≠ [] ∧ '_' ∉ lang ∧ headerLocale h = lang ++ '_' :: cc ∧ code = lower cc

/-- The dataset, the names of the files that are loaded, and their codes, are without quotes; each lexicon has one header line,
with the code of a country. -/
def Named (dataset : Str) (files : List Tools.Source) : Prop :=
  '\'' ∉ dataset ∧ ∀ f ∈ files, f.grammar ≠ none →
    '\'' ∉ f.country ∧ ∃ h code, OneHeader f.lexicon h ∧ HeaderCode h code ∧ '\'' ∉ code

/-- The codes of the files that are loaded fit, and their lexicons are compiled without error. -/
def Accepted (comp : Str → Option Str) (f : Tools.Source) : Prop :=
  f.grammar ≠ none → comp f.lexicon ≠ none ∧ ∀ h code, OneHeader f.lexicon h → HeaderCode h code → Fits code

/-- The row for a file: the texts of the two files as they are, and the compiled lexicon. -/
structure FileRow (comp : Str → Option Str) (dataset : Str) (f : Tools.Source) (r : Row) : Prop where
  code : ∃ h code, OneHeader f.lexicon h ∧ HeaderCode h code ∧ r.code = char2 code
  country : r.country = f.country
  dataset : r.dataset = dataset
  lexicon : r.lexicon = f.lexicon
  clexicon : r.clexicon = comp f.lexicon
  grammar : f.grammar = some r.grammar
  filter : r.filter = c!"PUNCT,SPACE,DASH"

end Load
end AS
