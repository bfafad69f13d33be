import Verif.Model.PagcLex
/-
Model of tools/compare-lexicon, the script that is to report the entries of one lexicon that another one has not.

Simplifications: both files are named and can be opened; a line is read with its newline already taken off.
-/
namespace AS
namespace CompareLex

/-- `\s` in a pattern, for bytes. -/
def perlSpace (c : Char) : Bool := c == ' ' || (9 ≤ c.toNat && c.toNat ≤ 13)

/-- `/^\s*$|^\s*#/` (tools/compare-lexicon:18 and 45). -/
def skip (line : Str) : Bool :=
  match line.dropWhile perlSpace with
  | [] => true
  | c :: _ => c == '#'

/-- A hash of lists of lists of fields, `%a` (tools/compare-lexicon:12). -/
abbrev Hash := List (Str × List (List Str))

/-- `push @{$a{k}}, v`. -/
def Hash.push (h : Hash) (k : Str) (v : List Str) : Hash :=
  if (h.lookup k).isSome then h.map (fun e => if e.1 = k then (e.1, e.2 ++ [v]) else e) else h ++ [(k, [v])]

/-- The fields of an entry line, without the tag (tools/compare-lexicon:30-32 and 57-59). -/
def lineFields (line : Str) : List Str :=
  match Pagc.tabFields line with
  | f :: fs => if f = c!"LEXENTRY:" then fs else f :: fs
  | [] => []

/-- The text of the message with which the script ends (tools/compare-lexicon:26 and 53). -/
def syntaxError (line file : Str) : Str := c!"ERROR: '" ++ line ++ c!"' file syntax error processing '" ++ file ++ c!"'!\n"

/-- The first file is read; `state` says whether the header has been seen (tools/compare-lexicon:16-38). The key of the hash is the
word `key` (line 33), not the variable of that name. -/
def readA (file : Str) : Bool → Hash → List Str → Except Str Hash
  | _, h, [] => .ok h
  | state, h, line :: ls =>
    if skip line then readA file state h ls
    else if state = false then
      if c!"LEXICON:".isPrefixOf line then readA file true h ls else .error (syntaxError line file)
    else readA file true (h.push c!"key" ((lineFields line).drop 1)) ls

/-- The second file is read, and what is printed (tools/compare-lexicon:41-68), with the same key (line 60). -/
def readB (file : Str) (h : Hash) : Bool → Str → List Str → Except Str Str
  | _, out, [] => .ok out
  | state, out, line :: ls =>
    if skip line then readB file h state out ls
    else if state = false then
      if c!"LEXICON:".isPrefixOf line then readB file h true out ls else .error (syntaxError line file)
    else readB file h true (if (h.lookup c!"key").isSome then out else out ++ line ++ c!"\n") ls

/-- The script: what it prints, or the message with which it ends (tools/compare-lexicon:9-68). The second file is read only
if the first one was in order. -/
def report (fa : Str) (a : List Str) (fb : Str) (b : List Str) : Except Str Str :=
  match readA fa false [] a with
  | .error e => .error e
  | .ok h => readB fb h false [] b

end CompareLex
end AS
