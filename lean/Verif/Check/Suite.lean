import Verif.Props.Further
/-
What the project's own tests (src/test/*.cpp) expect, of the model: evidence that the model is faithful,
not claims. A token is printed by the code with one more field than the tests expect (src/token.cpp:66),
which is left out here. Expectations the code does not meet are named in DESIGN.md.
-/
namespace AS.Check
open Props Wrapper

/-- src/test/lex-test.txt:1-7 -/
def lexTest : Str := unlines [c!"LEXICON:\tlex-usa.txt\tENG\ten_US\t6", c!"LEXENTRY:\t°\t°\tUNITH\tATT_SUF,DET_SUF",
  c!"LEXENTRY:\tAK\tAlaska\tPROV\tDETACH", c!"LEXENTRY:\tAL\tAlabama\tPROV\tDETACH", c!"LEXENTRY:\tALLEE\tALY\tTYPE\tDET_SUF",
  c!"LEXENTRY:\tALLEY\tALY\tTYPE\tDET_SUF", c!"LEXENTRY:\tALLY\tALY\tTYPE\tDET_SUF"]

/-- The lexicon of that file. -/
def lexicon2 : Lexicon :=
  match Lexicon.initialize asciiIcu c!"text-lexicon-2" lexTest with
  | .ok l => l
  | .error _ => {}

/-- A token as the tests expect it. -/
def shown (t : Token) : Str := t.print.dropLast.dropLast

/-- The tokens of an address, printed. -/
def tokensOf (l : Lexicon) (filter : List InType) (s : Str) : Option (List Str) :=
  (Tokenizer.getTokens asciiIcu asciiU l (lexRe depthEnv l) filter s).map (·.map shown)

/-- src/test/tokenizer-test.cpp:49-71 -/
example : lexicon2.print = unlines [c!"LEXICON:\ttext-lexicon-2\tENG\ten_US\t6", c!"LEXENTRY:\tAK\tALASKA\tPROV\t",
    c!"LEXENTRY:\tAL\tALABAMA\tPROV\t", c!"LEXENTRY:\tALLEE\tALY\tTYPE\tDET_SUF", c!"LEXENTRY:\tALLEY\tALY\tTYPE\tDET_SUF",
    c!"LEXENTRY:\tALLY\tALY\tTYPE\tDET_SUF", c!"LEXENTRY:\t°\t°\tUNITH\tDET_SUF,ATT_SUF"] := by decide +kernel

/-- src/test/tokenizer-test.cpp:93-116, 189-197 -/
example : ∀ s ∈ [c!"11 Dackon Allee Podunk AL 12345", c!"11 Dackon Allee Podunk al 12345"], tokensOf lexicon2 [] s =
    some [c!"TOKEN:\t11\t\tNUMBER\tBADTOKEN\t", c!"TOKEN:\t \t\tSPACE\tBADTOKEN\t", c!"TOKEN:\tDACKON\t\tWORD\tBADTOKEN\t",
      c!"TOKEN:\t \t\tSPACE\tBADTOKEN\t", c!"TOKEN:\tALLEE\t\tTYPE\tBADTOKEN\t", c!"TOKEN:\t \t\tSPACE\tBADTOKEN\t",
      c!"TOKEN:\tPODUNK\t\tWORD\tBADTOKEN\t", c!"TOKEN:\t \t\tSPACE\tBADTOKEN\t", c!"TOKEN:\tAL\t\tPROV\tBADTOKEN\t",
      c!"TOKEN:\t \t\tSPACE\tBADTOKEN\t", c!"TOKEN:\t12345\t\tNUMBER,QUINT\tBADTOKEN\t"] := by decide +kernel

/-- src/test/tokenizer-test.cpp:118-126 -/
example : tokensOf lexicon2 [] [] = some [] := by decide +kernel

/-- src/test/tokenizer-test.cpp:128-143 -/
example : tokensOf lexicon2 [.SPACE] c!"11 Dackon Allee Podunk AL 12345" =
    some [c!"TOKEN:\t11\t\tNUMBER\tBADTOKEN\t", c!"TOKEN:\tDACKON\t\tWORD\tBADTOKEN\t", c!"TOKEN:\tALLEE\t\tTYPE\tBADTOKEN\t",
      c!"TOKEN:\tPODUNK\t\tWORD\tBADTOKEN\t", c!"TOKEN:\tAL\t\tPROV\tBADTOKEN\t",
      c!"TOKEN:\t12345\t\tNUMBER,QUINT\tBADTOKEN\t"] := by decide +kernel

/-- src/test/tokenizer-test.cpp:145-159 -/
example : tokensOf lexicon2 [.QUINT, .SPACE] c!"11 Dackon Allee Podunk al 12345" =
    some [c!"TOKEN:\t11\t\tNUMBER\tBADTOKEN\t", c!"TOKEN:\tDACKON\t\tWORD\tBADTOKEN\t", c!"TOKEN:\tALLEE\t\tTYPE\tBADTOKEN\t",
      c!"TOKEN:\tPODUNK\t\tWORD\tBADTOKEN\t", c!"TOKEN:\tAL\t\tPROV\tBADTOKEN\t"] := by decide +kernel

/-- src/test/tokenizer-test.cpp:223-249 -/
example : tokensOf {} [] c!"11 radcliff rd north chelmsford ma 01863" =
    some [c!"TOKEN:\t11\t\tNUMBER\tBADTOKEN\t", c!"TOKEN:\t \t\tSPACE\tBADTOKEN\t", c!"TOKEN:\tRADCLIFF\t\tWORD\tBADTOKEN\t",
      c!"TOKEN:\t \t\tSPACE\tBADTOKEN\t", c!"TOKEN:\tRD\t\tWORD,DOUBLE\tBADTOKEN\t", c!"TOKEN:\t \t\tSPACE\tBADTOKEN\t",
      c!"TOKEN:\tNORTH\t\tWORD\tBADTOKEN\t", c!"TOKEN:\t \t\tSPACE\tBADTOKEN\t", c!"TOKEN:\tCHELMSFORD\t\tWORD\tBADTOKEN\t",
      c!"TOKEN:\t \t\tSPACE\tBADTOKEN\t", c!"TOKEN:\tMA\t\tWORD,DOUBLE\tBADTOKEN\t", c!"TOKEN:\t \t\tSPACE\tBADTOKEN\t",
      c!"TOKEN:\t01863\t\tNUMBER,QUINT\tBADTOKEN\t"] := by decide +kernel

/-- src/test/tokenizer-test.cpp:279-294 -/
example : tokensOf {} [.QUINT, .SPACE] c!"11 radcliff rd north chelmsford ma 01863" =
    some [c!"TOKEN:\t11\t\tNUMBER\tBADTOKEN\t", c!"TOKEN:\tRADCLIFF\t\tWORD\tBADTOKEN\t", c!"TOKEN:\tRD\t\tWORD,DOUBLE\tBADTOKEN\t",
      c!"TOKEN:\tNORTH\t\tWORD\tBADTOKEN\t", c!"TOKEN:\tCHELMSFORD\t\tWORD\tBADTOKEN\t",
      c!"TOKEN:\tMA\t\tWORD,DOUBLE\tBADTOKEN\t"] := by decide +kernel

/-! ### Lexicons and entries -/

/-- src/test/lexicon-test.cpp:84-105 -/
example : Lexicon.print {} = c!"LEXICON:\t\tUNKNOWN\t\t0\n" ∧
    Lexicon.print { name := c!"test-lexicon" } = c!"LEXICON:\ttest-lexicon\tUNKNOWN\t\t0\n" := by decide +kernel

/-- src/test/lexicon-test.cpp:107-145 -/
example : lexicon2.name = c!"text-lexicon-2" ∧ lexicon2.lang = .ENG ∧ lexicon2.locale = c!"en_US" ∧
    (lexicon2.find c!"ALLEE").map LexEntry.print = [c!"LEXENTRY:\tALLEE\tALY\tTYPE\tDET_SUF"] := by decide +kernel

/-- src/test/lexicon-test.cpp:147-225 -/
def foobar : LexEntry := LexEntry.ofLine c!"LEXENTRY:\tFOOBAR\tFOOBAR\tNUMBER\tDET_PRE,DET_SUF"
def chelmsford : LexEntry := LexEntry.ofLine c!"LEXENTRY:\tCHELMSFORD\tCHELMSFORD\tWORD,CITY\tDETACH"
def lexicon3 : Lexicon := Lexicon.insert { name := c!"test-lexicon-2", lang := Lang.asLang c!"ENG", locale := c!"en_US" } foobar

example : foobar.print = c!"LEXENTRY:\tFOOBAR\tFOOBAR\tNUMBER\tDET_PRE,DET_SUF" ∧
    chelmsford.print = c!"LEXENTRY:\tCHELMSFORD\tCHELMSFORD\tWORD,CITY\t" ∧
    lexicon3.print = unlines [c!"LEXICON:\ttest-lexicon-2\tENG\ten_US\t1", c!"LEXENTRY:\tFOOBAR\tFOOBAR\tNUMBER\tDET_PRE,DET_SUF"] ∧
    (lexicon3.insert chelmsford).print = unlines [c!"LEXICON:\ttest-lexicon-2\tENG\ten_US\t2",
      c!"LEXENTRY:\tCHELMSFORD\tCHELMSFORD\tWORD,CITY\t", c!"LEXENTRY:\tFOOBAR\tFOOBAR\tNUMBER\tDET_PRE,DET_SUF"] ∧
    shown ((lexicon3.insert chelmsford).classify asciiU (Token.ofText c!"FOOBAR\tFOOBAR\t\tBADTOKEN\t") .WORD) =
      c!"TOKEN:\tFOOBAR\tFOOBAR\tNUMBER\tBADTOKEN\t" ∧
    shown ((lexicon3.insert chelmsford).classify asciiU (Token.ofText c!"TOKEN:\tFOOFOO\tFOOFOO\t\tBADTOKEN\t") .WORD) =
      c!"TOKEN:\tFOOFOO\tFOOFOO\tWORD\tBADTOKEN\t" ∧
    ((lexicon3.insert chelmsford).remove foobar).print = unlines [c!"LEXICON:\ttest-lexicon-2\tENG\ten_US\t1",
      c!"LEXENTRY:\tCHELMSFORD\tCHELMSFORD\tWORD,CITY\t"] := by decide +kernel

/-- src/test/lexentry-test.cpp:71-172 -/
example : (LexEntry.make c!"FOOBAR" c!"FOOBAR" c!"WORD" c!"DETACH").print = c!"LEXENTRY:\tFOOBAR\tFOOBAR\tWORD\t" ∧
    (LexEntry.make c!"FOOBAR" c!"FOOBAR" c!"WORD,CITY" c!"DET_PRE,DET_SUF").print =
      c!"LEXENTRY:\tFOOBAR\tFOOBAR\tWORD,CITY\tDET_PRE,DET_SUF" ∧
    (LexEntry.ofLine c!"FOOBAR\tFOOBAR\tWORD\tDETACH").print = c!"LEXENTRY:\tFOOBAR\tFOOBAR\tWORD\t" ∧
    (LexEntry.ofLine c!"LEXENTRY:\tFOOBAR\tFOOBAR\tCITY,WORD\tDET_PRE,DET_SUF").print =
      c!"LEXENTRY:\tFOOBAR\tFOOBAR\tWORD,CITY\tDET_PRE,DET_SUF" := by decide +kernel

example (e : LexEntry) (h : e = LexEntry.ofLine c!"LEXENTRY:\tFOO\tFOOBAR\tWORD,CITY\tDET_PRE,DET_SUF") :
    e.isPrefix = true ∧ e.isSuffix = true ∧ e.isAttached = false ∧ e.isDetached = true ∧
    e.isPrefixAttached = false ∧ e.isSuffixAttached = false := by subst h; decide +kernel

example (e : LexEntry) (h : e = LexEntry.ofLine c!"FOO\tFOOBAR\tWORD,CITY\tATT_PRE,DET_SUF") :
    e.print = c!"LEXENTRY:\tFOO\tFOOBAR\tWORD,CITY\tDET_SUF,ATT_PRE" ∧
    e.isPrefix = true ∧ e.isSuffix = true ∧ e.isAttached = true ∧ e.isDetached = true ∧
    e.isPrefixAttached = true ∧ e.isSuffixAttached = false := by subst h; decide +kernel

/-! ### Tokens -/

/-- src/test/token-test.cpp:71-100 -/
example : shown {} = c!"TOKEN:\t\t\t\tBADTOKEN\t" ∧
    shown (Token.ofText c!"TOKEN:\tFOOBAR\tFOOBAR\tWORD\tBADTOKEN\tDETACH") = c!"TOKEN:\tFOOBAR\tFOOBAR\tWORD\tBADTOKEN\t" ∧
    shown (Token.ofText c!"FOOBAR\tFOOBAR\tWORD\tBADTOKEN\tDETACH") = c!"TOKEN:\tFOOBAR\tFOOBAR\tWORD\tBADTOKEN\t" ∧
    shown (Token.ofText c!"TOKEN:\tFOO\tFOOBAR\tWORD,TYPE\tBADTOKEN\tDET_PRE,DET_SUF") =
      c!"TOKEN:\tFOO\tFOOBAR\tWORD,TYPE\tBADTOKEN\tDET_PRE,DET_SUF" := by decide +kernel

/-- src/test/token-test.cpp:109-136 -/
example (t : Token) (h : t = Token.ofText c!"TOKEN:\tFOO\tFOOBAR\tWORD,TYPE\tBADTOKEN\tDET_PRE,DET_SUF") :
    t.isInAnyClass [.DASH, .EMDASH, .BADTOKEN] = false ∧ t.isInAnyClass [.WORD, .DASH, .EMDASH, .BADTOKEN] = true ∧
    t.isInAnyClass [] = false ∧ t.isInAnyClass [.TYPE] = true ∧ t.isInAnyClass [.WORD, .TYPE, .EMDASH] = true := by
  subst h; decide +kernel

/-- src/test/token-test.cpp:194-249 -/
example : Token.enumerate ([c!"TOKEN:\t11\t\tNUMBER\tBADTOKEN\t", c!"TOKEN:\tRADCLIFF\t\tWORD\tBADTOKEN\t", c!"TOKEN:\tRD\t\tTYPE\tBADTOKEN\t",
      c!"TOKEN:\tNORTH\t\tDIRECT,WORD\tBADTOKEN\t", c!"TOKEN:\tCHELMSFORD\t\tWORD\tBADTOKEN\t", c!"TOKEN:\tMA\t\tPROV\tBADTOKEN\t",
      c!"TOKEN:\t01863\t\tNUMBER,QUINT\tBADTOKEN\t", c!"TOKEN:\t2313\t\tNUMBER,QUAD\tBADTOKEN\t",
      c!"TOKEN:\tUSA\t\tNATION\tBADTOKEN\t"].map Token.ofText) =
    some [[.NUMBER, .WORD, .TYPE, .WORD, .WORD, .PROV, .NUMBER, .NUMBER, .NATION],
      [.NUMBER, .WORD, .TYPE, .WORD, .WORD, .PROV, .NUMBER, .QUAD, .NATION],
      [.NUMBER, .WORD, .TYPE, .WORD, .WORD, .PROV, .QUINT, .NUMBER, .NATION],
      [.NUMBER, .WORD, .TYPE, .WORD, .WORD, .PROV, .QUINT, .QUAD, .NATION],
      [.NUMBER, .WORD, .TYPE, .DIRECT, .WORD, .PROV, .NUMBER, .NUMBER, .NATION],
      [.NUMBER, .WORD, .TYPE, .DIRECT, .WORD, .PROV, .NUMBER, .QUAD, .NATION],
      [.NUMBER, .WORD, .TYPE, .DIRECT, .WORD, .PROV, .QUINT, .NUMBER, .NATION],
      [.NUMBER, .WORD, .TYPE, .DIRECT, .WORD, .PROV, .QUINT, .QUAD, .NATION]] := by decide +kernel

/-! ### Rules, grammars, searches -/

/-- Scores that are printed as they are read. -/
def tenths : FloatOps Rat := { ratOps with print := fun x =>
  if x.den = 1 then (toString x.num).toList else c!"0." ++ (toString (x * 10).num).toList }

/-- The printed rule. -/
def ruleText (s : Str) : Str :=
  match Rule.ofLine tenths s with
  | .ok r => r.print tenths
  | _ => c!"refused"

/-- src/test/rule-test.cpp:71-124. The rules `-> -> 0.0`, `@micro @macro` and the one with two
input and three output classes are refused where the test expects an empty rule (src/rule.cpp:48-50). -/
example : Rule.print tenths (Rule.empty tenths) = c!"-> -> 0" ∧
    ruleText c!"NUMBER WORD TYPE -> HOUSE STREET SUFTYP -> 0.2" = c!"NUMBER WORD TYPE -> HOUSE STREET SUFTYP -> 0.2" ∧
    ruleText c!" NUMBER   WORD TYPE  ->  HOUSE STREET  SUFTYP -> 0.2" = c!"NUMBER WORD TYPE -> HOUSE STREET SUFTYP -> 0.2" ∧
    ruleText c!" -> -> 0.0" = c!"refused" ∧ ruleText c!"@micro @macro" = c!"refused" ∧
    ruleText c!"NUMBER WORD -> HOUSE STREET SUFTYP -> 0.2" = c!"refused" := by decide +kernel

/-- src/test/good.grammar:1-22 -/
def good : List Str := [c!"[ADDRESS]", c!"@AB @CD @EF", c!"@A @BC @DE", c!"@CD @EF", [], c!"[AB]",
  c!"NUMBER WORD -> BLDNG HOUSE -> 0.5", [], c!"[CD]", c!"TYPE QUALIF -> PREDIR QUALIF -> 0.5", [], c!"[EF]",
  c!"ROAD RR -> SUFTYP SUFDIR -> 0.5", [], c!"[A]", c!"NUMBER -> BLDNG -> 0.5", [], c!"[BC]",
  c!"WORD TYPE -> HOUSE PREDIR -> 0.5", [], c!"[DE]", c!"QUALIF ROAD -> QUALIF SUFTYP -> 0.5"]

/-- src/test/warn.grammar:1-25 -/
def warn : List Str := [c!"[ADDRESS]", c!"@AB @CD @EF", c!"@A @BC @DE", c!"@CD @EF", [], c!"[AB]",
  c!"NUMBER WORD -> BLDNG HOUSE -> 0.5", [], c!"[CD]", c!"TYPE QUALIF -> PREDIR QUALIF -> 0.5", [], c!"[EF]",
  c!"ROAD RR -> SUFTYP SUFDIR -> 0.5", [], c!"[A]", c!"NUMBER -> BLDNG -> 0", [], c!"[BC]",
  c!"WORD TYPE -> HOUSE PREDIR -> 0.5", [], c!"[DE]", c!"QUALIF ROAD -> QUALIF SUFTYP -> 0.5", [],
  c!"[XY]", c!"QUALIF ROAD -> QUALIF SUFTYP -> 0.5"]

/-- src/test/fatal2.grammar:1-25 -/
def fatal2 : List Str := [c!"[ADDRESS]", c!"@AB @CD @EF", c!"@A @BC @DE", c!"@CD @EF @XY", [], c!"[AB]",
  c!"NUMBER WORD -> BLDNG HOUSE -> -0.5", [], c!"[CD]", c!"TYPE QUALIF -> PREDIR QUALIF -> 0.5", [], c!"[EF]",
  c!"ROAD RR -> SUFTYP SUFDIR -> 0.5", [], c!"[A]", c!"NUMBER -> BLDNG -> 0.5", [], c!"[BC]",
  c!"WORD -> HOUSE PREDIR -> 0.5", [], c!"[DE]", c!"QUALIF ROAD -> QUALIF SUFTYP -> 0.5", [],
  c!"[XYZ]", c!"QUALIF ROAD -> QUALIF SUFTYP -> 0.5"]

/-- The constructor from a text. -/
def grammarOf (lines : List Str) : Option (Grammar Rat) :=
  match Grammar.initialize asciiU.toCharTables tenths (unlines lines) with
  | .ok g => some g
  | .error _ => none

/-- src/test/grammar-test.cpp:75-89; fatal1.grammar has `[ROOT]` for the first line. -/
example : grammarOf (c!"[ROOT]" :: good.tail) = none ∧ grammarOf fatal2 = none ∧ grammarOf warn = none := by decide +kernel

/-- src/test/grammar-test.cpp:91-124, src/test/search-test.cpp:50-84. The tests expect the rule sections in the order
of their names; they are kept and printed in the order of the text (src/grammar.h:93-94, src/grammar.cpp:289-298). -/
example : (grammarOf good).map (fun g => (g.print tenths, g.status, g.issues)) = some (unlines (good ++ [[]]), .CHECK_OK, []) := by
  decide +kernel

/-- The tokens of src/test/search-test.cpp -/
def tok (s : Str) : Token := Token.ofText (s ++ c!"\tBADTOKEN\tDETACH")
def t11 : Token := tok c!"11\t11\tNUMBER"
def tOak : Token := tok c!"OAK\tOAK\tWORD"
def tSt : Token := tok c!"ST\tSTREET\tTYPE"
def tExt : Token := tok c!"EXT\tEXT\tQUALIF"
def tHwy : Token := tok c!"HWY\tHWY\tROAD"
def tRr : Token := tok c!"RR\tRR\tRR"

/-- The rules of the derivations found, printed. -/
def found (ts : List Token) : Option (List (List Str)) :=
  (grammarOf good).bind fun g =>
    match search g c!"ADDRESS" ts with
    | .ok ps => some (ps.map (fun p => p.rules.map (Rule.print tenths)))
    | _ => none

/-- src/test/search-test.cpp:116-143 -/
example : found [t11, tOak, tSt, tExt, tHwy] = some [[c!"NUMBER -> BLDNG -> 0.5", c!"WORD TYPE -> HOUSE PREDIR -> 0.5",
    c!"QUALIF ROAD -> QUALIF SUFTYP -> 0.5"]] := by decide +kernel

/-- src/test/search-test.cpp:145-188 -/
example : ((grammarOf good).map fun g => searchAndReclassBest g tenths [t11, tOak, tSt, tExt, tHwy]).any (fun o =>
    outcomeIs o (fun b => decide (b.score = 1 / 2 ∧ b.tokens.map shown = [c!"TOKEN:\t11\t11\tNUMBER\tBLDNG\t",
      c!"TOKEN:\tOAK\tOAK\tWORD\tHOUSE\t", c!"TOKEN:\tST\tSTREET\tTYPE\tPREDIR\t",
      c!"TOKEN:\tEXT\tEXT\tQUALIF\tQUALIF\t", c!"TOKEN:\tHWY\tHWY\tROAD\tSUFTYP\t"]))) = true := by decide +kernel

/-- src/test/search-test.cpp:190-217 -/
example : found [t11, tOak, tSt, tExt, tHwy, tRr] = some [[c!"NUMBER WORD -> BLDNG HOUSE -> 0.5",
    c!"TYPE QUALIF -> PREDIR QUALIF -> 0.5", c!"ROAD RR -> SUFTYP SUFDIR -> 0.5"]] := by decide +kernel

/-- src/test/search-test.cpp:219-241 -/
example : found [t11, tOak, tSt, tHwy] = some [] := by decide +kernel

end AS.Check
