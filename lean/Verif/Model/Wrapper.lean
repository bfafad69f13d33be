import Verif.Model.Search
import Verif.Model.Tokenizer
/-
Model of the C interface (src/as_wrapper.cpp).

Simplifications: `strdup` does not fail; only the `calloc` failures the code checks are modelled. The
texts of exceptions of the loaders are a parameter. Reading a lexicon from a boost archive is a
parameter; a failed attempt leaves the lexicon empty. The reading of the patterns of the lexicon is a
parameter (`LexRe.For` says what it should be). Exceptions of boost and ICU are not modelled inside the
tokenizer, but `standardizeAddrWith` is stated for arbitrary outcomes of what it calls.
-/
namespace AS
namespace Wrapper
variable {F D : Type}

/-- What an attempt to read a boost archive gives. -/
inductive Archive where
  | lexicon (l : Lexicon)
  /-- `std::runtime_error("Re-compile-lexicon")` -/
  | recompile
  /-- any other exception -/
  | notArchive

/-- What the interface gets from its environment. -/
structure Env (F D : Type) where
  icu : Icu
  u : UTables
  fo : FloatOps F
  dops : FloatOps D
  widen : F → D
  /-- reading of an archive -/
  archive : Str → Archive
  /-- reading of the three patterns the lexicon provides -/
  compile : Str → Str → Str → LexRe
  /-- `what()` of the exceptions of the loaders -/
  lexWhat : Lexicon.Error → Str
  gramWhat : GrammarError → Str
  /-- `calloc` for so many records succeeds -/
  alloc : Nat → Bool
  /-- `std::sort` -/
  sort : {α : Type} → (α → α → Bool) → List α → List α

/-- What a function of the interface leaves: the returned pointer and `*err_msg`. -/
structure Ret (α : Type) where
  value : Option α
  err : Option Str
deriving DecidableEq, Repr

/-- `std::string::c_str()` as seen by `strdup`: up to the first NUL. -/
def cstr (s : Str) : Str := s.takeWhile (fun c => c ≠ '\x00')

/-- Loading a lexicon from a text (src/as_wrapper.cpp:60-82, 562-582). -/
def loadLexicon (env : Env F D) (text : Str) : Outcome Lexicon :=
  match env.archive text with
  | .lexicon l => .ok l
  | .recompile => .throws c!"Re-compile-lexicon"
  | .notArchive =>
    match Lexicon.initialize env.icu c!"query-lex" text with
    | .ok l => .ok l
    | .error e => .throws (env.lexWhat e)

/-- `Grammar grammar( iss )` (src/as_wrapper.cpp:56-58, 530-533). -/
def loadGrammar (env : Env F D) (text : Str) : Outcome (Grammar F) :=
  match Grammar.initialize env.u.toCharTables env.fo text with
  | .ok g => .ok g
  | .error e => .throws (env.gramWhat e)

/-- The patterns the tokenizer uses: those the lexicon has or builds (src/tokenizer.cpp:76, 96, 203). -/
def lexRe (env : Env F D) (l : Lexicon) : LexRe := env.compile l.regex.2 l.regexPrefixAtt.2 l.regexSuffixAtt.2

/-- The token lists of an address (src/as_wrapper.cpp:104-117, 350-363, 471-484): the tokens, then the
alternatives. -/
def phrasesOf (env : Env F D) (l : Lexicon) (locale filter address : Str) : Outcome (List (List Token)) :=
  let nstr := env.icu.norm address
  let ustr := env.icu.upper locale nstr
  match Tokenizer.getTokens env.icu env.u l (lexRe env l) (InType.asType filter) ustr with
  | none => .undefined
  | some ts =>
    match Tokenizer.getAltTokens env.u l ts with
    | none => .undefined
    | some alts => .ok (ts :: alts)

/-- `STDADDR` (src/address_standardizer.h). -/
structure StdAddr where
  building : Option Str := none
  house_num : Option Str := none
  predir : Option Str := none
  qual : Option Str := none
  pretype : Option Str := none
  name : Option Str := none
  suftype : Option Str := none
  sufdir : Option Str := none
  ruralroute : Option Str := none
  extra : Option Str := none
  city : Option Str := none
  prov : Option Str := none
  country : Option Str := none
  postcode : Option Str := none
  box : Option Str := none
  unit : Option Str := none
  pattern : Option Str := none
deriving DecidableEq, Repr

/-- The `switch` (src/as_wrapper.cpp:133-191): index into `v_stdaddr`. -/
def slotOf : OutType → Option Nat
  | .BLDNG => some 0
  | .HOUSE => some 1
  | .PREDIR => some 2
  | .QUALIF => some 3
  | .PRETYP => some 4
  | .STREET => some 5
  | .SUFTYP => some 6
  | .SUFDIR => some 7
  | .RR => some 8
  | .STOP | .EXTRA | .BADTOKEN => some 9
  | .CITY => some 10
  | .PROV => some 11
  | .NATION => some 12
  | .POSTAL => some 13
  | .BOXH | .BOXT => some 14
  | .UNITH | .UNITT => some 15
  | .IGNORE => none

/-- `v_stdaddr[ i ] += s + " "`. -/
def appendSlot (v : List Str) (i : Nat) (s : Str) : List Str := v.set i (v[i]?.getD [] ++ (s ++ c!" "))

/-- The loop over the tokens of the best match (src/as_wrapper.cpp:131-192); `none`: undefined behaviour
of `Lexicon::standardize`. -/
def collect (l : Lexicon) : List Str → List Token → Option (List Str)
  | v, [] => some v
  | v, t :: ts =>
    match l.standardize t with
    | none => none
    | some t =>
      match slotOf t.outclass with
      | some i => collect l (appendSlot v i t.stdtext) ts
      | none => collect l v ts

/-- One field (src/as_wrapper.cpp:203-266): the trailing blank is cut off. -/
def fieldAt (v : List Str) (i : Nat) : Option Str :=
  match v[i]? with
  | none => none
  | some s => if s.length > 0 then some (cstr s.dropLast) else none

/-- Filling of the structure (src/as_wrapper.cpp:203-267). -/
def fill (v : List Str) (matched : Str) : StdAddr where
  building := fieldAt v 0
  house_num := fieldAt v 1
  predir := fieldAt v 2
  qual := fieldAt v 3
  pretype := fieldAt v 4
  name := fieldAt v 5
  suftype := fieldAt v 6
  sufdir := fieldAt v 7
  ruralroute := fieldAt v 8
  extra := fieldAt v 9
  city := fieldAt v 10
  prov := fieldAt v 11
  country := fieldAt v 12
  postcode := fieldAt v 13
  box := fieldAt v 14
  unit := fieldAt v 15
  pattern := some (cstr matched)

/-- The body of `standardize_addr` with its handlers (src/as_wrapper.cpp:101-287), given what the tokenizer
and the search do. `none`: undefined behaviour. -/
def standardizeAddrWith (env : Env F D) (l : Lexicon) (phrases : Outcome (List (List Token)))
    (best : List (List Token) → Outcome (BestResult F)) : Option (Ret StdAddr) :=
  match phrases with
  | .undefined => none
  | .throws m => some ⟨none, some (cstr m)⟩
  | .ok phrases =>
    match best phrases with
    | .undefined => none
    | .throws m => some ⟨none, some (cstr m)⟩
    | .ok b =>
      if env.fo.ge0 b.score then
        match collect l (List.replicate 16 []) b.tokens with
        | none => none
        | some v =>
          if env.alloc 1 then some ⟨some (fill v (b.matched.getD [])), none⟩
          else some ⟨none, some c!"Out of memory!"⟩
      else some ⟨none, none⟩

/-- `standardize_addr` (src/as_wrapper.cpp:101-287), also `std_standardize_ptrs` (42-48). -/
def standardizeAddr (env : Env F D) (g : Grammar F) (l : Lexicon) (locale filter address : Str) :
    Option (Ret StdAddr) :=
  standardizeAddrWith env l (phrasesOf env l locale filter address) (searchAndReclassBestOf g env.fo)

/-- `std_standardize` (src/as_wrapper.cpp:52-98). -/
def stdStandardize (env : Env F D) (address grammar lexicon locale filter : Str) : Option (Ret StdAddr) :=
  match loadGrammar env grammar with
  | .undefined => none
  | .throws m => some ⟨none, some (cstr m)⟩
  | .ok g =>
    match loadLexicon env lexicon with
    | .undefined => none
    | .throws m => some ⟨none, some (cstr m)⟩
    | .ok l => standardizeAddr env g l locale filter address

/-- `TOKENS` (src/address_standardizer.h). -/
structure ParseRow where
  pat : Nat
  seq : Nat
  word : Str
  inclass : Str
  attached : Str
deriving DecidableEq, Repr

/-- The inner loop (src/as_wrapper.cpp:379-387): `i` the alternative, `j` the token number (`k` is always
equal to `j`). Returns the rows and the new `j`. -/
def parseTokens (i j : Nat) : List Token → List ParseRow × Nat
  | [] => ([], j)
  | t :: ts =>
    let (rows, j') := parseTokens i (j + 1) ts
    ({ pat := i, seq := j, word := cstr t.text, inclass := cstr (InType.setAsString t.inclass)
       attached := cstr (Attach.setAsString t.attached) } :: rows, j')

/-- The outer loop (src/as_wrapper.cpp:378-389). -/
def parseLoop (i j : Nat) : List (List Token) → List ParseRow
  | [] => []
  | ts :: ps =>
    let (rows, j') := parseTokens i j ts
    rows ++ parseLoop (i + 1) j' ps

/-- Number of rows (src/as_wrapper.cpp:365-367). -/
def parseCount : Nat → List (List Token) → Nat
  | cnt, [] => cnt
  | cnt, ts :: ps => parseCount (cnt + ts.length) ps

/-- The body of `parse_addr` with its handlers (src/as_wrapper.cpp:347-408). The counters are `int`: they
overflow beyond `2^31-1`. -/
def parseAddrWith (env : Env F D) (phrases : Outcome (List (List Token))) : Option (Ret (List ParseRow)) :=
  match phrases with
  | .undefined => none
  | .throws m => some ⟨none, some (cstr m)⟩
  | .ok phrases =>
    let cnt := parseCount 0 phrases
    if ¬ env.alloc cnt then some ⟨none, some c!"Out of memory!"⟩
    else if cnt ≥ 2 ^ 31 ∨ phrases.length ≥ 2 ^ 31 then none
    else some ⟨some (parseLoop 0 0 phrases), none⟩

/-- `parse_addr` (src/as_wrapper.cpp:347-408), also `std_parse_address_ptrs` (292-297). -/
def parseAddr (env : Env F D) (l : Lexicon) (locale filter address : Str) : Option (Ret (List ParseRow)) :=
  parseAddrWith env (phrasesOf env l locale filter address)

/-- `std_parse_address` (src/as_wrapper.cpp:300-343). -/
def stdParseAddress (env : Env F D) (address lexicon locale filter : Str) : Option (Ret (List ParseRow)) :=
  match loadLexicon env lexicon with
  | .undefined => none
  | .throws m => some ⟨none, some (cstr m)⟩
  | .ok l => parseAddr env l locale filter address

/-- `sortByScoresDesc` (src/as_wrapper.cpp:463-465). -/
def sortByScoresDesc (dops : FloatOps D) (lhs rhs : MatchResult D) : Bool := dops.lt rhs.score lhs.score

/-- What `std::sort` requires of the comparison on the given elements: a strict weak ordering. Otherwise
the behaviour is undefined ([alg.sorting.general]). -/
def strictWeakOn {α : Type} (lt : α → α → Bool) (l : List α) : Bool :=
  l.all (fun a => !lt a a) &&
  l.all (fun a => l.all (fun b => l.all (fun c =>
    (!(lt a b && lt b c) || lt a c) &&
    (!(!lt a b && !lt b a && !lt b c && !lt c b) || (!lt a c && !lt c a)))))

/-- `MTOKEN` (src/address_standardizer.h). -/
structure MatchRow (D : Type) where
  tokens : Str
  score : D
  nrules : D
deriving DecidableEq, Repr

/-- The body of `match_addr` with its handlers (src/as_wrapper.cpp:468-524). -/
def matchAddrWith (env : Env F D) (phrases : Outcome (List (List Token)))
    (all : List (List Token) → Outcome (List (MatchResult D))) : Option (Ret (List (MatchRow D))) :=
  match phrases with
  | .undefined => none
  | .throws m => some ⟨none, some (cstr m)⟩
  | .ok phrases =>
    match all phrases with
    | .undefined => none
    | .throws m => some ⟨none, some (cstr m)⟩
    | .ok toks =>
      if strictWeakOn (sortByScoresDesc env.dops) toks then
        let toks := env.sort (sortByScoresDesc env.dops) toks
        if ¬ env.alloc toks.length then some ⟨none, some c!"Out of memory!"⟩
        else if toks.length ≥ 2 ^ 31 then none
        else some ⟨some (toks.map (fun t => { tokens := cstr t.matched, score := t.score, nrules := t.nrules })), none⟩
      else none

/-- `match_addr` (src/as_wrapper.cpp:468-524). -/
def matchAddr (env : Env F D) (g : Grammar F) (l : Lexicon) (locale filter address : Str) :
    Option (Ret (List (MatchRow D))) :=
  matchAddrWith env (phrasesOf env l locale filter address) (searchAndReclassAll g env.dops env.widen)

/-- `std_match_address` (src/as_wrapper.cpp:414-460). -/
def stdMatchAddress (env : Env F D) (address grammar lexicon locale filter : Str) :
    Option (Ret (List (MatchRow D))) :=
  match loadGrammar env grammar with
  | .undefined => none
  | .throws m => some ⟨none, some (cstr m)⟩
  | .ok g =>
    match loadLexicon env lexicon with
    | .undefined => none
    | .throws m => some ⟨none, some (cstr m)⟩
    | .ok l => matchAddr env g l locale filter address

end Wrapper
end AS
