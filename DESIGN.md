# Formal model of woodbri/address-standardizer — design

The source in `/repo/src` is modelled by hand, function by function, in Lean 4
(`/verif/lean/Verif`). Nothing of `/repo` is built or run. Every model definition
cites the file and lines it models and states its simplifications.

## Layout

* `Verif/Model/*.lean` – the model (executable total functions).
* `Verif/Spec/*.lean` – the specification vocabulary: small definitions in which the properties
  are stated. They do not use the functions of the model that they specify, only its data types.
* `Verif/Lemmas/*.lean` – helper lemmas.
* `Verif/Props/*.lean` – the property theorems `AS.Props.Cnn_...` (one file per area), each followed
  by an `example` of a concrete case that meets its hypotheses.
* `Verif/Sample/*.lean` – the grammars and lexicons of data/sample with what is claimed of them, written by
  `tools/samples.py` and `tools/lexicons.py`.
* `Verif/Check/*.lean` – what the project's own tests expect, checked of the model (see below).
* `MANIFEST.json` – property → theorem names, generated by `tools/manifest.py`.
* `seeded/LOG.jsonl` – wrong programs tried against the theorems; `tools/mutate.py` runs them in a
  scratch copy.

## Modelling conventions

* `std::string` is `List Char` (`Str`). A `Char` is one code point of valid UTF-8 text everywhere;
  where the code counts bytes (`length()`, `substr`, the UTF-8 iterator, the digest) the model computes
  byte lengths or works on lists of bytes. Cutting at byte positions is modelled on characters where
  the positions are at character boundaries. Text that is not valid UTF-8 is not modelled, except where
  the code itself makes it (cutting the byte order mark; the torn character is U+FFFD).
* Undefined behaviour, exceptions and crashes are distinct outcomes
  (`Except`, `Option`, `Outcome`, or an explicit inductive type), never a default value.
* `float` and `double` are abstract types with operations `FloatOps F` without laws; the laws a theorem
  needs are its hypotheses (`LtLaws`: irreflexive and transitive `<`, true for IEEE also with NaN;
  `SignLaws`; `NanLaws`). Rationals (`ratOps`) and rationals with NaN (`nanOps`) are instances, so the
  laws can be met; so are the rounded arithmetics `single` and `double` of C105.
* ICU is the structure `Icu` (normalisation and upper-casing, no laws unless stated); the character
  classes of Boost/ICU are `CharTables`/`UTables` (functions with the few laws stated in the structure).
* Boost.Regex: `Spec/Regex.lean` and `Model/Rx.lean` give the Perl backtracking semantics of the
  fragment used: the list of all matches in the order of trial. The patterns the lexicon generates are
  character strings in the model; they are *read* (`Reads`, a parser of the pattern syntax) and then run.
* Recursion that the code bounds dynamically (search, tokenizer loop) is modelled with fuel and
  `Option`, `none` meaning "not finished"; termination is then a theorem.
* Search copies the grammar, but the section pointers in the copy point into the original
  (src/search.h:54); the callers keep it alive, so the model uses indices.

## Properties: what is modelled, how it is proved

| id | model | proof |
|----|-------|-------|
| C01, C04, C05 | enums and their name tables (`InClass`, `OutClass`) | case analysis over the finite table; unknown strings by cases |
| C02, C03 | `std::set` as strictly sorted lists; `getline(',')`, trim | induction on the list |
| C06, C07 | index arithmetic of `Token::enumerate` modulo 2^64 (`Token`) | mixed radix = Cartesian product, by induction; explicit families for the overflow |
| C08 | `applyFilter` (`Tokenizer`) | induction |
| C09 | `splitToken` with the two generated patterns and the two literal ones | matching lemmas for `prefixRx`, `suffixRx`, then cases |
| C10 | `getAltTokens`, bit tests | induction; bijection with bit vectors |
| C11, C12 | the token pattern, `u32regex_search`, the loop | characterisation of all matches; progress measure |
| C13, C14 | `Lexicon::classify` with its ~20 patterns (`Classify`) | each pattern is characterised, then cases |
| C15, C18, C19 | `LexEntry`, loader state machine (`Lexicon`), `operator<<` | induction over lines |
| C16, C17 | lexicon with its three pattern caches | invariant by induction over operations |
| C20 | `standardize` | induction on the entry list |
| C21, C22 | trie → pattern string; parser of the pattern; Perl matching | induction over the trie; for C22 the children of a trie of one-character words in key order, so the class text begins with `^` |
| C23 | trie as nested association list | induction over added words |
| C24, C25 | bytes as `Nat`/`UInt8`, the iterator state machine (`Utf8`) | arithmetic; induction on the code points |
| C26–C28 | rule parser over words with `>>` semantics (`Rule`) | induction over the words |
| C29–C34 | grammar loader state machine, `updatePointers` (`Grammar`) | invariant over lines |
| C35–C38 | fuel model of `match`/`matchNext` (`Search`); inductive derivations as specification | induction on fuel / derivation; explicit family |
| C39–C44 | result selection, reclassification, pattern string (`Search`) | induction on the result list |
| C45–C48 | wrapper functions (`Wrapper`) | induction on tokens |
| C49–C53 | cache state machine with explicit heap, ownership and memory contexts (`Cache`) | invariant by induction over histories |
| C54–C57 | MD5 with `BitVec 32` and bytes (`Md5`) | invariant: state = fold over complete blocks |
| C58 | counter map (`Counts`) | induction |
| C59 | grammar text as a list of sections; nothing new modelled | search restated with sections looked up by name, then congruence |
| C60 | `Within`: rules contained section by section | derivations are monotone; C37, C39, C42 |
| C61 | `operator<<` of grammar, sections, rules (`Grammar.print`) | the printed lines mean the sections (C32), then C29, C30 |
| C62 | Boost text archive as a list of numbers and length-prefixed strings (`Archive`) | reading inverts writing, datum by datum; the lexicons differ only in filled caches (C16) |
| C63 | the value-per-call protocol of `as_parse`, `as_match` (`Sql`) | induction on the calls; C46, C47 |
| C64 | the tuple of `as_standardize` with the declared column names (`Sql`, `sqlRow`) | C45, C48, C52, C66 |
| C65 | nothing new modelled | C29, C36, C37, C39, C41, C42, C45 composed; `C65_within` says also that the derivation is within the nesting limit |
| C66 | nothing new modelled | each step keeps a predicate on characters; pieces: each step keeps every predicate closed under parts and comma to point |
| C67 | nothing new modelled; `LexText` of C18 | equal entries give equal maps and patterns; every step takes equal lookups and matches to equal results |
| C68 | nothing new modelled; patterns are read (`ReadsPatterns`) | all texts looked up occur in the address (as C66); matches compared by C21 |
| C69 | nothing new modelled | C18, C21 composed |
| C70 | nothing new modelled | backtracking order: each part offers its matches in order of preference, so the first match is lexicographically best; the specification is shown to be functional |
| C71 | nothing new modelled; law that decimal digits of any script are word characters added to the tables | readings of the text with blanks correspond to readings without, so the best ones and the splits correspond (C70); separators are trimmed. A blank before an address matters if a word begins with one (example) |
| C72 | `Token(std::string)`, `operator<<`, `trim` | reading fields from a stream, as for C15; witness address with a tab before a comma |
| C73 | `Rule::in(pos)`, `out(pos)`, `isEmpty`, `isValid`, `concat`, `match`; halving is a parameter | directly; grouping over the rationals |
| C74 | `Trie` over bytes (`src/trie.cpp`), signed `char` order of children; `quoteChar` may be undefined | as C23; on ASCII words the trie is the image of the one over characters |
| C75 | nothing new modelled | a simulation of the search of one grammar by that of another along a map of names and of rules that holds on the reachable sections (`Lemmas/Simulate.lean`); the results do not depend on the bound on steps once it suffices (C35) |
| C76 | nothing new modelled | the simulation with a renaming; for texts `RenamedLines` (Spec/Naming.lean) line by line, the groups of lines are renamed, hence via C32 the grammar is accepted and `Renamed` |
| C77 | nothing new modelled; the change of scores is a hypothesis on the arithmetic (`Scaling`), met by multiplication in the rationals | the simulation with a change of scores; averages, the selection loops and comparison with -1 follow it. Range: averages of non-empty lists |
| C78 | nothing new modelled | the text means the same sections up to order and repetition (C32), so each grammar is within the other (C60); witness that order breaks ties |
| C79 | nothing new modelled | the nesting limit (C37) is enough iff derivations need at most two meta rules more than classes; bounds per section, checked rule by rule, show it by induction on derivations |
| C80 | nothing new modelled | every address comes from a derivation (C65); its rules are in sections ADDRESS leads to, and it uses a rule of an unavoidable section |
| C81 | the 25 grammar texts of data/sample, one module each under `Verif/Sample`, written by `tools/samples.py` | the kernel evaluates the model's constructor on each text with exact numbers and checks the bounds; the meaning of the text (C32) carries this to any usual tables and numbers; C79, C80, C77 then give the claims for all addresses and lexicons |
| C82 | the C heap: `calloc`, `strdup`, `free`, the records the interface gives, and what the SQL functions read, copy and free (`Model/Heap`) | what a call adds to the heap is a list of new blocks at new addresses; freeing the pointers of the record frees exactly these; `fetch` on the heap follows `fetch` on rows call by call; induction over the requests of a session |
| C83 | nothing new modelled | every address comes from a derivation (C65) whose rules are in reachable sections; input and output classes of its rules are taken together token by token. For the samples the sets are checked by the kernel as in C81 |
| C84 | nothing new modelled | every token of a list was made by `classify` from a token without class (`Lemmas/Classified.lean`), which needs that no text has a tab; then C13. Searching with the smaller grammar finds the same by induction over the steps of the search (`Lemmas/Prune.lean`). Witness address with tabs |
| C85 | the 25 lexicon texts of data/sample (`Verif/Sample/Lex*.lean`, written by `tools/lexicons.py`) | the kernel checks every line: its tag, that its class field is ASCII in capitals and names listed classes. Then the text is one that C18 covers for every ICU that keeps tabs. The grammar without the idle lines passes the check of C84 with the classes listed, and C80 gives the NULL fields |
| C86 | nothing new modelled | each token with a blank in its text needs a blank of the text of its round (`Lemmas/AltBound.lean`), and the rounds are pieces of the text (C11); with 32 such tokens the first alternative shifts too far, with 64 the count wraps to 0. Then C48, C81, C85. Witnesses for blanks that are not filtered |
| C87 | nothing new modelled | a token is followed by a separator or the end of a line, so what is read never ends in a mark before a letter (`Lemmas/Elision.lean`, on the reading of C09); the splits of the two lexicons are then the same by the uniqueness of C09, their tokens and alternatives by C66–C68 with the texts that can occur (`Lemmas/ElisionSame.lean`). Witness with a blank after the mark; counts for the samples |
| C88 | nothing new modelled | classifying uses the classes of a word as a set and standardising the first entry of a class (`Lemmas/Agree.lean`, `UseSame`); the patterns depend on the set of words only, the trie being canonical (`Lemmas/TrieCanon.lean`); so two lexicons that agree in the use of their entries (`Spec/Use.lean`) have the same results by the lemmas of C67. Tokens take attachments from tab-separated text only, for the column. For the samples each line without effect is checked against the one before it |
| C89 | nothing new modelled | reading a class list gives the classes its items stand for (C02; `Spec/Filter.lean`); filtering commutes with making the tokens; the other lists are built from the first, by induction over `altOne`; classes of tokens by C84; no entry of a lexicon text has the class of unknown names by C18 |
| C90 | the readers of the archive on the beginning of a text (`Archive.takeBytes` fills up with NUL as Boost does) | each reader on the beginning of a text fails, does the same, or leaves nothing (`Cut`), and no reader of a number succeeds on nothing; before the digest no other reader comes last |
| C91 | the line loops of the two loaders, `LexEntry`, `asType`, `asAttach`, `trimboth` on lines with a final `\r` (`withCr`) | splitting a line at tabs or commas puts the `\r` on the last part, so a field that is not last is unchanged; an item that ends in `\r` is no name; the line patterns of grammars end in `\s*`, so every line of a grammar does the same; for germany.lex the kernel evaluates its 470 lines |
| C92 | `getTokens`, `applyFilter` on a text `a ++ q :: (bl ++ b)` (`Divider`, `InParts`) | readings of the whole text (C70) are compared with those of `a`: none takes in the mark, as it is in no word and not in a decimal, so a reading lies in `a` or takes the rest of `a` with the mark and the spaces as separator; the best reading is the same; then the rest is `b` |
| C93 | `search`, `searchAndReclassBest` on two grammars of which one has the references to a section written out (`writeOut`, `Inlined`) | derivations of the first are rewritten step by step, with names marked that are to be written out, into derivations of the second with no more meta rules; those of the second are split at the written out lines and joined by the meta rule; `search_spec` and C79 turn this into results; the general forms of C60 give scores and addresses |
| C94 | `search`, `searchAndReclassBest` on two grammars (and grammar texts) of which one has more rules or higher scores (`Improved`, `ImprovedLines`) | the run of the search on both is followed side by side: the results of the one are, in order, those of the other, with new rules rescored and with results that use new rules put in between (`Ranked`); the first of the best results is then the old one or one with a new rule; arithmetic enters by `MonoLaws` only |
| C95 | `phrasesOf`, `Token::enumerate`, `search`, `searchAndReclassBest` with two lexicons of which one gives words further classes or other standard words (`FurtherUse`, `MoreToken`) | token lists are followed side by side through splitting, classification, filter and alternatives; the class sequences of the one are a sublist, in order, of those of the other, and so are the results; the choice of the best is that of C94; a witness shows that a first line for a word can take a result away |
| C96 | `getTokens`, `phrasesOf`, `stdStandardize`, `stdMatchAddress`, `stdParseAddress` with an address whose text is divided by separators that nothing reaches across (`Joint`, `StandsAlone`), and with words that the entries treat alike (`Synonyms`) | the best reading at each place before the separators is shown to be that of the text before them alone, so the rounds are those of the parts; the tokens of two synonyms have the same classes, so both lists of tokens are followed side by side (`Replaced`) through filter, alternatives, search, reclassing and standardizing; a witness shows that a phrase of the lexicon reaching across breaks it |
| C97 | `stdStandardize`, `stdParseAddress`, `stdMatchAddress` with all of their undefined outcomes: alternatives, indices into results, `standardize`, sorting, `int` counters | equivalences: the search, reclassing and fields of a loaded grammar have no undefined outcome whatever the scores are, so only the number of tokens with a blank (C86), the contract of the sorting (exactly a NaN beside two different scores) and the counters remain; the rows of all lists are summed over all choices by induction on the tokens; witnesses with 32 and 26 blanks |
| C98 | `search`, `searchAndReclassBest(Of)`, `searchAndReclassAll`, `stdStandardize` with two grammars whose rules differ in output classes | the search of the second grammar is the image of that of the first (`search_mirrors`), so averages and the selection loop are the same, and only reclassing reads the output classes; replaced classes are followed through `standardize`, `collect` and `fill` (`Moved` relates the fields) |
| C99 | `Search::match`, `matchNext`, `search` | `Verif.Spec.Tally` counts the derivations by choices of grammar lines (`ways`) and with the weight the nested loops of `matchNext` give each rule (`times`); the count of a result is computed by induction on the recursion (`count_matchNext`); `ways` is tied to `Derives`, and the weight is 1 for grammars whose sections are prefix free or whose meta rules have one reference |
| C100 | as C96, with words that are in no entry (`Unknown`, `Interchangeable`) | a text of letters and digits without separators is read as a whole (`splits_run`); its token has the classes of its shape (C13) and is not split (C09); both lists of tokens are followed side by side as for C96 (`Swapped`), and the standard text of such a token is its text, so the words of each field correspond; the shape is computed for words and numbers; a witness shows that the length matters |
| C101 | tools/load-lex-gmr-files as a function from file texts to the text of the SQL file; in the specification, how constants and statements are read and what the nine forms of statement do inside and outside a transaction | the printed text is read back piece by piece (`lexGo_const`: doubled quotes give the text again), so the statements are those listed (`meaning_script`); the part between `begin` and `commit` is done as a whole or not at all (`psql_script`); `grep`, `chomp`, `split` and the substitution give the code of the one header line (`countryCode_eq`). A witness shows the unquoted name. The claim that a second dataset can be added without `-c` is false and its negation is proved (`C101_second`, `C101_two_datasets`) |
| C102 | tools/convert-pagc-rules as a function from the lines of the files to the text printed; what Perl makes of a word as a number is a parameter | the words and fields of a line are found again (`fields_ruleLine`, `keep_ruleLine`), the sorted rules are characterised by their order (`ordered_inOrder`, from the stability of the sort), the printed line is read back by the loader's reading of rule lines (`ruleLine_means`, C26), and the groups and sections of the text by C32 (`text_means`). With exact numbers the score read is `n/20` (`C102_score`) |
| C103 | tools/convert-pagc-lex-gaz as a function from the lines of the files to the text printed; what Perl makes of a word as a number, and whether a text matches a pattern, are parameters | the hash holds exactly the pairs read with their classes (`Holds`, `readLine_record`), sorting its keys gives the collected entries (`holds_collected`), each line printed is read back by C15/C02 (`entry_line`, `codes_types`), and the text by C18 (`pagcLex_text`). The loss of entries when a standard word does not match itself is a witness (`C103_special`) |
| C104 | tools/compare-lexicon as a function from the lines of the two files to what is printed or the message at its end | induction on the lines that count (`Counted`): the hash has the one key it can have just if there was an entry (`readA_body`), and that decides all lines of the second file alike (`readB_body`). That the promised report is not made is the theorem `C104_right` with the witness `C104_wrong` |
| C105 | the averages of search.cpp over arithmetic with a bounded relative error (`RoundedArith`), of which `binary 24` (`single`) and `binary 53` (`double`), rounding to nearest with ties to even and unbounded exponent, are shown to be instances | induction over the sum (`sum_near`): after k steps the partial sum is the exact one up to k+1 factors between 1-u and 1+u, so all intermediate results stay in range; averages of at most N multiples of 1/q that differ do so by 1/(q N²) (`averages_apart`). With C39, C42, C43 and C47 this gives the match chosen and the order of the rows. For the sample grammars every rule comes from a line with a score 0.1 to 0.9 and an input class (`sample_rules`). The two limits are witnesses computed with `single` |
| C106 | the five programs of `src/tester` whose output can be compared with the SQL functions (`Model/Tester`), as functions of the arguments, the files and the digest: what they write, to which file, how they end | `parse_ok`, `standardize_loads` and `match_ok` invert the SQL functions into their steps, which `t2_ok` and `t2Grammar_ok` recompose into the output of `t2`; the listing is the same sort of the same matches; the fields are those of the lines by C45; no match by C48. A lexicon loaded under another name tokenizes the same (`sameLex_renamed`), which carries `t4`, `t5` and, with the archive of C62, `compile-lexicon`. `read-dump-grammar` by `printed_lines` of C61 and C32 |
| C107 | `as_parse`, `as_match` and `as_standardize` from the texts, for addresses that are a plain list of words (`Spec/Plain`) | the tokens of such a text by C92 joint by joint (`inWords_tokens`), each word whole by C100 or by the lexicon's own pattern, or in the parts that C09 gives (`read_of`, `parted_tokens`), its classes by C09, the separators dropped by C12 (`sepToken_out`); one phrase since nothing is attached (`phrases_plain`). The search reads a phrase through its lists of classes only (`search_classes`, `best_classes`, `rowsOf_classes`); fields by `standardize_words`; the best reading by C65 and C79 |
| C108 | `as_standardize` with the grammar texts of the 25 countries (`Verif/Sample`), for plain lists of words (C107) | a table of forms (`Verif/Spec/FormTable.lean`, written by `tools/forms.py`). `readings` lists all derivations of a grammar that take words which have any classes but some; it is sound and complete (`readings_only`, `readings_all`, by recursion over the references with fuel, failing if it runs out), also for the grammar as loaded with another arithmetic (`grammar_scored`). It works on the grammars with numbers for the names of sections (`FormData`), which the kernel compares with the loaded texts (`codes`). Kernel computations (`FormChecks`) show that each form is the best of all such readings, by sums of tenths in integers; words with fewer classes have fewer readings, so it is the best for them too. That the best exact average is the best computed one is the bound of C105; that it is within the nesting limit is C79, that it is taken and what is in the fields is C107 |
| C109 | the lexicon of each country as literal text (`Verif/Sample/Lex*`), read by the model of `Lexicon` and used with the grammar of the country | the texts have the layout that C87 asks for (`pairs_checked`), so C107 gives the classes of the words and C108 the reading; `C109_read` is the general statement, `C109_street`, `C109_compound` and `C109_english` are for the usual forms |
| C110 | texts with expressions of several words (`Verif/Spec/Phrases.lean`), the alternatives that `Tokenizer` makes of them, scored by `Search` with the sample grammars | `phrases_texts` follows the tokens through the splitting at blanks; `C110_rows`, `C110_fields`, `C110_returned` say what the SQL functions return; for the forms, a table written by `tools/forms.py` lists for each slot and number of words the classes whose absence keeps every other derivation below the form's score, checked against the literal grammars (`Lemmas/ApartChecks.lean`), from which `C110_read` and `C110_english` follow |
| C111 | texts of words (C107), their standard words, the search with fewer classes (`Verif/Spec/Again.lean`); the 25 sample lexicons | `best_fewer`: the best match is among those that remain when classes are taken away that it does not use, and none that remain comes before it with its score; `C111_narrowed`, `C111_again`, `C111_settled` follow the words through both runs; `C111_unsettled` is the witness that the condition is needed; `C111_samples` checks the lexicons with texts coded as numbers (`rowsCheck`, decided by the kernel, proved right for all lists of entries), `C111_country` puts both together |
| C112 | Grammar::initialize, Search::search, searchAndReclassBest, searchAndReclassAll, std_standardize, std_match_address | Spec/Together.lean: `Together G A B`, `RootFirst`, `Interleaved`. `search_together`: the section pointers of the parts lead to the same sections (the image lemma of C94/C96 with the identity), so the references of ADDRESS of `A` find in `G` what they find in `A`; the combinations of classes one after the other interleave. Best match: the chosen place of the mixed list is a place of one of the two (`Interleaved.split`), and scores of the parts are not higher. Texts: the groups of lines of both texts, via C32. `C112_any_two`: the second text with its names made longer than any line of the first (Props/Naming.lean, C76). `C112_recursive` shows that references to ADDRESS must be excluded. |
| C113 | Lexicon::classify, Lexicon::standardize, Tokenizer::getTokens, getAltTokens, Grammar::initialize, Search::search, searchAndReclassBest, searchAndReclassAll, std_standardize, std_match_address | Spec/Labels.lean: `Relabels σ`, `RelabelledUse`, `RelabelledLines`, `RelabelledTexts`, `BestReading`. Tokens (Lemmas/Labels.lean): `classify` gives the classes of the entries found or, if there are none, classes by shape, which σ keeps; the rest of the tokenizer asks only whether a token was found. Tabs are excluded because the constructor of a token reads classes from behind a tab. Grammar text via C32; derivations map one to one; the search via C37, the return via C48, the fields via C65 carried back to the first grammar. The listing (Props/LabelRows.lean): the number of times a derivation is listed, C99, is the same for both grammars, so the rows are the same up to order. `C113_ties`: the order of the classes decides ties. |
| C114 | A part of a derivation is a section that stands somewhere in it (`Inside`); the greatest derivation is greatest by the exact average of the scores (`Greatest`, Spec/Portions) | A part is exchanged for another derivation of the same section over the same tokens; the whole stays a derivation within the nesting limit, found by C37, and by C65 (`C65_within`, with the nesting limit) and C105 its exact average is not greater; arithmetic gives the surplus. Rules: a section of rules has no nesting. Samples by C81 and the check of scores. Witness with numbers of rules that differ by evaluation |

## Defects of the code found while modelling

Each is stated as a theorem (in brackets) unless it is outside the model.

* A cached standardizer is created through a null error pointer: an invalid lexicon or grammar crashes
  the backend; an invalid grammar also frees the lexicon that the hash still holds [C53].
* The digest is not MD5: `F` and `G` lack parentheses, `G` ignores its first argument [C57]; texts of
  2^32 bytes or more are truncated, and lengths just below read out of bounds [C56].
* The cache compares digests only, and the grammar digest is of the concatenated lines without line ends,
  so different texts can share one [C49 needs the hypothesis; C32_digest_input].
* A byte order mark swallows the first character of the text [C34].
* A grammar text without final newline has its last line read twice [C33]; upper-casing after
  normalising is not idempotent, so for a lexicon this may add an entry [C33_lexicon_newline_matters].
* A meta line that is not a list of references is silently dropped [C32_odd_meta_line_dropped];
  a section left without lines that way is printed empty, and the printed grammar is rejected [C61].
* `^`, `{`, `}` are not escaped in generated patterns [C22].
* Enumeration overflows [C07]; `getAltTokens` shifts `1 << n` beyond 31 [C86_defined_iff]. If SPACE is not
  filtered every blank doubles the number of token lists, 32 blanks are undefined [C86_long_address], and a blank is broken
  up into two words without text [C86_empty_words, C86_blank_not_filtered].
* Search finds a result many times [C38], and misses derivations beyond the nesting limit [C37].
* A NaN score is accepted in a grammar and breaks the contract of `std::sort` [C47_nan].
* A separator that begins with a tab gives a token without text; the rest of it goes to the standard text [C72].
* `src/test/rule-test.cpp` expects empty rules for lines that the constructor rejects by throwing [C26, C73].
* Text that cannot be tokenized is dropped silently [C12]; an empty lexicon changes what a token is
  [C12_empty_lexicon].
* `as_parse` and `as_match` return zero rows, without a message, when the library throws [C63_errors_silent];
  they leak the array when a query stops early, `as_parse` also one without rows [C63_parse, C63_match]; the
  third value of a match row is not a declared column [C63_match].
* Every error message of the interface is leaked by the SQL functions, one block for each failed call, also by
  `as_compile_lexicon`; a query that stops `as_parse` or `as_match` early leaks the array and all its texts
  [C82_session]. `strdup` is not checked: without memory `as_parse` and `as_match` read through NULL
  [C82_parse_unchecked, C82_match_unchecked], and `as_standardize` gives NULL for a field that has a text
  [C82_standardize].
* SINGLE, DOUBLE, QUAD, QUINT count bytes [C14].
* Twelve sample grammars have a rule with an output class that does not exist, so its text goes to `extra`: `UNIT`
  (andorra.gmr:54, austria:57, france:55, germany:64, liechtenstein:56, luxembourg:67, monaco:55, netherlands:84,
  norway:61, sweden:55, switzerland:61) and `SINGLE` (belgium:54) [C81, `odd` of the samples]. All but three warn of
  sections nothing refers to, and all but two can never fill `building` [C81].
* The three COMMA rules of denmark.gmr:39-41 can never match: no shape gives the class COMMA and no lexicon that comes
  with the sources lists it [C84, example]. In all, 173 lines of 22 sample grammars can do nothing with the lexicon beside
  them, because it does not list the classes they need (CITY, BUILDT, UNITH, UNITT, PROV, QUALIF, ...) [C85_idle]; so Andorra
  and Austria never fill `prov`, Luxembourg, Norway, Sweden and Switzerland never `unit` [C85_null].
* 572 lines of 12 sample lexicons are for words that end in an apostrophe (`ALLÉE D'`, most with ATT_PRE). They are not used
  where a letter follows, which is the only way elisions are written: "5 RUE D'ARC" has the tokens RUE, D, ', ARC. Another 53
  lines in 13 lexicons have a blank at the end of the word (`SUITE ` in belgium.lex), and are used only if two blanks or a
  separator follow [C87_elided, C87_samples, C87_counts, C87_where].
* `DET_PRE` and `DET_SUF` in a lexicon have no effect, nor have `DETACH` and other names that are no attachments. A second
  line for a word and class is never used for its standard word. So 45 lines of 13 sample lexicons come to nothing, 40 of
  them with a standard word of their own: `PL` is never `PLATZ` with switzerland.lex, `MT` never `MOUNT` with usa.lex,
  `BAYERN` never `BAVARIA` with germany.lex. The `attached` column of `std_parse_address` is empty whatever the lexicon says,
  if the address has no tab [C88_detached, C88_shadowed, C88_column, C88_samples, C88_counts].
* The filter is not applied to the words a phrase is broken into: with WORD filtered, `new york` still gives the tokens
  NEW and YORK of that class in the second list. Names in a filter that are no class names are ignored without a message
  [C89_words_kept, C89_unknown].
* A compiled lexicon whose digest is cut off or cut short is used without a message: Boost reads a string without looking
  whether all of it was there, and nothing compares the digest [C90_where]. Text behind a compiled lexicon is ignored [C90_trailing].
* The documentation allows lexicon lines that end in CR LF, but nothing removes the CR: blank lines and entries without
  a list of attachments make the lexicon be refused [C91_refused], other entries lose the last attachment of their list
  [C91_line], a header of four fields gets a locale with a CR [C91_header]. The sample lexicon germany.lex is such a text,
  31 attachments have no effect [C91_germany].
* The headers of monaco.lex (`FRA`) and usa.lex (`USA`) name no known language [C85_loads].
* A separator with two tabs gives a token the class its third field names, or BADTOKEN [C84, example].
* `Trie::quoteChar` returns `"\\" + c`: it adds a `char` to a pointer, so `getRegexp` of the byte trie is
  undefined as soon as a word has a character to be escaped [C74]. Nothing uses the byte trie.
* Parse counters are `int`
  (undefined at 2^31 rows, an outcome of the model); `calloc(0)` returning NULL is reported as
  out of memory (the model's `alloc 0` may fail).

## The model against the project's own tests

`Verif/Check/Suite.lean` evaluates the model on the inputs of `src/test/*.cpp` and states that it yields what those
tests expect. This is evidence for the fidelity of the model, not a claim. Expectations that the code at this commit
cannot meet, with what the model does there:

* a printed token has a further field for `inlex` (src/token.cpp:66); the tests lack it;
* lexicon-test.cpp expects five entries of lex-test.txt, which has six, and patterns without a trie;
* rule-test.cpp expects rules that are not valid to come out empty; the constructor throws (src/rule.cpp:48-50);
* grammar-test.cpp and search-test.cpp expect the rule sections in the order of their names; they are printed in the
  order of the text.

`data/test-usa-patterns` lists 226 addresses with the output classes wished for, to be run with `sample/usa.lex` and
`sample/usa.gmr`. The model (32-bit floats, the patterns read by `readAlt`) yields the wished classes for 97 of them.
Of the other 129, 76 wish for classes that no derivation of the grammar gives (for example `HOUSE UNITH UNITT STREET`, a unit
before the street) and 53 for classes of a derivation whose average score is not greater than that of the classes found.

## Parts not modelled

ICU itself, the class information a Boost archive keeps per member (only its numbers are modelled), a lexicon left
partly filled by an archive that breaks off, the PostgreSQL executor (SPI, tuple building,
memory contexts beyond create/delete callbacks), logging (`elog`, DBG), failures while an opened file is read, of the command
line programs under `src/tester` the lines with times and counters and the programs `read-dump-lexicon`, `regex-tester` and
`compile-grammar`, and the archives of grammars (`grammar.h:36-57`), which only `compile-grammar` writes and the extension
never reads. Of the scripts under `tools`, those
that only concern the development of the project (`add-lic-to-source`, `getting-started.sh`, `run-callgrind`) are not modelled.

## Trusted base

* Lean's kernel (4.33.0).
* The axioms `propext`, `Classical.choice`, `Quot.sound` at most: no theorem depends on anything else
  (no `sorry`, no own axioms, no `native_decide`, no `bv_decide`). `vcheck` prints the axioms per theorem.
* The fidelity of the hand-written model to the cited lines.
* For C101, the part of PostgreSQL and psql written down in `Verif/Spec/Tools.lean`.
* The contracts of libstdc++ (`getline`, `>>`, `std::sort`, `std::map`, `std::set`, `std::string`),
  Boost (regex, `split`, `trim`), ICU and PostgreSQL as stated in the model comments.
* For the cache: memory contexts and heap blocks get addresses that are not in use (`NewAddresses`);
  PostgreSQL calls the delete callback of a context exactly once, when it is deleted; the standardizer
  context is a child of the function's context.
