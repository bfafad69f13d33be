{"id": "C01", "title": "Input-class names and numbers are a faithful encoding", "statement": "Every input token class printed with asString and read back with asType/asOneType gives the same class, its integer code read back with asType(int) gives the same class, two different classes never share a name or a code, and every string or integer that is not the name/code of a class is read as BADTOKEN (never as some other class).", "quantifier": "all input classes, all strings, all integers", "why_tests_cant": "A unit test samples a few of the 38 names and cannot cover all strings/integers.", "anchors": ["src/inclass.cpp: InClass::asString(Type), InClass::asOneType, InClass::asType(int)", "src/inclass.h: InClass::Type"]}
{"id": "C02", "title": "Class lists (filters, lexicon classes) survive print and parse", "statement": "For every set of input classes S, asType(asString(S)) = S, for every non-empty set asString(S) lists each member exactly once in code order separated by single commas, and asType(s) never depends on the order, repetition or surrounding blanks of the comma separated items.", "quantifier": "all sets of input classes; all strings for the order/blank laws", "why_tests_cant": "2^38 sets and all strings.", "anchors": ["src/inclass.cpp: InClass::asString(set), InClass::asType(string), InClass::trimboth"]}
{"id": "C03", "title": "Attachment lists survive print and parse", "statement": "For every set A of attachment kinds, asAttachType(asString(A)) = A, and unknown words in an attachment list (such as DETACH) are ignored and never change the other items.", "quantifier": "all sets of attachment kinds; all strings", "why_tests_cant": "Needs all sets and arbitrary unknown words.", "anchors": ["src/inclass.cpp: InClass::asAttachType, InClass::asString(set<AttachType>)"]}
{"id": "C04", "title": "Language codes and names round trip", "statement": "For every language, asLang applied to its three letter code or to its English name gives that language; every other string gives UNKNOWN.", "quantifier": "all languages, all strings", "why_tests_cant": "All strings for the second half.", "anchors": ["src/inclass.cpp: InClass::asString(Lang), InClass::asName, InClass::asLang"]}
{"id": "C05", "title": "Output-class names and numbers are a faithful encoding", "statement": "Every output class printed and read back gives the same class, its integer code too, names and codes are pairwise distinct, and every other string or integer is read as BADTOKEN.", "quantifier": "all output classes, all strings, all integers", "why_tests_cant": "Tests sample a few names.", "anchors": ["src/outclass.cpp: OutClass::asString, OutClass::asType(string), OutClass::asType(int)"]}
{"id": "C06", "title": "Enumerating token classes yields every combination exactly once", "statement": "For every list of tokens, Token::enumerate returns exactly the lists that choose one class of each token, each exactly once, in lexicographic order, and in particular returns as many patterns as the product of the class counts; provided the product of the counts is below 2^32.", "quantifier": "all token lists of any length with any class sets", "why_tests_cant": "Combinatorial in length and class sets; index arithmetic i*num/cnt%size could be off for sizes never tested.", "anchors": ["src/token.cpp: Token::enumerate"]}
{"id": "C07", "title": "Pattern counting is exact only below 2^64", "statement": "With machine 64-bit arithmetic the index computation i*num/cnt overflows once the product of class counts is large: when it reaches 2^64 the enumeration may come out empty (64 tokens with two classes each enumerate to no pattern at all, although 2^64 combinations exist), and between 2^32 and 2^64 patterns may come out wrong. Below 2^32 the machine arithmetic agrees with exact arithmetic for every token list.", "quantifier": "all token lists", "why_tests_cant": "Cannot be run: needs 2^32 patterns.", "anchors": ["src/token.cpp: Token::enumerate"]}
{"id": "C08", "title": "Filtering tokens removes exactly the filtered classes", "statement": "Applying a class filter to a token list keeps the order, keeps exactly the tokens none of whose classes is in the filter, is idempotent, is monotone in the filter, and filtering by the union of two filters equals filtering successively.", "quantifier": "all token lists and filters", "why_tests_cant": "All lists and filter sets.", "anchors": ["src/tokenizer.cpp: Tokenizer::applyFilter", "src/token.cpp: Token::isInClass"]}
{"id": "C09", "title": "Splitting attached words preserves the text", "statement": "Whenever the tokenizer splits a word into attached prefix/stem/suffix pieces, the pieces are non-empty and concatenated in order give back exactly the original word, whichever prefix and suffix the lexicon recognises (overlapping, adjacent, or covering the whole word); if neither is recognised nothing is split.", "quantifier": "all words, all possible prefix and suffix matches", "why_tests_cant": "Case analysis on relative lengths; overlapping matches are rarely tested.", "anchors": ["src/tokenizer.cpp: Tokenizer::splitToken"]}
{"id": "C10", "title": "Alternative token lists are exactly the choices of which phrases to break up", "statement": "For a token list with m multi-word tokens, getAltTokens returns 2^m - 1 lists: for every non-empty subset of the multi-word tokens exactly one list in which exactly those are broken into single words and all other tokens are unchanged, order kept; with m = 0 it returns nothing.", "quantifier": "all token lists with fewer than 32 multi-word tokens (with more, the shift in the code is undefined)", "why_tests_cant": "Exponential number of subsets.", "anchors": ["src/tokenizer.cpp: Tokenizer::getAltTokens"]}
{"id": "C11", "title": "Tokenizing terminates and never invents, duplicates or reorders text", "statement": "For every input string and every lexicon, getTokens terminates, and the pieces it takes (skipped text, leading blanks, token, separator) are consecutive, non-overlapping pieces that reassemble to a prefix of the prepared input; each round consumes at least one character; only text that ends with a line separator is ever skipped, so on one line nothing is; a token without a separator is only taken at the very end; and what is taken as a token is a phrase of the lexicon, a number, decimal or fraction, a word, or letters and digits. The tokens of a piece are those of its word (one token if the lexicon lists it, else pieces that put together are the word, with at most one comma turned into a point) followed by one token for its trimmed separator, each classified, less the filtered ones.", "quantifier": "all input strings, all lexicons, all character tables in which line separators are blanks", "why_tests_cant": "Loop progress on adversarial input, any lexicon content.", "anchors": ["src/tokenizer.cpp: Tokenizer::getTokens"]}
{"id": "C12", "title": "Untokenizable text is dropped, not reported", "statement": "When the remaining input does not start (after blanks) with a recognisable token followed by a separator or the end, getTokens stops and silently drops all remaining text of that input: the tokens returned are exactly those of the text before that point. In particular text that begins with punctuation yields no tokens when the lexicon is non-empty.", "quantifier": "all input strings starting with a punctuation character; all non-empty lexicons whose words do not begin with it", "why_tests_cant": "Behaviour for all malformed inputs.", "anchors": ["src/tokenizer.cpp: Tokenizer::getTokens"]}
{"id": "C13", "title": "Classification is total and prioritised", "statement": "Every token that has been classified carries at least one class; when the lexicon lists the token's text with some class, its classes are exactly the union of the classes of the matching entries; otherwise they are determined by the first applicable shape in the documented order (decimal, number, @, /, fraction, digits+letter, letter+digits, word, em dash, dash, ampersand, blank, punctuation, caller's default).", "quantifier": "all texts, all lexicons, all default classes", "why_tests_cant": "All texts and lexicons.", "anchors": ["src/lexicon.cpp: Lexicon::classify"]}
{"id": "C14", "title": "Length-sensitive classes count bytes", "statement": "SINGLE, DOUBLE, QUAD and QUINT are assigned by UTF-8 byte length: they agree with the number of characters for every pure ASCII word or number, but a one-letter word outside ASCII of two bytes is classified DOUBLE rather than SINGLE.", "quantifier": "all words and numbers", "why_tests_cant": "All strings, including non-ASCII ones.", "anchors": ["src/lexicon.cpp: Lexicon::classify"]}
{"id": "C15", "title": "Lexicon entries survive print and parse", "statement": "For every lexicon entry whose word and standard word contain no tab, printing it and parsing the printed line gives an equal entry. An entry made from word, standard word, list of classes and list of attachments is that of the line with these fields; whether it is a prefix or a suffix, may be attached or detached, is what the items of its list of attachments name (with blanks around), other items being ignored, and every entry is attached or detached, detached if none is named.", "quantifier": "all entries", "why_tests_cant": "All words, standard words, class sets and attachment sets.", "anchors": ["src/lexentry.cpp: LexEntry::LexEntry(string), operator<<", "src/lexentry.cpp:22-91", "src/lexentry.cpp:108-113"]}
{"id": "C16", "title": "A lexicon behaves as a map from words to duplicate-free entry lists", "statement": "After any sequence of insert and remove calls, find(w) returns exactly the entries for w inserted and not later removed, in insertion order, never two equal ones and only entries whose word is w; other words are unaffected by an operation; inserting an entry already present and removing an absent one change nothing; the count printed in the header is the number of distinct words that have entries.", "quantifier": "all histories of insert/remove of any length", "why_tests_cant": "Histories of arbitrary length.", "anchors": ["src/lexicon.cpp: Lexicon::insert, Lexicon::remove, Lexicon::find, operator<<"]}
{"id": "C17", "title": "The cached lexicon patterns always reflect the current entries", "statement": "After any interleaving of insert, remove and pattern requests, regex(), regexPrefixAtt() and regexSuffixAtt() return the same pattern a freshly built lexicon with the same entries would return.", "quantifier": "all histories of insert, remove, regex, regexPrefixAtt, regexSuffixAtt", "why_tests_cant": "Stale caches depend on the history of calls.", "anchors": ["src/lexicon.cpp: Lexicon::regex, regexPrefixAtt, regexSuffixAtt, insert, remove"]}
{"id": "C18", "title": "Loading a lexicon text is all or error", "statement": "Loading a lexicon text either reports an error or yields a lexicon whose entries are exactly those described by the LEXENTRY lines after the LEXICON header, in order and without duplicates; blank lines are the only lines ignored after the header; a line of any other form, or with an unknown class, is an error.", "quantifier": "all lexicon texts", "why_tests_cant": "All texts.", "anchors": ["src/lexicon.cpp: Lexicon::initialize", "src/lexentry.cpp: LexEntry::LexEntry(string)"]}
{"id": "C19", "title": "A printed lexicon loads back to an equal lexicon", "statement": "For every lexicon built by insert and remove whose words and standard words are normalised (and, if there is a locale, upper-case) text without tabs, line ends or repeated blanks, whose name and locale contain no tabs or line ends and whose entries have no unknown class, printing it and loading the printed text under the same name gives a lexicon with the same language, locale and, for every word, the same entries in the same order; it prints the same.", "quantifier": "all such lexicons", "why_tests_cant": "All lexicon contents.", "anchors": ["src/lexicon.cpp: operator<<, Lexicon::initialize"]}
{"id": "C20", "title": "Standard text of a token comes from the first entry with its class", "statement": "standardize sets a token's standard text to that of the first lexicon entry for its text that has the token's (first) class; if that entry has an empty standard word, to the token's text; if there is no such entry the token keeps its own standard text or else gets its text; no other field of the token changes and the standard text is never empty for a token with non-empty text.", "quantifier": "all lexicons and tokens with at least one class", "why_tests_cant": "All lexicons and tokens.", "anchors": ["src/lexicon.cpp: Lexicon::standardize"]}
{"id": "C21", "title": "The word pattern matches exactly the words, longest first", "statement": "The regular expression a trie generates from any list of words (free of the unescaped metacharacters ^ { }) with at least one non-empty word, read with Perl backtracking rules, matches at the start of a text exactly the non-empty words of the list that are a prefix of the text, each once and the longest first; so the first match attempted is the longest. Without a non-empty word the pattern is (?:), which matches exactly the empty text.", "quantifier": "all word lists, all texts", "why_tests_cant": "Language equality over infinitely many texts and word sets.", "anchors": ["src/trieutf8.cpp: TrieUtf8::getRegexp, TrieUtf8::quoteMeta"]}
{"id": "C22", "title": "Pattern characters that are not escaped change the language", "statement": "A word containing ^ is not escaped. Whenever the words are single characters, ^ is one of them and comes first in code point order, and there is at least one other, the generated pattern is a negated class: it matches none of the other words, and matches every single character that is not one of them. In particular for the words ^ and a it does not match a but does match b.", "quantifier": "all lists of one-character words with ^ as the smallest, none of them { or }", "why_tests_cant": "A unit test tries one list of words; the claim is about every such list and every text.", "anchors": ["src/trieutf8.cpp: TrieUtf8::quoteMeta"]}
{"id": "C23", "title": "Trie membership, prefixes and listings are exact", "statement": "After adding any list of words, isWord(w) holds iff w is non-empty and was added, isPrefix(p) iff p is empty or a prefix of an added word, getWords returns exactly the distinct non-empty added words in code point order, getWordsStartingWith(p) exactly those that start with p, and size() is the number of non-empty words added.", "quantifier": "all lists of words, all queries", "why_tests_cant": "All word lists.", "anchors": ["src/trieutf8.cpp: addWord, isPrefix, isWord, getWords, getWordsStartingWith"]}
{"id": "C24", "title": "Encoding a code point and decoding it gives it back", "statement": "For every code point below 0x110000 the encoded byte string decodes to the same code point and its length is the shortest UTF-8 length; for every larger value encoding reports an error; different code points have different encodings and no encoding is a prefix of another; texts compare byte by byte exactly as they compare code point by code point.", "quantifier": "all 32-bit values", "why_tests_cant": "Over a million code points and 4 billion values.", "anchors": ["src/utf8iterator.cpp: Utf8Iterator::CodePointToUtf8, Utf8Iterator::CalculateCurrentCodePoint"]}
{"id": "C25", "title": "Walking a UTF-8 string visits every character once and stays in bounds", "statement": "On every string that is the UTF-8 encoding of a code point sequence, iterating forward with ++ yields exactly that sequence and ends exactly at the end of the string, iterating backward with -- from the end yields it in reverse, -- undoes ++ everywhere and no byte outside the string is read; after any sequence of ++, -- and * within bounds * yields the character at the current position.", "quantifier": "all code point sequences, all in-bounds walks", "why_tests_cant": "All strings and walks.", "anchors": ["src/utf8iterator.cpp: operator++, operator--, operator*, CalculateCurrentCodePoint"]}
{"id": "C26", "title": "A rule line is accepted iff it is well formed, and means what it says", "statement": "Rule(line) succeeds iff the line has as many words before the first -> as between the first and second, and the last word after the second -> (before a third) is a number that is not <= 0; the rule's input and output classes are the named ones in order (unknown names read as BADTOKEN) and its score is that number.", "quantifier": "all lines", "why_tests_cant": "All strings.", "anchors": ["src/rule.cpp: Rule::Rule(string), Rule::isValid"]}
{"id": "C27", "title": "Trailing blanks on a rule line are irrelevant", "statement": "Appending any blanks, tabs or a carriage return to a rule line changes neither whether it is accepted nor the resulting rule.", "quantifier": "all lines and all blank suffixes", "why_tests_cant": "All lines.", "anchors": ["src/rule.cpp: Rule::Rule(string)"]}
{"id": "C28", "title": "A printed rule reads back as the same rule", "statement": "For every valid rule whose score prints and reads back exactly, printing it and parsing the line gives an equal rule.", "quantifier": "all valid rules", "why_tests_cant": "All rules.", "anchors": ["src/rule.cpp: operator<<, Rule::Rule(string)"]}
{"id": "C29", "title": "A constructed grammar is closed and has a root", "statement": "If constructing a Grammar from a text succeeds then there is a section ADDRESS, every section reference in every meta rule names a section of the grammar, section names are pairwise distinct, and every rule is valid; hence a search never meets an undefined section.", "quantifier": "all grammar texts", "why_tests_cant": "All texts.", "anchors": ["src/grammar.cpp: Grammar::initialize, Grammar::updatePointers", "src/search.cpp: Search::stringToSectionPtr"]}
{"id": "C30", "title": "The grammar check status is exact", "statement": "The check is FATAL iff a reference is undefined or there is no ADDRESS section; otherwise WARN iff some section other than ADDRESS is referenced by no meta rule; otherwise OK; issues() is empty iff the status is OK, and construction fails iff the text is malformed or the status is FATAL.", "quantifier": "all grammars", "why_tests_cant": "All grammars.", "anchors": ["src/grammar.cpp: Grammar::updatePointers, Grammar::initialize, Grammar::check"]}
{"id": "C31", "title": "Looking up a section by name finds the section of that name", "statement": "In every constructed grammar, looking up a name returns the (meta or rule) section with exactly that name and its lines in text order, and reports an error exactly if the grammar has no such section; the meta/rule index confusion possible with a shared index table never happens.", "quantifier": "all grammar texts, all names", "why_tests_cant": "All interleavings of meta and rule sections.", "anchors": ["src/search.cpp: Search::stringToSectionPtr", "src/grammar.cpp: Grammar::initialize sectionIndex_"]}
{"id": "C32", "title": "The meaning of a grammar text", "statement": "A grammar text is accepted exactly if every non-comment, non-blank line is a header, or belongs to a section of uniform kind and is a valid rule or contains @; and then the sections are the non-empty headed groups in order. A line that contains @ but is not a list of @name references is accepted and silently dropped.", "quantifier": "all grammar texts", "why_tests_cant": "All texts.", "anchors": ["src/grammar.cpp: Grammar::initialize"]}
{"id": "C33", "title": "A missing final newline duplicates the last line", "statement": "A grammar text without final newline is read as the text in which its last line is repeated (so a final rule occurs twice in its section), while with final newline each line is read once; loading a lexicon is insensitive to this, because inserting an entry twice has no effect, provided the last line is stable under the normalisation applied to it (upper-casing Greek text is not: then an additional entry appears).", "quantifier": "all texts", "why_tests_cant": "All texts.", "anchors": ["src/grammar.cpp: Grammar::initialize", "src/lexicon.cpp: Lexicon::initialize"]}
{"id": "C34", "title": "A byte order mark swallows the first character", "statement": "Loading a grammar or lexicon text preceded by a UTF-8 byte order mark behaves as loading the text without its first character (or fails if the first line is empty); in particular a grammar starting with [ADDRESS] preceded by a BOM is rejected.", "quantifier": "all texts", "why_tests_cant": "All texts.", "anchors": ["src/grammar.cpp: Grammar::initialize", "src/lexicon.cpp: Lexicon::initialize"]}
{"id": "C35", "title": "Search terminates for every grammar", "statement": "search() terminates for every grammar, including left-recursive, mutually recursive and empty-rule grammars, every pattern and every token list.", "quantifier": "all grammars, all token lists", "why_tests_cant": "Non-termination on recursive grammars cannot be excluded by running.", "anchors": ["src/search.cpp: Search::search, match, matchNext, matchRule"]}
{"id": "C36", "title": "Search is sound", "statement": "Every result of search(phrase) is the sequence of rules of a derivation of the grammar from ADDRESS, and the concatenated input classes of its rules choose one of the classes of each token of the phrase, covering all tokens exactly once in order.", "quantifier": "all grammars, all token lists", "why_tests_cant": "All grammars and phrases.", "anchors": ["src/search.cpp: Search::search, match, matchNext, matchRule"]}
{"id": "C37", "title": "Search is complete up to the nesting limit, and only up to it", "statement": "search(phrase) finds every derivation from ADDRESS that covers the phrase and expands at most (number of tokens + 2) meta rules in total; derivations expanding more meta rules are never found, so there are grammars and phrases with a derivation for which search returns nothing.", "quantifier": "all grammars, all token lists with fewer than 2^32 ways to choose one class of each token", "why_tests_cant": "All grammars and phrases.", "anchors": ["src/search.cpp: Search::match, recursion_limit_"]}
{"id": "C38", "title": "Search results repeat", "statement": "search may return the same derivation many times: for every k and n there are a grammar and phrase with k^n derivations for which k^(2n-1) results are returned; the set of results is nevertheless right.", "quantifier": "all k, n", "why_tests_cant": "Growth law for all sizes.", "anchors": ["src/search.cpp: Search::matchNext"]}
{"id": "C39", "title": "The best match has the highest average score and is the earliest such", "statement": "searchAndReclassBest(phrase) returns the average rule score of the first search result whose average is exceeded by no other result's average, the tokens classified by that result and the number of its rules. If no average is above zero (for loaded grammars: all averages are NaN) it returns the first result with score 0 and number of rules -1.", "quantifier": "all grammars, phrases and score values (including NaN)", "why_tests_cant": "All result lists.", "anchors": ["src/search.cpp: Search::searchAndReclassBest"]}
{"id": "C40", "title": "Reclassified tokens keep text and order and get classes they had", "statement": "For every search result, reclassification succeeds: every token keeps its text, its input class becomes one of the classes it had and its output class the one the matching rule gives to that position; no index is out of range; the score is never -2. reclassTokens with a path that does not fit reports failure: with another number of classes nothing is changed, otherwise exactly the tokens before the first one that lacks its class are changed.", "quantifier": "all grammars, phrases and search results", "why_tests_cant": "All grammars and phrases.", "anchors": ["src/search.cpp: Search::reclassTokens, Search::searchAndReclassBest"]}
{"id": "C41", "title": "No match is reported as score -1 and only then", "statement": "searchAndReclassBest(phrase) reports score -1, no tokens and an empty pattern iff search has no result; otherwise the score is >= 0, as many tokens as the phrase are returned and the pattern string is the one of these tokens.", "quantifier": "all constructed grammars, all phrases", "why_tests_cant": "All grammars and phrases.", "anchors": ["src/search.cpp: Search::searchAndReclassBest"]}
{"id": "C42", "title": "Among several token lists the first with the best score wins", "statement": "searchAndReclassBest(phrases) returns the result of the first phrase whose score is exceeded by no other; it reports -1 and nothing iff no phrase matches.", "quantifier": "all lists of phrases", "why_tests_cant": "All lists.", "anchors": ["src/search.cpp: Search::searchAndReclassBest(phrases)"]}
{"id": "C43", "title": "Listing all matches gives one row per search result", "statement": "searchAndReclassAll(phrases) returns, phrase by phrase in order, one row per search result with its pattern, average score and number of rules, and one row 'Failed to match to grammar!' with score -1 if no phrase matches; it is never empty. If averages are exact in both precisions (rows use double, the best match float) and positive, the best score among the rows is the score searchAndReclassBest reports; without exactness the reported match need not be the best row.", "quantifier": "all lists of phrases", "why_tests_cant": "All lists.", "anchors": ["src/search.cpp: Search::searchAndReclassAll"]}
{"id": "C44", "title": "The pattern string lists the input then the output classes", "statement": "For every reclassified token list the pattern string is the space separated input class names, ->, the space separated output class names, equally many, and can be read back to the classes.", "quantifier": "all token lists", "why_tests_cant": "All token lists.", "anchors": ["src/search.cpp: Search::toString"]}
{"id": "C45", "title": "Each standardized token lands in exactly one address field, in order", "statement": "In the standardized address each field is the blank separated concatenation, in token order, of the standard texts of exactly the tokens whose output class belongs to the field, and is NULL iff there is no such token; every token except IGNORE ones appears in exactly one field.", "quantifier": "all token lists", "why_tests_cant": "All token lists.", "anchors": ["src/as_wrapper.cpp: standardize_addr"]}
{"id": "C46", "title": "Parse rows are numbered consecutively and cover all alternatives", "statement": "parse returns one row per token of each alternative token list, alternatives numbered from 0 in order: number 0 is the tokens of the address, the others the ways to break up its phrases into words; the token sequence number runs on across alternatives (it does not restart), so it is unique and equals the row position.", "quantifier": "all lists of token lists with fewer than 2^31 tokens and lists, given memory for the rows; all addresses with fewer than 32 phrases", "why_tests_cant": "All lists.", "anchors": ["src/as_wrapper.cpp: parse_addr", "src/address_standardizer.c: as_parse"]}
{"id": "C47", "title": "Match rows are sorted by score and complete", "statement": "The rows reported by match are a permutation of the matches found, sorted by descending score, provided no score is NaN; a NaN score is accepted in a grammar and breaks the ordering contract of the sort.", "quantifier": "all match lists", "why_tests_cant": "All lists; unspecified order of equal elements.", "anchors": ["src/as_wrapper.cpp: match_addr, sortByScoresDesc"]}
{"id": "C48", "title": "Standardization succeeds iff the best score is non-negative, and errors are reported", "statement": "For every input standardize_addr either returns an address (with error message NULL), or no address; it returns no address without error exactly if no token list matches the grammar, and an error message exactly if an exception was raised. Memory that is not granted for the result (the address, or all rows of as_parse or as_match at once) gives no result and the message Out of memory!, and makes no other difference.", "quantifier": "all inputs and outcomes of the called components", "why_tests_cant": "All failure points.", "anchors": ["src/as_wrapper.cpp: standardize_addr, std_standardize_ptrs", "src/as_wrapper.cpp: parse_addr, match_addr"]}
{"id": "C49", "title": "The standardizer cache returns an object built from the requested texts", "statement": "After any history of calls, the standardizer object obtained for (lexicon, grammar) was built from texts with the same digests as the requested ones; if digests of the texts used do not collide it was built from exactly the requested texts.", "quantifier": "all histories of calls", "why_tests_cant": "Histories of arbitrary length with evictions.", "anchors": ["src/std_pg_hash.c: GetStdUsingFCInfo, GetStdFromPortalCache, IsInStdPortalCache, AddToStdPortalCache"]}
{"id": "C50", "title": "The cache holds at most four distinct standardizers and evicts the oldest", "statement": "After any history the cache holds at most 4 entries, with pairwise distinct digest pairs, and they are the last up to 4 distinct created ones; a miss on a full cache evicts exactly the one created first among those held; a hit changes nothing.", "quantifier": "all histories of calls", "why_tests_cant": "Histories of arbitrary length.", "anchors": ["src/std_pg_hash.c: AddToStdPortalCache, DeleteNextSlotFromStdCache"]}
{"id": "C51", "title": "Every standardizer is destroyed exactly once and never used afterwards", "statement": "In every history of calls followed by the end of the query, every created standardizer is destroyed exactly once; no call returns a destroyed one; destruction never finds a missing backend hash entry; the backend hash has an entry exactly for the live ones.", "quantifier": "all histories of calls, then shutdown", "why_tests_cant": "Double free / use after free depend on histories.", "anchors": ["src/std_pg_hash.c: StdCacheDelete, AddStdHashEntry, GetStdHashEntry, DeleteStdHashEntry, DeleteNextSlotFromStdCache, std_free"]}
{"id": "C52", "title": "Standardizing is history independent", "statement": "The result of as_standardize depends only on its arguments: it is the same as in a fresh session, whatever calls were made before with whatever lexicons and grammars, provided the digests of the texts do not collide.", "quantifier": "all histories of calls", "why_tests_cant": "Histories of arbitrary length.", "anchors": ["src/std_pg_hash.c", "src/as_wrapper.cpp: std_standardize_ptrs", "src/lexicon.cpp: cached patterns"]}
{"id": "C53", "title": "A bad lexicon or grammar crashes instead of raising an error", "statement": "Creating a standardizer dereferences a null error pointer whenever building the lexicon or the grammar fails; it succeeds without undefined behaviour iff both texts are valid.", "quantifier": "all pairs of texts", "why_tests_cant": "All failure paths.", "anchors": ["src/std_pg_hash.c: CreateStd", "src/as_wrapper.cpp: getLexiconPtr, getGrammarPtr"]}
{"id": "C54", "title": "The digest does not depend on how the text is fed", "statement": "Feeding a text to the digest in any sequence of pieces gives the same digest as feeding it at once.", "quantifier": "all texts, all ways of cutting them into pieces of less than 4 GB", "why_tests_cant": "All chunkings around block boundaries.", "anchors": ["src/md5.cpp: MD5::update, MD5::finalize"]}
{"id": "C55", "title": "The digest is 32 lower case hex digits, available only after finalize", "statement": "hexdigest is empty before finalize and afterwards 32 lower case hexadecimal digits encoding the 16 digest bytes; finalize a second time changes nothing; what is fed after finalize never changes the digest.", "quantifier": "all texts", "why_tests_cant": "All texts.", "anchors": ["src/md5.cpp: MD5::hexdigest, MD5::finalize"]}
{"id": "C56", "title": "Padding and block buffering follow RFC 1321", "statement": "For every text shorter than 2^32 - 64 bytes the blocks that are hashed are exactly the 64-byte blocks of the text followed by 0x80, the least number of zero bytes and the 64-bit little-endian bit length; the internal buffer is never overrun; of a text of 2^32 bytes or more only the length modulo 2^32 is hashed, and for the 64 lengths just below 2^32 the loop reads beyond the text.", "quantifier": "all texts", "why_tests_cant": "All lengths, including around multiples of 64.", "anchors": ["src/md5.cpp: MD5::update, MD5::finalize"]}
{"id": "C57", "title": "The digest is not MD5", "statement": "The mixing functions of rounds 1 and 2 differ from RFC 1321 (operator precedence), characterised for all words; the digest of a concrete text differs from its RFC 1321 MD5 digest.", "quantifier": "all 32-bit words; a witness text", "why_tests_cant": "2^96 argument triples.", "anchors": ["src/md5.cpp: MD5::F, MD5::G"]}
{"id": "C58", "title": "Search statistics counters are exact", "statement": "After any sequence of count and clear calls, getCount(key) is the number of count(key) calls since the last clear.", "quantifier": "all histories", "why_tests_cant": "Histories of arbitrary length.", "anchors": ["src/utils.cpp: Utils::count, Utils::clear, Utils::getCount"]}
{"id": "C59", "title": "The order of the sections of a grammar is irrelevant", "statement": "Writing the sections of a grammar text (each with at least one line that is not a comment) in any other order changes neither whether the text is accepted, nor the check status, nor the results of any search, their order and their number; so standardize and match return the same.", "quantifier": "for all lists of sections and all permutations of them, all section names and token lists searched, all lexicons, addresses, locales and filters", "why_tests_cant": "A test compares a few orders; the sections live in two indexed vectors linked by pointers computed after loading, so every permutation yields other indices, and there are unboundedly many grammars.", "anchors": ["src/grammar.cpp:44-165", "src/grammar.cpp:213-260", "src/search.cpp:29-200", "src/as_wrapper.cpp:104-140"]}
{"id": "C60", "title": "Adding rules to a grammar never loses a match", "statement": "If every rule of a grammar is also in the section of the same name of a second one (for instance because one line that is not a header was inserted anywhere in its text, both texts being accepted), every search result with the first grammar is one with the second, the best score with the second is not lower, and an address that could be standardized still can.", "quantifier": "for all pairs of accepted grammars of which one contains the rules of the other, all token lists, all texts and inserted lines", "why_tests_cant": "Adding a rule changes the nesting and the order of everything that is searched; that nothing found before is lost or outranked by something worse is a statement about all grammars and inputs.", "anchors": ["src/search.cpp:29-330", "src/grammar.cpp:44-165", "src/as_wrapper.cpp:104-140"]}
{"id": "C61", "title": "A printed grammar loads back to the same grammar", "statement": "Loading what operator<< prints for a constructed grammar gives a grammar with the same sections in the same order, the same status, the same results of every search and the same printed form, provided every meta section has a rule and every score survives printing; a meta section whose lines were all dropped on loading is printed empty and the printed text is then rejected.", "quantifier": "for all grammar texts that are accepted, all character tables with '-' not a space, all section names and token lists searched", "why_tests_cant": "The loader rewrites lines (comments, spacing, separators between references) and the printer writes another form of them; that the two agree for every accepted grammar is a statement about all texts.", "anchors": ["src/grammar.cpp:289-298", "src/metarule.cpp:39-49", "src/metasection.cpp:24-29", "src/rulesection.cpp:24-29", "src/rule.cpp:145-156"]}
{"id": "C62", "title": "A compiled lexicon gives the same results as its source text", "statement": "If as_compile_lexicon accepts a lexicon text and returns a string, then as_standardize, as_parse and as_match (through std_standardize, std_parse_address, std_match_address) return with that string, under the same or a later version of the archive library, exactly what they return with the text itself, errors included; it accepts a text exactly if the lexicon loads, and otherwise raises the message. A lexicon compiled with an earlier class version (below 2) is refused by all three with the request to compile again, and a compiled lexicon cannot be compiled again.", "quantifier": "for all lexicon texts without NUL that do not themselves begin like an archive, all library versions, all addresses, grammars, locales and filters, every environment whose ICU does not invent NUL", "why_tests_cant": "The archive stores maps, sets and enumerations as length-prefixed text and stores the three cached regular expressions as well; that no lexicon is changed by writing and reading, whatever characters its words hold, is a statement about all lexicons.", "anchors": ["src/as_wrapper.cpp:641-686", "src/as_wrapper.cpp:52-98", "src/lexicon.h:33-70", "src/lexentry.h:27-33", "src/address_standardizer.c:112-135"]}
{"id": "C63", "title": "as_parse and as_match deliver each row once, in order, and hide errors", "statement": "as_parse returns one row for every token of every token list, in order, with the number of the list and the number of the row counted from 1; as_match returns one row (tokens, score) for every match of every token list, best score first, and one row saying that nothing matched if there is none, so never zero rows. A query that fetches k rows gets the first k; the call after the last row ends the set and frees the array exactly once (as_parse: unless there is no row); a query that stops earlier leaves the array allocated. If the lexicon, the grammar or the address makes the library throw, both functions return zero rows and no error. The number of rules that the code puts into a match row is not among the declared columns and never delivered.", "quantifier": "for all addresses, lexicons, grammars, locales, filters, all numbers of calls, fewer than 2^31 rows, no NaN score for the order", "why_tests_cant": "The value-per-call protocol has a state machine over any number of calls and rows, including queries that stop at any point; tests see a few complete queries.", "anchors": ["src/address_standardizer.c:305-428", "src/address_standardizer.c:451-560", "src/address_standardizer.c:84-97", "src/address_standardizer2--2.0.sql.in:44-71"]}
{"id": "C64", "title": "as_standardize returns the best match under the declared column names, or all NULLs", "statement": "Whatever was called before in the query, as_standardize returns a row of 17 columns. It is all NULL if and only if no token list of the address matches the grammar; otherwise each column, under the name declared in SQL, holds the standard texts of the tokens of the best match that belong to it, separated by blanks, NULL if there are none, and pattern holds the pattern of the match.", "quantifier": "for all call histories, lexicons and grammars that load, addresses without NUL, lexicons whose standard words have no NUL, digests without collision among the texts used", "why_tests_cant": "Composes the cache, loading, tokenizing, searching, the C structure and the positional tuple over all inputs and histories; a swapped column or a stale cached standardizer only shows for particular texts or orders of calls.", "anchors": ["src/address_standardizer.c:183-280", "src/address_standardizer2--2.0.sql.in:10-35", "src/as_wrapper.cpp:100-250"]}
{"id": "C65", "title": "Every returned address is explained by a best derivation of the grammar", "statement": "If std_standardize returns an address, there is one of the token lists of the text and a derivation from the section ADDRESS of the grammar whose input classes choose one class of each token of that list, such that no derivation of any token list within the nesting limit has a better positive average score; the fields of the address are the standard texts of these tokens by the output classes of the derivation, and the pattern text lists these input and output classes.", "quantifier": "for all addresses, grammar texts, lexicon texts, locales, filters; scores under any arithmetic in which < is a strict weak order on positive values; compared with the derivations of all token lists with fewer than 2^32 ways to choose one class of each token", "why_tests_cant": "Optimality over all derivations of all alternatives, and soundness of the returned fields with respect to the grammar, are statements about every grammar and text.", "anchors": ["src/as_wrapper.cpp:100-250", "src/as_wrapper.cpp:52-98", "src/search.cpp:19-164", "src/lexicon.cpp:181-198"]}
{"id": "C66", "title": "No characters are invented or cut off", "statement": "The text of every token is a contiguous piece of the normalised, upper-cased address, in which a comma may have become a point, or a single blank; so every character of it comes from there or is a blank or a point; every character of every field of a returned address comes from there or from a standard word of the lexicon; and with no NUL character in the address or in the standard words no field is cut off.", "quantifier": "for all addresses, grammars, lexicons, locales and filters, every ICU, every character table", "why_tests_cant": "Splitting, trimming, comma replacement, alternatives, reclassification, standard words and conversion to C strings each handle text; that none of them ever adds characters or cuts a field needs all inputs.", "anchors": ["src/tokenizer.cpp:39-300", "src/lexicon.cpp:181-198", "src/as_wrapper.cpp:100-250"]}
{"id": "C67", "title": "Only the locale and the entries of each word of a lexicon matter", "statement": "Two lexicon texts with the same locale which, word for word, list the same different entries in the same order give the same results of std_standardize, std_parse_address and std_match_address for every address: name, language, comments before the header, blank lines, repeated lines, and the order of the lines for different words do not matter.", "quantifier": "for all pairs of lexicon texts that load, all addresses, grammars, locales and filters, every environment", "why_tests_cant": "It compares all pairs of texts; the lexicon is kept in a map, deduplicated on insertion, and three cached patterns are built from it, each of which could depend on the order of insertion.", "anchors": ["src/lexicon.cpp:67-145", "src/lexicon.cpp:313-500", "src/as_wrapper.cpp:52-98"]}
{"id": "C68", "title": "Lexicon words that do not occur in an address do not influence it", "statement": "If two lexicon texts with the same locale have the same entries for every word that occurs in the upper-cased, normalised address (as a contiguous part, ignoring case and the difference of comma and point; the blank always counts), then std_standardize, std_parse_address and std_match_address return the same with both. In particular adding entries for words that do not occur changes nothing.", "quantifier": "for all pairs of lexicon texts with at least one word each, words in the canonical case without ^ { }, all addresses, grammars, locales, filters; patterns read as regular expressions", "why_tests_cant": "All words of a lexicon are compiled into one regular expression, and looking up, splitting off attached words and building alternatives all consult the whole lexicon; that none of this is disturbed by other words is a statement about all lexicons and texts.", "anchors": ["src/tokenizer.cpp:39-300", "src/lexicon.cpp:377-500", "src/trieutf8.cpp:123-180"]}
{"id": "C69", "title": "The patterns of a loaded lexicon accept exactly the words of its entries", "statement": "After loading a lexicon text, the pattern for words offers at every position exactly the words of the entries that the text continues with, longest first and without regard to case; the pattern for attached prefixes exactly those of the entries marked ATT_PRE, that for attached suffixes exactly those marked ATT_SUF.", "quantifier": "for all lexicon texts with words in the canonical case without ^ { }, all texts", "why_tests_cant": "Composes loading, deduplication, the map, the trie and the regular expression over all lexicons; unit tests compare patterns for a few word lists.", "anchors": ["src/lexicon.cpp:377-500", "src/trieutf8.cpp:123-180", "src/tokenizer.cpp:60-110"]}
{"id": "C70", "title": "Which of the possible readings of an address the tokenizer takes", "statement": "An address, normalised and in upper case, splits in exactly one way: text before the first place that can be read (at the beginning of a line) is skipped; there the best reading is taken, and reading goes on behind it until nothing can be read. Readings consist of blanks, a token and a separator or the end of the line; more blanks are preferred first, then the kind of token (lexicon phrase, decimal or fraction, number, word, letters, letters and digits), then the longer token, then the longer separator. getTokens returns the tokens of the words and separators of that split. In particular the longest lexicon phrase that is followed by a separator or the end wins, and a number is not broken.", "quantifier": "for all addresses, lexicons with words in the canonical case without ^ { }, filters, character tables; patterns read as regular expressions", "why_tests_cant": "The choice is made by backtracking in a regular expression built from the lexicon; which alternative wins is a statement about all competing readings of all texts.", "anchors": ["src/tokenizer.cpp:190-260", "src/trieutf8.cpp:123-180"]}
{"id": "C71", "title": "Case, and blanks around an address, do not matter", "statement": "std_standardize, std_parse_address and std_match_address depend on an address only through its upper-cased normal form, so addresses that differ in case only have the same results. If no word of the lexicon begins with a blank, blanks before an address change nothing. If no word of the lexicon ends with a blank, spaces behind an address add at most one token, that of a single space, at the end; so if SPACE is filtered out they change nothing.", "quantifier": "for all addresses (for spaces behind: without tabs), numbers of blanks, lexicon texts with at least one word and words in the canonical case without ^ { }, grammars, locales, filters; patterns read as regular expressions", "why_tests_cant": "The blanks take part in the backtracking of the token expression at every place of the text, and the split of the rest could shift; that it does not is a statement about all texts and lexicons.", "anchors": ["src/tokenizer.cpp:164-268", "src/as_wrapper.cpp:104-117", "src/token.cpp:123-145"]}
{"id": "C72", "title": "The text form of a token", "statement": "A token made from a text takes its fields (text, standard text, classes, output class, attachments) from the parts between tabs, after an optional tag TOKEN:; missing parts are empty. A printed token whose texts have no tabs is read back, except that it is no longer marked as coming from a lexicon. Of a text with a tab only the part before the first tab is the text of the token, so an address separator that begins with a tab gives a token without text. Trimming takes away exactly the blanks on the chosen sides; blanks alone become one space.", "quantifier": "for all texts, all tokens, all values of the argument of trim", "why_tests_cant": "The code keeps the old content of a variable when the stream is exhausted, so the number of fields and the tag interact; a few sample lines do not settle this. Every word and separator of an address goes through this constructor.", "anchors": ["src/token.cpp:28-68", "src/token.cpp:123-145", "src/tokenizer.cpp:205-245"]}
{"id": "C73", "title": "Matching, joining and inspecting rules", "statement": "A rule matches a pattern iff the pattern begins with its input classes. Positions beyond the end give BADTOKEN. The concatenation of two rules has the classes of both in order and half the sum of the scores, matches iff the first matches and the second matches what follows, and is valid if both are; its score depends on how three rules are grouped exactly if the first and third score differ. The default-constructed rule is empty; a rule with a class, and a rule read from a line, is not.", "quantifier": "for all rules, patterns, positions, lines; scores of any number type (grouping: exact numbers)", "why_tests_cant": "rule-test.cpp concatenates one pair of rules; it does not call match, and it expects lines that the constructor rejects to give empty rules.", "anchors": ["src/rule.cpp:54-112", "src/rule.h:38-60"]}
{"id": "C74", "title": "The trie over bytes", "statement": "A byte trie answers isWord, isPrefix, getWords, getWordsStartingWith and size as a set of the non-empty words added would, listing words in the order of unsigned bytes although its children are kept in the order of signed chars. getRegexp is defined iff no word added has one of the characters to be escaped; for ASCII words without pattern characters it is the expression of the trie over characters and matches exactly the words, the longest first.", "quantifier": "for all lists of byte strings, in any order and with repetitions; all texts", "why_tests_cant": "No test uses the class; a test of one word with a dot may appear to work because the behaviour is undefined, and the set of words is unbounded.", "anchors": ["src/trie.cpp:22-154", "src/trie.h:34-60"]}
{"id": "C75", "title": "Sections ADDRESS does not lead to have no effect", "statement": "What a search finds, and so the standardized address and the listed matches, depends only on the sections that can be reached from ADDRESS by references; in particular adding a whole section that no reachable rule refers to changes nothing.", "quantifier": "for all pairs of accepted grammars that agree on the sections reachable from ADDRESS, all token lists, addresses and lexicons", "why_tests_cant": "Sections are numbered and linked by position, and the bound on the depth of a search depends on the whole grammar; a test checks one added section.", "anchors": ["src/search.cpp:19-455", "src/grammar.cpp:167-301"]}
{"id": "C76", "title": "The names of sections are of no importance", "statement": "Renaming the sections of an accepted grammar consistently, ADDRESS excepted, changes neither the results of a search, nor their order, nor the standardized address, nor the listed matches. For texts: if in an accepted grammar text the names in the headers and in the lists of references are replaced consistently, different names by different ones and ADDRESS by itself, while rules stay and comments become any comments, the new text is accepted and gives the same for every address.", "quantifier": "for all accepted grammars and all renamings that keep ADDRESS and do not make two section names equal; all token lists, addresses, lexicons, locales and filters", "why_tests_cant": "Sections are kept in maps ordered by name; that this order never shows is a statement about all names.", "anchors": ["src/search.cpp:19-455", "src/grammar.cpp:44-301"]}
{"id": "C77", "title": "Only ratios of scores matter; the score of a match is between those of rules", "statement": "If all scores of a grammar are changed by a map that respects sums, averages, comparison and zero (multiplication by a positive number), the best match has the same tokens, text and number of rules, its score is changed by the same map, a phrase that does not match still has score -1, and the standardized address is the same. The score of a match is neither below the smallest nor above the largest score of a rule.", "quantifier": "for all accepted grammars, lists of phrases, addresses, lexicons and such maps, for any number type; the range for exact numbers", "why_tests_cant": "A test fixes the scores; the claim is about all of them.", "anchors": ["src/search.cpp:97-166", "src/as_wrapper.cpp:104-149"]}
{"id": "C78", "title": "The order of lines in a section and repeating them", "statement": "Writing the lines of the sections of an accepted grammar text in another order, or some of them several times, leaves it accepted with the same check status; the same results are found, neither best score is above the other, and the same addresses can be standardized. The order does decide which of several matches with the same score is reported.", "quantifier": "for all accepted grammar texts written as sections and all rearrangements of lines in them; all token lists, addresses and lexicons", "why_tests_cant": "There are unboundedly many rearrangements and inputs.", "anchors": ["src/grammar.cpp:48-170", "src/search.cpp:19-455", "src/as_wrapper.cpp:104-149"]}
{"id": "C79", "title": "Which grammars are searched completely", "statement": "The search of an accepted grammar misses no derivation, whatever the tokens, iff every sequence of rules that can be derived from ADDRESS can be derived with at most two meta rules more than it has input classes. It is so if there are bounds for the sections (for a section of rules at least minus the number of classes of each rule, for a meta section at least one more than the sum for each of its rules) with at most two for ADDRESS. With such a grammar an address is returned iff some token list can be read as the input classes of a derivation.", "quantifier": "for all grammars, bounds, token lists (with fewer than 2^32 combinations of classes), addresses and lexicons", "why_tests_cant": "Completeness is about all derivations, of which a recursive grammar has infinitely many.", "anchors": ["src/search.cpp:168-455", "src/as_wrapper.cpp:104-149"]}
{"id": "C80", "title": "Which fields a grammar fills", "statement": "A field for which no rule in a section that ADDRESS leads to has an output class is NULL in every address that is returned. A field is not NULL in any address if there are sections including ADDRESS such that each rule of those with rules has an output class of the field and each meta rule of the others refers to one of them.", "quantifier": "for all grammars, lexicons, addresses, locales, filters and fields", "why_tests_cant": "It is a claim about every address that can be entered.", "anchors": ["src/search.cpp:19-166", "src/as_wrapper.cpp:104-340"]}
{"id": "C81", "title": "The grammars that come with the sources", "statement": "Each of the 25 grammars in data/sample is accepted, with the check status listed, its search misses no derivation, and the rules with an output class that does not exist are those listed. In every address standardized with one of them the fields listed as never filled are NULL and those listed as always filled are not: all have a city, and only those made with the grammars of Great Britain and the Vatican can have a building. With exact numbers the best score is -1 or from 1/10 to 9/10.", "quantifier": "for all addresses, lexicons, locales and filters, all token lists, and all character tables and number types that treat printable ASCII and the numbers 0.1 to 0.9 as usual", "why_tests_cant": "The grammars are fixed but the addresses and lexicons used with them are not; several of the grammars are recursive.", "anchors": ["data/sample/usa.gmr:1-180", "data/sample/ireland.gmr:1-144", "data/sample/germany.gmr:64-64", "src/grammar.cpp:48-170", "src/search.cpp:19-455", "src/as_wrapper.cpp:104-340"]}
{"id": "C82", "title": "What the SQL functions leave on the C heap", "statement": "as_standardize, as_parse, as_match and as_compile_lexicon free no block twice, none that is not in use and none that was in use before the call, and read only blocks in use. If memory does not run out they return exactly what the interface computes, and what they leave is: nothing after a call that succeeds and is run to its end; the text of the message after one that fails; the array and all its texts, one or three for each row, after one that the executor stops early; the empty array after as_parse without rows. Over a session these add up. If memory runs out, as_standardize and as_compile_lexicon still have a defined outcome and leave at most the message, and a column of as_standardize is right or NULL; as_parse and as_match read through a NULL pointer if the first text cannot be copied.", "quantifier": "for all allocators that give addresses not in use, all contents of the heap before, all environments, arguments, numbers of calls the executor makes, and all sequences of requests with a defined outcome", "why_tests_cant": "A double free or a leak shows only for particular combinations of filled fields, rows fetched and failing allocations; the combinations are unbounded and leaks give the right results.", "anchors": ["src/address_standardizer.c:62-99", "src/address_standardizer.c:112-135", "src/address_standardizer.c:176-274", "src/address_standardizer.c:305-428", "src/address_standardizer.c:451-560", "src/as_wrapper.cpp:192-287", "src/as_wrapper.cpp:365-408", "src/as_wrapper.cpp:497-524", "src/as_wrapper.cpp:640-686"]}
{"id": "C83", "title": "What a field is made of", "statement": "If in all rules of the sections that ADDRESS leads to an output class of a field stands opposite input classes from a certain set only, then in every address that is returned the field is NULL or made of tokens of one list, in their order, each read as one of its classes that is in the set: each gives the standard word of the first lexicon entry for its text that has the class, and they are joined by blanks. For each of the 25 sample grammars these sets are listed; with any of them a country comes from NATION tokens alone, a suffix type from TYPE, directions from DIRECT and a qualifier from QUALIF.", "quantifier": "for all grammars, lexicons, addresses, locales, filters, fields and sets of classes", "why_tests_cant": "It is a claim about every address that can be entered with every lexicon.", "anchors": ["src/search.cpp:19-166", "src/as_wrapper.cpp:104-340", "src/lexicon.cpp:181-199", "data/sample/usa.gmr:1-180"]}
{"id": "C84", "title": "Classes of tokens, and rules that cannot match", "statement": "If there is no tab in the address, every token of every token list has a class, and its classes are exactly those of the lexicon entries for its text, or all among the seventeen given by the shape of a text. So a field that only rules fill that need a class which is neither one of these nor in the lexicon is NULL in every address; and leaving such rules out of a grammar, with the sections from which nothing else can be matched and the meta rules that refer to them, changes no standardized address and no match. A tab in the address can give other classes.", "quantifier": "for all addresses without tabs, lexicons, locales, filters, pairs of grammars one of which is the other without such rules", "why_tests_cant": "That a rule never matches cannot be seen by trying addresses.", "anchors": ["src/lexicon.cpp:201-308", "src/token.cpp:28-52", "src/tokenizer.cpp:39-325", "src/search.cpp:19-455", "src/as_wrapper.cpp:52-340", "src/as_wrapper.cpp:414-524", "data/sample/denmark.gmr:38-44"]}
{"id": "C85", "title": "The sample lexicons, and each with its grammar", "statement": "Each of the 25 lexicons of data/sample is read without an error, whatever normalising and upper-casing do to letters outside ASCII, and gives the listed language (UNKNOWN for monaco and usa, whose headers name no known language) and locale. It has an entry for each line after the header and no other, each with a class; the classes found in it are exactly those listed; none of them is taken for a compiled lexicon. With the grammar of the same country: the grammar lines listed (173 in 22 of the grammars) can be left out without changing any standardized address or match, and the fields listed are NULL in every address; for instance Norway and Sweden never fill unit, Liechtenstein never box.", "quantifier": "for all addresses without tabs, locales, filters, character tables and numbers that treat ASCII as usual, for each of the 25 pairs", "why_tests_cant": "A rule that never matches and a field that is never filled are claims about all addresses.", "anchors": ["src/lexicon.cpp:67-150", "src/lexentry.cpp:116-137", "src/lexicon.cpp:201-308", "src/search.cpp:19-455", "src/as_wrapper.cpp:52-340", "src/as_wrapper.cpp:414-524", "data/sample/usa.lex:1-2986", "data/sample/norway.lex:1-110", "data/sample/norway.gmr:1-79"]}
{"id": "C86", "title": "For which addresses the token lists are defined", "statement": "Of the tokens of an address at most as many have several words as there are blanks in its text, and the token lists are defined exactly if fewer than 32 have. So every address with fewer than 32 blanks has its token lists, with every lexicon and filter; and with a grammar and a lexicon of data/sample std_standardize returns an address or nothing and no message for it, given memory for the result. A blank that the filter does not remove counts as a token of several words: 32 words separated by blanks are enough for undefined behaviour if SPACE is not filtered, and one of the lists then has tokens without text that are read as words, so that two words can match a rule for four and the field has extra blanks.", "quantifier": "for all addresses, lexicons, locales, filters, sample grammars and sample lexicons", "why_tests_cant": "The bound is on the number of combinations, which doubles with each such token; an address near it cannot be run.", "anchors": ["src/tokenizer.cpp:164-257", "src/tokenizer.cpp:271-323", "src/token.cpp:28-52", "src/as_wrapper.cpp:52-340"]}
{"id": "C87", "title": "Words that end in an apostrophe or a blank have no effect where a letter follows", "statement": "Entries of a lexicon whose words end in a mark such as an apostrophe, or in a blank (\"RUE D'\", \"SUITE \"), have no effect on an address in which every such mark stands before a letter or another character that does not separate tokens: two lexicon texts that differ only in such entries give the same results from std_standardize, std_parse_address and std_match_address, with every grammar and filter, and no token of the address is such a word. That holds also for entries of the kind that may be attached in front (ATT_PRE). With a blank behind the apostrophe the entry is used. The sample lexicons have 572 lines for words that end in an apostrophe and 53 for words that end in a blank.", "quantifier": "for all lexicon texts whose entries have classes and whose words have no ^, { or }, marks that are neither letters nor digits, addresses without tabs, grammars, locales and filters", "why_tests_cant": "It compares two lexicons on every address of a kind; a test compares some addresses.", "anchors": ["src/tokenizer.cpp:29-162", "src/tokenizer.cpp:164-257", "src/lexicon.cpp:395-460", "data/sample/monaco.lex:2-742", "data/sample/france.lex:44-44", "data/sample/belgium.lex:705-705"]}
{"id": "C88", "title": "What of the lines of a lexicon has an effect", "statement": "Of the lines of a lexicon nothing matters but which words there are, the classes of each word, the first standard word for each word and class, and which words may be attached in front (ATT_PRE) and behind (ATT_SUF): two lexicon texts of the same locale that agree in that give the same results from std_standardize, std_parse_address and std_match_address, for every address, grammar and filter. So DET_PRE and DET_SUF and unknown names of attachments have no effect, and a line whose word has all its classes from earlier lines, whatever its standard word, has none unless it alone says that the word may be attached. The column of attachments in the result of std_parse_address is empty for every address without tabs. Of the sample lexicons 45 lines have no effect for this reason, 40 of them with a standard word of their own.", "quantifier": "for all lexicon texts, addresses, grammars, locales and filters; for the column: addresses without tabs", "why_tests_cant": "It compares lexicons on every address and with every grammar; a test compares some addresses.", "anchors": ["src/lexicon.cpp:181-198", "src/lexicon.cpp:395-493", "src/lexentry.h:37-52", "src/inclass.cpp:535-553", "src/as_wrapper.cpp:347-408", "data/sample/canada.lex:844-845", "data/sample/switzerland.lex:370-371"]}
{"id": "C89", "title": "What a filter does", "statement": "The filter leaves out of the first token list of an address exactly the tokens with a class it names, and of the other lists whatever comes from those; it is not applied to the words a phrase is broken into, so the other lists can have tokens of a class it names, but only as words of a phrase that stays. Filters that name the same classes, in whatever order, with repetitions and blanks, have the same effect, and so have filters that differ only in classes no token can have (neither given by shape nor listed in the lexicon). In particular a name that is no class, such as a misspelt one, is ignored without a message, with every lexicon given as text.", "quantifier": "for all environments, addresses, lexicons, grammars, locales and filters; for the classes no token has and misspelt names: addresses without tabs", "why_tests_cant": "It compares filters on every address and with every lexicon and grammar; tests use one filter.", "anchors": ["src/tokenizer.cpp:256-323", "src/inclass.cpp:119-136", "src/as_wrapper.cpp:104-117"]}
{"id": "C90", "title": "A compiled lexicon that is cut short", "statement": "A compiled lexicon that is cut short never works with part of its words. Its last item is the digest of the text it was compiled from. Cut anywhere before that item it is refused by std_standardize, std_parse_address and std_match_address with the message for a text that is no lexicon; if at least one character of the item is left, the three functions do what they do with the whole, without a message. What follows a compiled lexicon has no effect.", "quantifier": "for all lexicon texts without NUL, all cuts between characters, all texts behind, addresses, grammars, locales and filters", "why_tests_cant": "It is about every place at which the text can be cut, for every lexicon.", "anchors": ["src/lexicon.h:40-65", "src/lexentry.h:27-33", "src/as_wrapper.cpp:59-83", "src/as_wrapper.cpp:641-686"]}
{"id": "C91", "title": "Lines that end in carriage return and line feed", "statement": "The documentation of lexicons allows lines that end in CR LF as well as LF. A grammar works the same with both: it is accepted with both or refused with both, and std_standardize and std_match_address give the same results. A lexicon does not. A line of at least six fields keeps its meaning. A line of five fields keeps word, standard word and classes but loses the last attachment of its list. A line of four fields, or a blank line, makes the lexicon be refused. A header of four fields gets another locale. If all entries have at least five fields and the header has five, the lexicon is accepted with CR LF too and differs in the lost attachments only, and not at all where every entry has six. The sample lexicon of Germany has CR LF, and 31 attachments that its lines name are lost, among them that of DEICH and HAFEN.", "quantifier": "for all grammar texts and lexicon texts given by their lines, all addresses, locales and filters, all ICU behaviours that leave tabs and a final carriage return alone", "why_tests_cant": "It compares every text with another one of the same lines, for every address.", "anchors": ["docs/lexicon.md:40-52", "src/lexicon.cpp:67-146", "src/lexentry.cpp:116-139", "src/inclass.cpp:20-26", "src/grammar.cpp:50-137", "data/sample/germany.lex"]}
{"id": "C92", "title": "A mark that is in no word divides an address", "statement": "Let a mark that separates tokens, such as a comma, a semicolon or a dash, be in no word of the lexicon, and let an address be a first part, the mark, any number of spaces, and a second part, where the first does not end in, and the second not begin with, a character that separates tokens, both are on one line, and they are not the halves of a decimal or fraction. Then its tokens are those of the first part, that of the mark, and those of the second part, each filtered; if the tokenizer gives up within the first part, they are those of the first part only. So std_parse_address gives as first alternative the rows of the one part followed by those of the other, if the filter removes the mark. Which of two marks that the filter removes stands there, and how many spaces follow, does not change any result; nor does a mark that the filter removes at the end of an address. If the tokenizer gives up in the first part, the second part has no effect.", "quantifier": "for all lexicon texts, grammars, marks, parts of addresses, numbers of spaces, locales and filters", "why_tests_cant": "It relates the tokens of every address to those of its parts; the tokenizer matches one pattern of all words of the lexicon against the whole text, so that no test excludes that something behind the mark changes the tokens before it.", "anchors": ["src/tokenizer.cpp:187-268", "src/lexicon.cpp:231-338", "src/token.cpp:128-146"]}
{"id": "C93", "title": "Writing out the references to a section of references", "statement": "Let a second grammar be a first one in which, in all other sections, every reference to some section of references has been replaced by the lines of that section, in all ways, each on its own line. Then both derive the same sequences of rules, the second with no more meta rules. So the second finds whatever the first finds, its best score is not worse, and every address that the first standardizes is standardized by the second. If the first grammar is searched completely, so is the second, both find the same for all tokens, the best scores are the same, and the same addresses are standardized. A grammar that is not searched completely may find more when references are written out.", "quantifier": "for all accepted grammars, sections of references (which may refer to themselves), token lists, addresses, lexicons, locales and filters", "why_tests_cant": "It compares two grammars on all inputs; the search counts nested references and stops at a number that depends on the tokens, so that which of the two finds more depends on the derivation, of which there may be infinitely many.", "anchors": ["src/search.cpp:168-455", "src/grammar.cpp:66-300", "src/as_wrapper.cpp:104-149"]}
{"id": "C94", "title": "What adding rules or raising scores can change", "statement": "Let lines with rules be added anywhere to an accepted grammar text, and let rules be replaced by rules for the same input classes with a score that is not lower, so that the text is still accepted. Then for every address the result is the one of the text before, in all fields, or it is that of a derivation in which an added or replaced rule takes part; the best score is not lower than before. In particular the result is unchanged if no choice of classes for the tokens of the address contains the input classes of an added or replaced rule one after the other. Read backwards: taking rules away, or lowering their scores, changes no address whose match does not use them.", "quantifier": "for all accepted grammar texts, sets of added and replaced rules, lexicons, locales, filters and addresses; for all arithmetics, also with rounding and NaN, in which sums and quotients are monotone", "why_tests_cant": "It speaks of all addresses under two grammars; a rule added in front of others changes the order of all matches found and the point at which searches of references stop, so that any regression suite can only sample which addresses are affected.", "anchors": ["src/search.cpp:50-166", "src/search.cpp:168-455", "src/grammar.cpp:66-300", "src/as_wrapper.cpp:104-149"]}
{"id": "C95", "title": "What giving words of the lexicon further classes can change", "statement": "Let a second lexicon text have the words of a first one, with the same words attached in front and behind, let every word keep its classes, and let words that had a class have further classes or, for some classes, other standard words; none of the classes concerned is in the filter. Then the lists of tokens of an address are the same under both, but for further classes of the tokens with these words. For every address the result of the second is that of the first, in all fields, or it is that of a derivation in which a token with such a word is taken in one of the classes concerned; the best score is not lower, and an address that was standardized still is. This is so in particular when one more line is added, anywhere, for a word that has a class. It is not so for a word that had no line: that line can take the only result of an address away.", "quantifier": "for all lexicon texts, sets of further classes and standard words, accepted grammars, locales, filters and addresses with fewer than 2^32 choices of classes in each list of tokens", "why_tests_cant": "It compares all addresses under two lexicons: further classes multiply the sequences of classes that are searched and change their order, so a test suite can only sample which addresses are affected.", "anchors": ["src/lexicon.cpp:181-333", "src/tokenizer.cpp:39-330", "src/token.cpp:95-126", "src/search.cpp:19-165", "src/as_wrapper.cpp:104-149"]}
{"id": "C96", "title": "Words that stand for one another, and spaces between words", "statement": "Let separators such as a space stand in an address at a place that no word of the lexicon, decimal or fraction reaches across. Then the tokens of the address are those of the text before them, one for the separators, and those of the text behind them, and the number of spaces there does not change any result, whether spaces are filtered or not. If a word of the address stands between such places, or at the beginning or end, it may be replaced by any other word that has the same classes in the lexicon with, for each of them, the same standard word (not empty): the address is standardized in all fields alike, it has the same list of matches with the same scores, and the rows of the parse differ only in that word. So which of the spellings in the lexicon is written does not matter. Both need that nothing reaches across: a lexicon with NEW YORK, YORK and another name of YORK shows that the replacement may otherwise take the result away.", "quantifier": "for all lexicon texts without escaped characters, grammars, locales, filters, addresses, and words of the lexicon without blanks that it treats alike", "why_tests_cant": "It compares all addresses with each word and each of its spellings; the tokenizer reads an address with one expression made of all words of the lexicon, so that any word may change how the text around it is read, and a test suite can sample only few pairs.", "anchors": ["src/tokenizer.cpp:142-330", "src/token.cpp:128-146", "src/lexicon.cpp:181-333", "src/search.cpp:19-455", "src/as_wrapper.cpp:101-524"]}
{"id": "C97", "title": "Exactly when a call is undefined, and how many rows there are", "statement": "Call a token spaced if its text has a blank. An address has 2^k token lists if k of its tokens are spaced; with s other tokens and w words in the spaced ones, the lists together have (2s + k + w) * 2^k / 2 tokens, which is the number of rows of the parse. std_standardize has undefined behaviour exactly if both texts can be loaded and k is 32 or more, whatever the scores of the grammar are, so in particular never for a text with fewer than 32 blanks. std_parse_address has undefined behaviour exactly if the lexicon can be loaded and k is 32 or more or there are at least 2^31 rows for which memory is granted. std_match_address has undefined behaviour exactly if both texts can be loaded and k is 32 or more, or one match has a score that is not a number while two others differ in score, or there are at least 2^31 matches for which memory is granted. With blanks not filtered, 26 words with blanks between are too many rows to parse and 32 too many to standardize.", "quantifier": "for all grammar and lexicon texts, locales, filters and addresses, all allocation outcomes and all scores", "why_tests_cant": "It is an exact condition on all inputs for the absence of undefined behaviour; a test that runs into overflow or a bad comparison may pass all the same, and the numbers of lists and rows grow too fast to try.", "anchors": ["src/as_wrapper.cpp:52-98", "src/as_wrapper.cpp:101-287", "src/as_wrapper.cpp:300-408", "src/as_wrapper.cpp:414-524", "src/tokenizer.cpp:271-323", "src/search.cpp:97-164", "src/search.cpp:167-212"]}
{"id": "C98", "title": "Output classes decide only about the fields", "statement": "Take two grammars with the same sections whose rules, one by one, have the same input classes and scores but other output classes (equal rules being replaced by equal rules). For every address the same alternative and the same rules are used for the best match, with the same score and the same number of rules; the tokens differ only in their output classes, which are those of the rules used. The lists of matches agree row by row in score and number of rules. If each output class is replaced by a fixed other one everywhere, then the same addresses can be standardized, with the same error if not; and whenever the classes of a field are exactly those that become classes of another field, the second field of the new result is the first of the old. So exchanging two classes exchanges two columns, and directing a class to IGNORE leaves all columns it did not belong to as they are.", "quantifier": "for all grammar texts that can be loaded, all replacements of output classes, lexicon texts, locales, filters and addresses, all scores", "why_tests_cant": "It compares two grammars on all addresses; the search carries whole rules with their output classes in its paths, and a comparison or an ordering of paths anywhere in it could depend on them for some grammar only.", "anchors": ["src/search.cpp:19-212", "src/search.cpp:274-456", "src/rule.cpp:17-158", "src/as_wrapper.cpp:101-287", "src/lexicon.cpp:181-215"]}
{"id": "C99", "title": "How often a match is listed", "statement": "The list of matches of a token list contains a sequence of rules exactly as often as this number says, and not at all if the rules do not read one class of each token: over all derivations of the sequence from the start section (choices of lines of the grammar, a line written twice counting twice, with at most as many meta rules as there are tokens plus two), the product, over all rules used while another section is still to come, of the number of rules in the same section that would fit at that place. So a match is repeated, the more the more rules of the sections fit: with at most K rules in each section a derivation by n rules is listed at most K^(n-1) times, and a grammar is given where this is reached. Every derivation is listed at least once. It is listed exactly once if in no section the input classes of a rule begin with those of another rule, or if every meta rule refers to a single section.", "quantifier": "for all grammars, start sections, token lists and sequences of rules", "why_tests_cant": "It is an exact count for all grammars; a test compares the list of one grammar and would record the repetitions as they come out.", "anchors": ["src/search.cpp:19-56", "src/search.cpp:248-337", "src/search.cpp:340-408"]}
{"id": "C100", "title": "Words the lexicon does not know are interchangeable", "statement": "Take two words of letters and digits that are not in the lexicon, contain no separators, have no attached prefix or suffix of the lexicon, do not mix letters and digits, and have the same shape: words of letters with the same number of bytes, or both with more than two; numbers with the same number of bytes, or both with neither four nor five. In an address where the word stands alone (nothing of the lexicon, and no decimal or fraction, reaches across the separators around it) one may be replaced by the other: the list of matches is the same; the standardized address has the same pattern, and its fields the same words except that one word stands for the other, or the same error; the parsed rows are the same except for the word. Only the shape of an unknown word matters, but it does: words of one or two bytes have classes of their own, and a grammar is given that tells them apart.", "quantifier": "for all readings of the generated patterns, lexicon texts with plain words, grammars, locales, filters, all pairs of such words and all addresses around them", "why_tests_cant": "It is about all unknown words, of which there are infinitely many; a test shows a few names and numbers, and a dependence on the text of a token in the search or the output would show for others only.", "anchors": ["src/tokenizer.cpp:164-257", "src/tokenizer.cpp:30-160", "src/lexicon.cpp:181-308", "src/search.cpp:19-456", "src/as_wrapper.cpp:101-460"]}
{"id": "C101", "title": "What loading a directory of lexicons and grammars puts into the table", "statement": "Run the file that load-lex-gmr-files writes for a directory. With -c, and at least one lexicon, the table as_config afterwards has exactly one row for each lexicon with a grammar beside it, whatever was there before: the texts of the two files are stored character by character, quotes included, with the compiled lexicon, the file name as country name, and as code the part of the header's locale after the underscore in lower case. If one lexicon is not compiled or one code is longer than two characters, nothing changes at all. Without -c the rows are added only to a table that lacks the index; to the table an earlier run has left, nothing is added, because creating the index again fails and undoes the run: a second dataset cannot be added this way. File names are not quoted: with an apostrophe in the name nothing is loaded. The codes of the sample headers all fit, but Italy and the Vatican have the same one.", "quantifier": "for all lexicon and grammar texts, names and datasets without apostrophe, numbers of files, states of the table, and results of as_compile_lexicon", "why_tests_cant": "A test loads one directory into one data base; quoting must be right for every text, and what a run does depends on what all earlier runs left behind.", "anchors": ["tools/load-lex-gmr-files:51-62", "tools/load-lex-gmr-files:73-112", "src/Makefile.pg:65-66", "tools/getting-started.sh:19-20"]}
{"id": "C102", "title": "What becomes of the rules of PAGC", "statement": "tools/convert-pagc-rules turns a file of numbered PAGC rules into a grammar text. The text is accepted by the grammar loader just if the file has a rule of each of the five types, no score is 0, and in every rule as many of the input as of the output classes have numbers PAGC knows. The grammar then has the four ways to make an address of the parts, and the section of each type holds exactly the rules of that type in the file, those with more classes first and otherwise in the order of the file; every class is the one with the number in the file (5 stands for TYPE, 4 for no class), and the score is the twentieth part. Lines without the right number of classes, or of another type, and lines that do not begin with a digit add nothing. Classes with unknown numbers are left out of a rule without a message if both sides have as many of them.", "quantifier": "for all files of rule lines and other lines, numbers of rules and of classes, blanks between the numbers, scores below 2·10^14, character tables and float formats that tell the sign of the scores", "why_tests_cant": "The script is not run by any test, and one file shows nothing about the order, the numbers and the refusals for other files.", "anchors": ["tools/convert-pagc-rules:11-18", "tools/convert-pagc-rules:36-65", "tools/convert-pagc-rules:67-86", "src/grammar.cpp", "src/rule.cpp"]}
{"id": "C103", "title": "What becomes of the lexicon and gazetteer of PAGC", "statement": "tools/convert-pagc-lex-gaz turns lines of number, word, class number and standard word into a lexicon text. Provided no standard word has a character that is special in a pattern, it prints the header and one line for each pair of word and standard word in the files, in the order of the texts, with all the classes given for the pair. The lexicon loader accepts the text just if no class number is 4 or 5 (5 is TYPE for tools/convert-pagc-rules, here it refuses the whole file). The lexicon then has locale en_US and no known language, and its entries are exactly the pairs of the files, in canonical form, each with just the classes given for it; numbers above 33 are dropped. If a standard word has a special character, its entry and all later ones can be lost without an error.", "quantifier": "for all files of record lines and other lines, words, standard words, class numbers, and normalisations that keep tabs apart", "why_tests_cant": "The script is not run by any test; that no entry is lost or gets a foreign class, whatever the file, cannot be seen from sample files.", "anchors": ["tools/convert-pagc-lex-gaz:6-9", "tools/convert-pagc-lex-gaz:27-53", "tools/convert-pagc-lex-gaz:56-64", "src/lexicon.cpp"]}
{"id": "C104", "title": "What the comparison of two lexicons reports", "statement": "tools/compare-lexicon promises to report all entries of the second lexicon that are not in the first one. It reports all entries of the second one if the first one has no entry at all, and nothing otherwise; so its report is right just if the first lexicon is empty or nothing is missing. A file in which the first line that is neither white space nor a comment is no header ends the script with a message that names the line and the file, the first file before the second.", "quantifier": "for all pairs of files", "why_tests_cant": "No test runs the script, and a pair of files without missing entries shows the promised result.", "anchors": ["tools/compare-lexicon:5-7", "tools/compare-lexicon:16-38", "tools/compare-lexicon:41-68"]}
{"id": "C105", "title": "Rounding cannot make a worse match win", "statement": "Scores are averaged and compared in single precision when one match is chosen, in double precision when the matches are listed. The score of a match of n rules is the exact average of the scores as they are written up to n+2 roundings. If the scores are multiples of 1/q and few enough rules are involved that these errors stay below the least difference of two such averages, then of two matches with different exact averages the one with the greater average has the greater score; the match that is chosen has the greatest exact average of all matches of all token lists; the rows of the listing come by descending exact average; and the match chosen and that of the first row have the same exact average. This holds for the sample grammars with up to 90 tokens, where the score reported for the match chosen is its exact average up to 1/200000. Beyond that rounding does show: of two matches with the same exact average a later one can be chosen (one rule of score 0.7, two of 0.6 and 0.8), and of the scores 0.5 and 0.50000001 the smaller one wins if it comes first.", "quantifier": "for all arithmetics with a bounded relative error, single and double precision among them, all grammars with scores as described, all lists of token lists, and for the sample grammars all lists of at most 90 tokens each", "why_tests_cant": "A test compares a handful of averages; whether rounding can reverse an order depends on all combinations of scores and numbers of rules.", "anchors": ["src/search.cpp:97-138", "src/search.cpp:140-166", "src/search.cpp:168-207", "src/rule.cpp:43", "data/sample"]}
{"id": "C106", "title": "The command-line programs show what the SQL functions compute", "statement": "t2, called with a lexicon file, a grammar file, an address and perhaps a filter (PUNCT,SPACE,EMDASH,STOPWORD if it is left out; any other number of arguments gives the usage and exit code 1), shows what as_parse, as_standardize and as_match return for the contents of the two files with locale en: a block of lines per alternative of as_parse, between lines of dashes; then, if as_standardize returns an address, the score, the lines whose standard texts make up the fields of the address, the pattern, and the rows of as_match in their order, with exit code 0. If as_standardize finds nothing, the last line says so, with exit code 1. A file that cannot be opened is named in the last line, with exit code 1. A lexicon file that the SQL functions refuse ends the program by an exception nobody catches, before any token is shown; a grammar file they refuse gives a last line with the same message (or a fixed text for std::out_of_range) and exit code 1. t4 and t5 show, after the address as given, normalized and in capital letters, the rows of the first alternative of as_parse without filter and with filter PUNCT. Called with too few arguments these programs, compile-lexicon and read-dump-grammar give their usage and exit code 1, and further arguments make no difference; a file that cannot be opened ends each of them by an exception nobody catches. compile-lexicon writes its target exactly if the source is a lexicon in text form and the target can be created, exactly then with exit code 0, and the target gives the same results of the SQL functions as the source. The output of read-dump-grammar, for a grammar without empty sections whose scores survive printing, is a grammar for which the program writes the same output and the SQL functions give the same results.", "quantifier": "for all files, arguments, tables of characters, regular expression engines and arithmetics with the laws of an order", "why_tests_cant": "A test runs the programs on some files; that the two code paths (the programs and the SQL functions are written separately) agree for every lexicon, grammar and address is a statement about all of them.", "anchors": ["src/tester/t2.cpp:40-262", "src/tester/t4.cpp:25-64", "src/tester/t5.cpp:26-65", "src/tester/compile-lexicon.cpp:27-55", "src/tester/read-dump-grammar.cpp:22-36", "src/as_wrapper.cpp"]}
{"id": "C107", "title": "What is found of a plain list of words depends on their classes alone", "statement": "Let the address, as the SQL functions see it, be a list of words with separators between them (perhaps also at its end) that the filter leaves out, each word one that the lexicon lists as a whole or does not know at all, or else one of letters and digits that is taken apart - the longest word that may be attached in front and the shortest that may be attached behind are taken off, or the letter before or behind a run of digits - and then stands for its parts, where nothing of the lexicon reaches across a separator; spaces are left out if the filter names SPACE and the lexicon does not list the space, and every text of such words with single spaces between them qualifies, if no word of the lexicon that contains a space occurs in it. Then as_parse returns one alternative with one row for each word or part, in order, without attached classes, where the classes are those of its entries in the lexicon or, if it has none, that of its shape; words with a class that the filter names are left out. Two such addresses whose words kept have the same classes, one by one, have the same rows of as_match, and as_standardize returns an address for both or for none; if it does, the words of both are taken in the same classes and put into the same fields, each as the standard word of its first entry with the class taken, or as it is if it has none. This holds also if the lexicons, locales and filters differ. The address returned is a reading by the grammar with the best average score within the nesting limit, and with a grammar that is searched completely it exists iff some derivation takes every word in one of its classes.", "quantifier": "for all such addresses, pairs of lexicons without special characters, grammars, locales, filters, tables of characters and arithmetics with the laws of an order, with a regular expression engine that reads the patterns of the lexicon as intended", "why_tests_cant": "That the result depends on the words through nothing but their classes is a statement about all pairs of addresses and lexicons; a test compares some.", "anchors": ["src/tokenizer.cpp", "src/lexicon.cpp", "src/search.cpp", "src/token.cpp", "src/as_wrapper.cpp"]}
{"id": "C108", "title": "Addresses of usual forms are read as intended with the grammars of the sources", "statement": "For each of the 25 grammars that come with the sources there is a list of forms of addresses (about 370 together): streets with or without a type before or behind the name, post office boxes, units, directions, numbered streets, names of one or two words, postcodes, provinces, countries. A form says for each word the input class it is meant to be taken in, the field it is meant for, and the few classes the word must not have besides. With the grammar, every address that is a plain list of words (C107) whose classes suit a form - whatever further classes the lexicon gives the words, as long as there are fewer than 2^32 ways to choose one class for each - is standardized, without an error, as the form says: each field has the standard words of the words the form puts into it, no other field has anything, and the pattern shows the classes of the form. In particular, a street, a house number of any digits, a postcode of four (Austria, Belgium, Denmark, Liechtenstein, Netherlands, Norway, Portugal, Switzerland) or five digits (Finland, Germany, Italy, San Marino, Spain, Sweden, Vatican) and a town that a lexicon does not list are put, as they are, into the fields for them, and all other fields are NULL; the same with a type behind the name of the street, as a word of its own or attached to the name (Austria, Belgium, Denmark, Finland, Germany, Liechtenstein, Netherlands, Norway, San Marino, Sweden, Switzerland), which goes into its own field as the lexicon has it; and a house number, street, type, town and province (Australia, Canada, Great Britain, Ireland, New Zealand, United States), where the lexicon knows the type and the province, in other classes too if these are not excluded for them, are put into the fields for them, the last two as the lexicon has them. This holds in exact arithmetic and in every arithmetic that rounds at least as well as single precision.", "quantifier": "for all forms of the table, all addresses with words of suitable classes, lexicons without special characters, locales, filters, tables of characters, allocations of memory and arithmetics that round within 2^-24, with a regular expression engine that reads the patterns of the lexicon as intended", "why_tests_cant": "A test standardizes one address; that all addresses of a form, with every lexicon, have their words in the right fields, and that no other reading by the grammar scores as well, is not settled by any number of them.", "anchors": ["data/sample/denmark.gmr", "src/grammar.cpp", "src/search.cpp", "src/as_wrapper.cpp"]}
{"id": "C109", "title": "The sample countries' own lexicons with their own grammars", "statement": "For each of the 25 countries of data/sample, std_standardize with the lexicon and the grammar of that country standardizes an address of words with single spaces between them, each of which its lexicon lists or does not know at all, or which is taken into parts as in C107, as one of the listed forms of its grammar says, whenever the classes of the words suit the form: every field holds the standard words of the words put into it, in order, and the pattern is that of the form. In particular a street, a house number, a postcode of four or five digits and a town not in the lexicon are put into these fields in the 15 countries that write addresses so; where streets have their type attached, the name and the type are put into the two fields for them (Algade in Denmark is AL with the type GADE); and in the six English-speaking ones a house number, a street, a type, a town and a province are, the type and the province as the lexicon has them even if it lists them with further classes, such as ST and IL in the USA.", "quantifier": "every country of data/sample, every form listed for it, every address, locale and filter, all words unknown to the lexicon and all that it lists, every arithmetic rounding to within one part in 2^24", "why_tests_cant": "The lexicons have up to thousands of lines and the grammars up to hundreds of rules; a test with a sample address tries one choice of words, while the claim is about every word that the lexicon does not know and every one it lists with suitable classes.", "anchors": ["data/sample/usa.lex", "data/sample/usa.gmr", "data/sample/denmark.lex", "data/sample/denmark.gmr", "src/address_standardizer.cpp", "src/tokenizer.cpp", "src/search.cpp"]}
{"id": "C110", "title": "Expressions of several words are tried as a whole and as their words, and read as intended", "statement": "In an address of words and of expressions of several words that the lexicon lists (such as NEW JERSEY), parse_address returns one pattern for each way to leave every expression whole or take it as its words, each way once, the one with all expressions whole first; the rows show the words and expressions with their classes and are numbered consecutively (as long as memory for them is given and there are fewer than 2^31). standardize returns an address just if, for one of these ways, the grammar derives a sequence of rules whose input classes can be chosen from those of the words, and what it returns comes from a way and a derivation whose average score is not less than any other's for any of the ways. Every text of such words and expressions with single spaces between them is such an address, if no word of the lexicon reaches from one of them into the next. With the grammars of the sources and their lists of forms (C108), if the words and expressions suit a form, and in every other way of taking them the words lack the few classes listed for the form and the way, then the address is standardized as the form says, with the expressions whole: for example, 123 Main St Trenton New Jersey with the lexicon and grammar of the USA has the province NEW JERSEY and the city TRENTON.", "quantifier": "for all lexicons without special characters, addresses of words and expressions (fewer than 32 of the latter), locales, filters, grammars, tables of characters and arithmetics that round within 2^-24, with a regular expression engine that reads the patterns of the lexicon as intended", "why_tests_cant": "The number of ways doubles with each expression, and each is scored against the whole grammar; a test sees one address, while the claim is that no way is lost, none is tried twice and none of the others beats the intended one, whatever the words are.", "anchors": ["src/tokenizer.cpp", "src/address_standardizer.cpp", "src/search.cpp", "data/sample/usa.lex", "data/sample/usa.gmr"]}
{"id": "C111", "title": "An address that has been standardized is standardized to the same again", "statement": "If an address of words is standardized, its words are taken in certain classes; every other address whose words have these classes, and no classes but those of the words in the same places, is taken in the same classes and put into the same fields. So if the words are replaced by the standard words that the fields show, standardizing the new address gives exactly the same fields and the same pattern, provided that each of these standard words is itself listed in the class, as a word that stands for itself, and in no class in which the word it replaces is not listed (words that are not listed stand for themselves and need nothing). Of the 25 sample lexicons, those of Austria, Finland, Liechtenstein, Luxembourg, the Netherlands, Norway, Spain and Sweden have this for all their standard words, the other 17 do not; with those eight and any grammar, an address of words with spaces between them that is standardized is standardized to the same again, written with the standard words. Without it, it may fail: with a lexicon that gives STR the standard word STRASSE but does not list STRASSE, 12 MAIN STR is standardized, but 12 MAIN STRASSE is not.", "quantifier": "for all lexicons without special characters, addresses of words (known, unknown or taken apart) with fewer than 2^32 combinations of classes, locales, filters, grammars, tables of characters and arithmetics whose comparison is an order except for NaN, with a regular expression engine that reads the patterns of the lexicon as intended; for the sample lexicons, if upper-casing and normalising gives their lines in capitals", "why_tests_cant": "The second run searches with other words that have other lists of classes, so other derivations are tried in another order; a test compares two runs for one address, while the claim is that no address, grammar or lexicon of the kind named changes under a second run, and it shows which condition on the lexicon makes the difference.", "anchors": ["src/search.cpp", "src/lexicon.cpp", "src/tokenizer.cpp", "src/as_wrapper.cpp", "data/sample/spain.lex", "data/sample/usa.lex"]}
{"id": "C112", "title": "Two grammars in one", "statement": "Two grammar texts are put together: below the header of section ADDRESS the reference lines of the one, then those of the other, then the other sections of both. If both are accepted, have no other section name in common, and no line refers to ADDRESS itself, the text of both is accepted. What is found with it for a list of tokens is what is found with the one and what is found with the other, each in its order, nothing more and nothing less; if every token has one class, first all matches of the one, then all of the other. The best match among all alternatives of an address is the best match with the one or the best match with the other, whichever has the higher score; for a list of tokens with one class each the first text has priority when the scores are equal. So standardizing an address with the text of both gives exactly the result that one of the two texts gives, and there is an address exactly if there is one with one of the two. All matches listed for an address are those listed with the one and those listed with the other, as often as they occur, where the row that says there is none counts for nothing. Section names in common are no obstacle: for any two such texts, whatever their names, there is a text with all this, the sections of the one being renamed. With a reference to ADDRESS none of this holds: an address that neither text matches may match with the text of both.", "quantifier": "for all pairs of grammar texts as described, all lexicons, locales, filters, addresses, lists of tokens; for all arithmetic in which comparison is an order once NaN is set aside", "why_tests_cant": "A test can put two particular grammars together and try some addresses. That no pair of grammars interferes for any address, in the search, in the choice of the best, and in the listing, is a statement about all grammars and all derivations.", "anchors": ["src/grammar.cpp: Grammar::initialize", "src/search.cpp: Search::search, Search::searchAndReclassBest, Search::searchAndReclassAll", "src/as_wrapper.cpp: std_standardize, std_match_address"]}
{"id": "C113", "title": "The input classes are labels", "statement": "Input classes are exchanged for one another throughout: in the entries of the lexicon, in the rules of the grammar, and in the filter. Any classes may be exchanged, except those that the program itself gives tokens for their shape (NUMBER, WORD, MIXED, and so on). Then a grammar text that was accepted is accepted. For every address without a tab the lists of tokens are the same, token by token, but for the exchanged classes. The search finds the same derivations, with the exchanged classes, and lists each as often. The listing of all matches has the same rows, each as often and with the same score and number of rules; only the classes in front of the arrow are exchanged. An address is returned exactly if it was before. Its fields are those of a best reading with the classes as they were, so if there is only one best reading, every field is the same; the pattern shows the exchanged classes. Only between equally good readings the names of the classes matter: then the fields may differ.", "quantifier": "for all lexicon texts, grammar texts, filters, locales, all addresses without tab (for what the search finds and lists and for the return: with fewer than 2^32 combinations of classes per list of tokens), all such exchanges of classes; for all arithmetic in which comparison is an order; memory for the result available", "why_tests_cant": "A test can exchange two particular classes in particular data. That no class other than those given by shape is treated specially anywhere between the text of the lexicon and the fields of an address is a statement about all data and all addresses.", "anchors": ["src/lexicon.cpp: Lexicon::classify, Lexicon::standardize", "src/tokenizer.cpp: Tokenizer::getTokens, Tokenizer::filter", "src/search.cpp: Search::search, Search::searchAndReclassBest, Search::searchAndReclassAll", "src/as_wrapper.cpp: std_standardize, std_match_address"]}
{"id": "C114", "title": "The parts of the best match are the best for their words", "statement": "In an address that is returned, every rule that was used has the highest score of the rules of its section that could read the same tokens. No part that was read by a section of the grammar can be exchanged, within the nesting limit, for other rules of that section that read the same tokens and lie further above the average of the whole match; in particular for none of as many rules with a higher average. This holds wherever the rounding is fine enough for the scores (C105), so for all sample grammars in single precision and addresses of at most 90 tokens. If the numbers of rules differ, a part with the lower average can be chosen: there is an address whose two words are read by two rules of score 0.5 although one rule of score 0.6 of the same part reads both.", "quantifier": "all grammars that load with scores for which the rounding is fine enough, all lexicons, locales, filters, addresses with fewer than 2^32 combinations of classes for each list of tokens, all parts of the chosen derivation and all other derivations of the same section within the nesting limit", "why_tests_cant": "The claim is about all derivations that could stand in the place of a part, and all grammars; a test compares the match with a few others it knows.", "anchors": ["src/search.cpp: Search::searchAndReclassBest", "src/search.cpp: Search::reclassTokens", "src/as_wrapper.cpp: std_standardize"]}
