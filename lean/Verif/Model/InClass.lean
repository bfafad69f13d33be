import Verif.Model.Str
/-
Model of `InClass` (src/inclass.h, src/inclass.cpp). The tables are transcribed case by case.
-/
namespace AS

/-- `InClass::Type` (src/inclass.h:23-61). Enumerators keep their C++ names. -/
inductive InType where
  | STOP | NUMBER | WORD | TYPE | QUALIF | ROAD | STOPWORD | RR
  | DASH | CITY | PROV | NATION | AMPERS | BOXH | ORD | UNITH
  | UNITT | SINGLE | BUILDH | MILE | DOUBLE | DIRECT | MIXED | BUILDT
  | FRACT | PCT | PCH | QUINT | QUAD | PUNCT | SPACE | PLACEN
  | EMDASH | SLASH | ATSIGN | COMMA | BADTOKEN
deriving DecidableEq, Repr

namespace InType

/-- All enumerators (specification device). -/
def all : List InType := [.STOP, .NUMBER, .WORD, .TYPE, .QUALIF, .ROAD, .STOPWORD, .RR, .DASH, .CITY, .PROV, .NATION, .AMPERS, .BOXH, .ORD, .UNITH, .UNITT, .SINGLE, .BUILDH, .MILE, .DOUBLE, .DIRECT, .MIXED, .BUILDT, .FRACT, .PCT, .PCH, .QUINT, .QUAD, .PUNCT, .SPACE, .PLACEN, .EMDASH, .SLASH, .ATSIGN, .COMMA, .BADTOKEN]

/-- The integer value of an enumerator (src/inclass.h:23-61). -/
def code : InType → Int
  | .STOP => -1
  | .NUMBER => 0
  | .WORD => 1
  | .TYPE => 2
  | .QUALIF => 3
  | .ROAD => 6
  | .STOPWORD => 7
  | .RR => 8
  | .DASH => 9
  | .CITY => 10
  | .PROV => 11
  | .NATION => 12
  | .AMPERS => 13
  | .BOXH => 14
  | .ORD => 15
  | .UNITH => 16
  | .UNITT => 17
  | .SINGLE => 18
  | .BUILDH => 19
  | .MILE => 20
  | .DOUBLE => 21
  | .DIRECT => 22
  | .MIXED => 23
  | .BUILDT => 24
  | .FRACT => 25
  | .PCT => 26
  | .PCH => 27
  | .QUINT => 28
  | .QUAD => 29
  | .PUNCT => 30
  | .SPACE => 31
  | .PLACEN => 32
  | .EMDASH => 33
  | .SLASH => 34
  | .ATSIGN => 35
  | .COMMA => 36
  | .BADTOKEN => 99

/-- `InClass::asString(Type)` (src/inclass.cpp:29-71). -/
def asString : InType → Str
  | .STOP => c!"STOP"
  | .NUMBER => c!"NUMBER"
  | .WORD => c!"WORD"
  | .TYPE => c!"TYPE"
  | .QUALIF => c!"QUALIF"
  | .ROAD => c!"ROAD"
  | .STOPWORD => c!"STOPWORD"
  | .RR => c!"RR"
  | .DASH => c!"DASH"
  | .CITY => c!"CITY"
  | .PROV => c!"PROV"
  | .NATION => c!"NATION"
  | .AMPERS => c!"AMPERS"
  | .BOXH => c!"BOXH"
  | .ORD => c!"ORD"
  | .UNITH => c!"UNITH"
  | .UNITT => c!"UNITT"
  | .SINGLE => c!"SINGLE"
  | .BUILDH => c!"BUILDH"
  | .MILE => c!"MILE"
  | .DOUBLE => c!"DOUBLE"
  | .DIRECT => c!"DIRECT"
  | .MIXED => c!"MIXED"
  | .BUILDT => c!"BUILDT"
  | .FRACT => c!"FRACT"
  | .PCT => c!"PCT"
  | .PCH => c!"PCH"
  | .QUINT => c!"QUINT"
  | .QUAD => c!"QUAD"
  | .PUNCT => c!"PUNCT"
  | .SPACE => c!"SPACE"
  | .PLACEN => c!"PLACEN"
  | .EMDASH => c!"EMDASH"
  | .SLASH => c!"SLASH"
  | .ATSIGN => c!"ATSIGN"
  | .COMMA => c!"COMMA"
  | .BADTOKEN => c!"BADTOKEN"  -- default

/-- `InClass::asOneType(string)` (src/inclass.cpp:74-116). -/
def asOneType (s : Str) : InType :=
  if s = c!"STOP" then .STOP
  else if s = c!"NUMBER" then .NUMBER
  else if s = c!"WORD" then .WORD
  else if s = c!"TYPE" then .TYPE
  else if s = c!"QUALIF" then .QUALIF
  else if s = c!"ROAD" then .ROAD
  else if s = c!"STOPWORD" then .STOPWORD
  else if s = c!"RR" then .RR
  else if s = c!"DASH" then .DASH
  else if s = c!"CITY" then .CITY
  else if s = c!"PROV" then .PROV
  else if s = c!"NATION" then .NATION
  else if s = c!"AMPERS" then .AMPERS
  else if s = c!"BOXH" then .BOXH
  else if s = c!"ORD" then .ORD
  else if s = c!"UNITH" then .UNITH
  else if s = c!"UNITT" then .UNITT
  else if s = c!"SINGLE" then .SINGLE
  else if s = c!"BUILDH" then .BUILDH
  else if s = c!"MILE" then .MILE
  else if s = c!"DOUBLE" then .DOUBLE
  else if s = c!"DIRECT" then .DIRECT
  else if s = c!"MIXED" then .MIXED
  else if s = c!"BUILDT" then .BUILDT
  else if s = c!"FRACT" then .FRACT
  else if s = c!"PCT" then .PCT
  else if s = c!"PCH" then .PCH
  else if s = c!"QUINT" then .QUINT
  else if s = c!"QUAD" then .QUAD
  else if s = c!"PUNCT" then .PUNCT
  else if s = c!"SPACE" then .SPACE
  else if s = c!"PLACEN" then .PLACEN
  else if s = c!"EMDASH" then .EMDASH
  else if s = c!"SLASH" then .SLASH
  else if s = c!"ATSIGN" then .ATSIGN
  else if s = c!"COMMA" then .COMMA
  else .BADTOKEN

/-- `InClass::asType(int)` (src/inclass.cpp:149-191). -/
def ofInt (i : Int) : InType :=
  if i = -1 then .STOP
  else if i = 0 then .NUMBER
  else if i = 1 then .WORD
  else if i = 2 then .TYPE
  else if i = 3 then .QUALIF
  else if i = 6 then .ROAD
  else if i = 7 then .STOPWORD
  else if i = 8 then .RR
  else if i = 9 then .DASH
  else if i = 10 then .CITY
  else if i = 11 then .PROV
  else if i = 12 then .NATION
  else if i = 13 then .AMPERS
  else if i = 14 then .BOXH
  else if i = 15 then .ORD
  else if i = 16 then .UNITH
  else if i = 17 then .UNITT
  else if i = 18 then .SINGLE
  else if i = 19 then .BUILDH
  else if i = 20 then .MILE
  else if i = 21 then .DOUBLE
  else if i = 22 then .DIRECT
  else if i = 23 then .MIXED
  else if i = 24 then .BUILDT
  else if i = 25 then .FRACT
  else if i = 26 then .PCT
  else if i = 27 then .PCH
  else if i = 28 then .QUINT
  else if i = 29 then .QUAD
  else if i = 30 then .PUNCT
  else if i = 31 then .SPACE
  else if i = 32 then .PLACEN
  else if i = 33 then .EMDASH
  else if i = 34 then .SLASH
  else if i = 35 then .ATSIGN
  else if i = 36 then .COMMA
  else .BADTOKEN

end InType

/-- `find_first_not_of(" ")` (none = npos). -/
def findFirstNotSpace (s : Str) : Option Nat := s.findIdx? (fun c => c != ' ')

/-- `find_last_not_of(" ")` (none = npos). -/
def findLastNotSpace (s : Str) : Option Nat :=
  (s.reverse.findIdx? (fun c => c != ' ')).map (fun i => s.length - 1 - i)

/-- `trimboth` (src/inclass.cpp:20-26), including the `npos` cases: a string of blanks only is
returned unchanged. `end - start + 1` may exceed the length; `std::string(str,pos,n)` truncates. -/
def trimboth (s : Str) : Str :=
  let start := match findFirstNotSpace s with | some i => i | none => 0
  let stop  := match findLastNotSpace s with | some i => i | none => s.length
  (s.drop start).take (stop - start + 1)

/-- Loop of `InClass::asType(string)` (src/inclass.cpp:124-133). `fuel` bounds the number of
iterations; `none` is "still running". -/
def InType.asTypeLoop : Nat → IStream → Str → List InType → Option (List InType)
  | 0, _, _, _ => none
  | fuel + 1, buf, word, ret =>
    let (buf, word) := buf.getline ',' word
    let word := trimboth word
    let ret := if 0 < word.length then setInsert InType.code (InType.asOneType word) ret else ret
    if buf.eof then some ret else InType.asTypeLoop fuel buf word ret

/-- `InClass::asType(string)` (src/inclass.cpp:119-135). The loop runs at most once per comma
plus one; the fuel given here is proved sufficient (`InType.asType_total`). -/
def InType.asType? (s : Str) : Option (List InType) :=
  InType.asTypeLoop (s.length + 1) (IStream.ofStr s) [] []

/-- The set read by `InClass::asType(string)` as in-order sequence. -/
def InType.asType (s : Str) : List InType := (InType.asType? s).getD []

/-- `InClass::asString(set<Type>)` (src/inclass.cpp:138-146): `first` is `it == t.begin()`. -/
def InType.setAsStringLoop (first : Bool) (str : Str) : List InType → Str
  | [] => str
  | t :: ts =>
    InType.setAsStringLoop false ((if first then str else str ++ c!",") ++ InType.asString t) ts

def InType.setAsString (t : List InType) : Str := InType.setAsStringLoop true [] t

/-- `InClass::Lang` (src/inclass.h:63-143). -/
inductive Lang where
  | ALB | ARA | BAQ | BEL | BET | BEX | BOS | BOX | BUL | BUT
  | BUX | CAT | CHI | CHT | CZE | CZX | DAN | DUT | ENG | EST
  | ESX | FIN | FRE | GER | GLG | GRE | GRN | GRT | GRX | HEB
  | HUN | HUX | IND | ITA | KOR | KOX | LAV | LAX | LIT | LIX
  | MAC | MAT | MAY | MLT | MLX | MNE | MNX | MOL | MOX | NOR
  | POL | POR | POX | PYN | RMX | RST | RUM | RUS | RUX | SCR
  | SCT | SCX | SIX | SLO | SLV | SLX | SPA | SRB | SRX | SWE
  | THA | TKT | TUR | TUX | UKR | UKT | UKX | WEL | UNKNOWN
deriving DecidableEq, Repr

namespace Lang

/-- All enumerators (specification device). -/
def all : List Lang := [.ALB, .ARA, .BAQ, .BEL, .BET, .BEX, .BOS, .BOX, .BUL, .BUT, .BUX, .CAT, .CHI, .CHT, .CZE, .CZX, .DAN, .DUT, .ENG, .EST, .ESX, .FIN, .FRE, .GER, .GLG, .GRE, .GRN, .GRT, .GRX, .HEB, .HUN, .HUX, .IND, .ITA, .KOR, .KOX, .LAV, .LAX, .LIT, .LIX, .MAC, .MAT, .MAY, .MLT, .MLX, .MNE, .MNX, .MOL, .MOX, .NOR, .POL, .POR, .POX, .PYN, .RMX, .RST, .RUM, .RUS, .RUX, .SCR, .SCT, .SCX, .SIX, .SLO, .SLV, .SLX, .SPA, .SRB, .SRX, .SWE, .THA, .TKT, .TUR, .TUX, .UKR, .UKT, .UKX, .WEL, .UNKNOWN]

/-- `InClass::asString(Lang)` (src/inclass.cpp:194-279). -/
def asString : Lang → Str
  | .ALB => c!"ALB"
  | .ARA => c!"ARA"
  | .BAQ => c!"BAQ"
  | .BEL => c!"BEL"
  | .BET => c!"BET"
  | .BEX => c!"BEX"
  | .BOS => c!"BOS"
  | .BOX => c!"BOX"
  | .BUL => c!"BUL"
  | .BUT => c!"BUT"
  | .BUX => c!"BUX"
  | .CAT => c!"CAT"
  | .CHI => c!"CHI"
  | .CHT => c!"CHT"
  | .CZE => c!"CZE"
  | .CZX => c!"CZX"
  | .DAN => c!"DAN"
  | .DUT => c!"DUT"
  | .ENG => c!"ENG"
  | .EST => c!"EST"
  | .ESX => c!"ESX"
  | .FIN => c!"FIN"
  | .FRE => c!"FRE"
  | .GER => c!"GER"
  | .GLG => c!"GLG"
  | .GRE => c!"GRE"
  | .GRN => c!"GRN"
  | .GRT => c!"GRT"
  | .GRX => c!"GRX"
  | .HEB => c!"HEB"
  | .HUN => c!"HUN"
  | .HUX => c!"HUX"
  | .IND => c!"IND"
  | .ITA => c!"ITA"
  | .KOR => c!"KOR"
  | .KOX => c!"KOX"
  | .LAV => c!"LAV"
  | .LAX => c!"LAX"
  | .LIT => c!"LIT"
  | .LIX => c!"LIX"
  | .MAC => c!"MAC"
  | .MAT => c!"MAT"
  | .MAY => c!"MAY"
  | .MLT => c!"MLT"
  | .MLX => c!"MLX"
  | .MNE => c!"MNE"
  | .MNX => c!"MNX"
  | .MOL => c!"MOL"
  | .MOX => c!"MOX"
  | .NOR => c!"NOR"
  | .POL => c!"POL"
  | .POR => c!"POR"
  | .POX => c!"POX"
  | .PYN => c!"PYN"
  | .RMX => c!"RMX"
  | .RST => c!"RST"
  | .RUM => c!"RUM"
  | .RUS => c!"RUS"
  | .RUX => c!"RUX"
  | .SCR => c!"SCR"
  | .SCT => c!"SCT"
  | .SCX => c!"SCX"
  | .SIX => c!"SIX"
  | .SLO => c!"SLO"
  | .SLV => c!"SLV"
  | .SLX => c!"SLX"
  | .SPA => c!"SPA"
  | .SRB => c!"SRB"
  | .SRX => c!"SRX"
  | .SWE => c!"SWE"
  | .THA => c!"THA"
  | .TKT => c!"TKT"
  | .TUR => c!"TUR"
  | .TUX => c!"TUX"
  | .UKR => c!"UKR"
  | .UKT => c!"UKT"
  | .UKX => c!"UKX"
  | .WEL => c!"WEL"
  | .UNKNOWN => c!"UNKNOWN"

/-- `InClass::asName(Lang)` (src/inclass.cpp:282-367). -/
def asName : Lang → Str
  | .ALB => c!"ALBANIAN"
  | .ARA => c!"ARABIC"
  | .BAQ => c!"BASQUE"
  | .BEL => c!"BELARUSIAN"
  | .BET => c!"BELARUSIAN_TRANSCRIBED"
  | .BEX => c!"BELARUSIAN_TRANSLITERATED"
  | .BOS => c!"BOSNIAN"
  | .BOX => c!"BOSNIAN_TRANSLITERATED"
  | .BUL => c!"BULGARIAN"
  | .BUT => c!"BULGARIAN_TRANSCRIBED"
  | .BUX => c!"BULGARIAN_TRANSLITERATED"
  | .CAT => c!"CATALAN"
  | .CHI => c!"CHINESE_MODERN"
  | .CHT => c!"CHINESE_TRADITIONAL"
  | .CZE => c!"CZECH"
  | .CZX => c!"CZECH_TRANSLITERATED"
  | .DAN => c!"DANISH"
  | .DUT => c!"DUTCH"
  | .ENG => c!"ENGLISH"
  | .EST => c!"ESTONIAN"
  | .ESX => c!"ESTONIAN_TRANSLITERATED"
  | .FIN => c!"FINNISH"
  | .FRE => c!"FRENCH"
  | .GER => c!"GERMAN"
  | .GLG => c!"GALICIAN"
  | .GRE => c!"GREEK"
  | .GRN => c!"GUARANI"
  | .GRT => c!"GREEK_TRANSCRIBED"
  | .GRX => c!"GREK_TRANSLITERATED"
  | .HEB => c!"HEBREW"
  | .HUN => c!"HUNGARIAN"
  | .HUX => c!"HUNGARIAN_TRANSLITERATED"
  | .IND => c!"BAHASA_INDONESIA"
  | .ITA => c!"ITALIAN"
  | .KOR => c!"KOREAN"
  | .KOX => c!"KOREAN_TRANSLITERATED"
  | .LAV => c!"LATVIAN"
  | .LAX => c!"LATVIAN_TRANSLITERATED"
  | .LIT => c!"LITHUANIAN"
  | .LIX => c!"LITHUANIAN_TRANSLITERATED"
  | .MAC => c!"MACEDONIAN"
  | .MAT => c!"MACEDONIAN_TRANSCRIBED"
  | .MAY => c!"MALAYSIAN"
  | .MLT => c!"MALTESE"
  | .MLX => c!"MALTESE_TRANSLITERATED"
  | .MNE => c!"MONTENEGRIN"
  | .MNX => c!"MONTENEGRIN_TRANSLITERATED"
  | .MOL => c!"MOLDOVAN"
  | .MOX => c!"MOLDOVAN_TRANSLITERATED"
  | .NOR => c!"NORWEGIAN"
  | .POL => c!"POLISH"
  | .POR => c!"PORTUGUESE"
  | .POX => c!"POLISH_TRANSLITERATED"
  | .PYN => c!"PINYIN"
  | .RMX => c!"ROMANIAN_TRANSLITERATED"
  | .RST => c!"RUSSIAN_TRANSCRIBED"
  | .RUM => c!"ROMANIAN"
  | .RUS => c!"RUSSIAN"
  | .RUX => c!"RUSSIAN_TRANSLITERATED"
  | .SCR => c!"CROATIAN"
  | .SCT => c!"SERBIAN_TRANSCRIBED"
  | .SCX => c!"SERBIAN_TRANSLITERATED"
  | .SIX => c!"SLOVENIAN_TRANSLITERATED"
  | .SLO => c!"SLOVAK"
  | .SLV => c!"SLOVENIAN"
  | .SLX => c!"SLOVAK_TRANSLITERATED"
  | .SPA => c!"SPANISH"
  | .SRB => c!"SERBIAN"
  | .SRX => c!"CROATION_TRANSLITERATED"
  | .SWE => c!"SWEDISH"
  | .THA => c!"THAI"
  | .TKT => c!"TURKISH_TRANSCRIBED"
  | .TUR => c!"TURKISH"
  | .TUX => c!"TURKISH_TRANSLITERATED"
  | .UKR => c!"UKRAINIAN"
  | .UKT => c!"UKRAINIAN_TRANSCRIBED"
  | .UKX => c!"UKRAINIAN_TRANSLITERATED"
  | .WEL => c!"WELSH"
  | .UNKNOWN => c!"UNKNOWN"

/-- `InClass::asLang(string)` (src/inclass.cpp:370-532): first matching alternative of this table,
`UNKNOWN` if none. The `else if` chain is written as a table searched from the front. -/
def langTable : List (Str × Lang) := [
  (c!"ALB", .ALB),
  (c!"ARA", .ARA),
  (c!"BAQ", .BAQ),
  (c!"BEL", .BEL),
  (c!"BET", .BET),
  (c!"BEX", .BEX),
  (c!"BOS", .BOS),
  (c!"BOX", .BOX),
  (c!"BUL", .BUL),
  (c!"BUT", .BUT),
  (c!"BUX", .BUX),
  (c!"CAT", .CAT),
  (c!"CHI", .CHI),
  (c!"CHT", .CHT),
  (c!"CZE", .CZE),
  (c!"CZX", .CZX),
  (c!"DAN", .DAN),
  (c!"DUT", .DUT),
  (c!"ENG", .ENG),
  (c!"EST", .EST),
  (c!"ESX", .ESX),
  (c!"FIN", .FIN),
  (c!"FRE", .FRE),
  (c!"GER", .GER),
  (c!"GLG", .GLG),
  (c!"GRE", .GRE),
  (c!"GRN", .GRN),
  (c!"GRT", .GRT),
  (c!"GRX", .GRX),
  (c!"HEB", .HEB),
  (c!"HUN", .HUN),
  (c!"HUX", .HUX),
  (c!"IND", .IND),
  (c!"ITA", .ITA),
  (c!"KOR", .KOR),
  (c!"KOX", .KOX),
  (c!"LAV", .LAV),
  (c!"LAX", .LAX),
  (c!"LIT", .LIT),
  (c!"LIX", .LIX),
  (c!"MAC", .MAC),
  (c!"MAT", .MAT),
  (c!"MAY", .MAY),
  (c!"MLT", .MLT),
  (c!"MLX", .MLX),
  (c!"MNE", .MNE),
  (c!"MNX", .MNX),
  (c!"MOL", .MOL),
  (c!"MOX", .MOX),
  (c!"NOR", .NOR),
  (c!"POL", .POL),
  (c!"POR", .POR),
  (c!"POX", .POX),
  (c!"PYN", .PYN),
  (c!"RMX", .RMX),
  (c!"RST", .RST),
  (c!"RUM", .RUM),
  (c!"RUS", .RUS),
  (c!"RUX", .RUX),
  (c!"SCR", .SCR),
  (c!"SCT", .SCT),
  (c!"SCX", .SCX),
  (c!"SIX", .SIX),
  (c!"SLO", .SLO),
  (c!"SLV", .SLV),
  (c!"SLX", .SLX),
  (c!"SPA", .SPA),
  (c!"SRB", .SRB),
  (c!"SRX", .SRX),
  (c!"SWE", .SWE),
  (c!"THA", .THA),
  (c!"TKT", .TKT),
  (c!"TUR", .TUR),
  (c!"TUX", .TUX),
  (c!"UKR", .UKR),
  (c!"UKT", .UKT),
  (c!"UKX", .UKX),
  (c!"WEL", .WEL),
  (c!"ALBANIAN", .ALB),
  (c!"ARABIC", .ARA),
  (c!"BASQUE", .BAQ),
  (c!"BELARUSIAN", .BEL),
  (c!"BELARUSIAN_TRANSCRIBED", .BET),
  (c!"BELARUSIAN_TRANSLITERATED", .BEX),
  (c!"BOSNIAN", .BOS),
  (c!"BOSNIAN_TRANSLITERATED", .BOX),
  (c!"BULGARIAN", .BUL),
  (c!"BULGARIAN_TRANSCRIBED", .BUT),
  (c!"BULGARIAN_TRANSLITERATED", .BUX),
  (c!"CATALAN", .CAT),
  (c!"CHINESE_MODERN", .CHI),
  (c!"CHINESE_TRADITIONAL", .CHT),
  (c!"CZECH", .CZE),
  (c!"CZECH_TRANSLITERATED", .CZX),
  (c!"DANISH", .DAN),
  (c!"DUTCH", .DUT),
  (c!"ENGLISH", .ENG),
  (c!"ESTONIAN", .EST),
  (c!"ESTONIAN_TRANSLITERATED", .ESX),
  (c!"FINNISH", .FIN),
  (c!"FRENCH", .FRE),
  (c!"GERMAN", .GER),
  (c!"GALICIAN", .GLG),
  (c!"GREEK", .GRE),
  (c!"GUARANI", .GRN),
  (c!"GREEK_TRANSCRIBED", .GRT),
  (c!"GREK_TRANSLITERATED", .GRX),
  (c!"HEBREW", .HEB),
  (c!"HUNGARIAN", .HUN),
  (c!"HUNGARIAN_TRANSLITERATED", .HUX),
  (c!"BAHASA_INDONESIA", .IND),
  (c!"ITALIAN", .ITA),
  (c!"KOREAN", .KOR),
  (c!"KOREAN_TRANSLITERATED", .KOX),
  (c!"LATVIAN", .LAV),
  (c!"LATVIAN_TRANSLITERATED", .LAX),
  (c!"LITHUANIAN", .LIT),
  (c!"LITHUANIAN_TRANSLITERATED", .LIX),
  (c!"MACEDONIAN", .MAC),
  (c!"MACEDONIAN_TRANSCRIBED", .MAT),
  (c!"MALAYSIAN", .MAY),
  (c!"MALTESE", .MLT),
  (c!"MALTESE_TRANSLITERATED", .MLX),
  (c!"MONTENEGRIN", .MNE),
  (c!"MONTENEGRIN_TRANSLITERATED", .MNX),
  (c!"MOLDOVAN", .MOL),
  (c!"MOLDOVAN_TRANSLITERATED", .MOX),
  (c!"NORWEGIAN", .NOR),
  (c!"POLISH", .POL),
  (c!"PORTUGUESE", .POR),
  (c!"POLISH_TRANSLITERATED", .POX),
  (c!"PINYIN", .PYN),
  (c!"ROMANIAN_TRANSLITERATED", .RMX),
  (c!"RUSSIAN_TRANSCRIBED", .RST),
  (c!"ROMANIAN", .RUM),
  (c!"RUSSIAN", .RUS),
  (c!"RUSSIAN_TRANSLITERATED", .RUX),
  (c!"CROATIAN", .SCR),
  (c!"SERBIAN_TRANSCRIBED", .SCT),
  (c!"SERBIAN_TRANSLITERATED", .SCX),
  (c!"SLOVENIAN_TRANSLITERATED", .SIX),
  (c!"SLOVAK", .SLO),
  (c!"SLOVENIAN", .SLV),
  (c!"SLOVAK_TRANSLITERATED", .SLX),
  (c!"SPANISH", .SPA),
  (c!"SERBIAN", .SRB),
  (c!"CROATION_TRANSLITERATED", .SRX),
  (c!"SWEDISH", .SWE),
  (c!"THAI", .THA),
  (c!"TURKISH_TRANSCRIBED", .TKT),
  (c!"TURKISH", .TUR),
  (c!"TURKISH_TRANSLITERATED", .TUX),
  (c!"UKRAINIAN", .UKR),
  (c!"UKRAINIAN_TRANSCRIBED", .UKT),
  (c!"UKRAINIAN_TRANSLITERATED", .UKX),
  (c!"WELSH", .WEL)]

def asLangIn (s : Str) : List (Str × Lang) → Lang
  | [] => .UNKNOWN
  | (n, l) :: t => if s = n then l else asLangIn s t

def asLang (s : Str) : Lang := asLangIn s langTable

end Lang

/-- `InClass::AttachType` (src/inclass.h:145-151). -/
inductive Attach where
  | DET_PRE | DET_SUF | ATT_PRE | ATT_SUF
deriving DecidableEq, Repr

namespace Attach

/-- The integer value of an enumerator (src/inclass.h:145-151). -/
def code : Attach → Int
  | .DET_PRE => 0 | .DET_SUF => 1 | .ATT_PRE => 2 | .ATT_SUF => 3

/-- `InClass::asString(AttachType)` (src/inclass.cpp:555-565). -/
def asString : Attach → Str
  | .DET_PRE => c!"DET_PRE" | .DET_SUF => c!"DET_SUF"
  | .ATT_PRE => c!"ATT_PRE" | .ATT_SUF => c!"ATT_SUF"

/-- The `if` chain in `InClass::asAttachType` (src/inclass.cpp:543-547); `none`: word ignored. -/
def ofWord (w : Str) : Option Attach :=
  if w = c!"DET_PRE" then some .DET_PRE
  else if w = c!"DET_SUF" then some .DET_SUF
  else if w = c!"ATT_PRE" then some .ATT_PRE
  else if w = c!"ATT_SUF" then some .ATT_SUF
  else none

/-- Loop of `InClass::asAttachType` (src/inclass.cpp:539-551). -/
def asAttachLoop : Nat → IStream → Str → List Attach → Option (List Attach)
  | 0, _, _, _ => none
  | fuel + 1, buf, word, type =>
    let (buf, word) := buf.getline ',' word
    let word := trimboth word
    let type :=
      if 0 < word.length then
        match ofWord word with
        | some a => setInsert code a type
        | none => type
      else type
    if buf.eof then some type else asAttachLoop fuel buf word type

/-- `InClass::asAttachType(string)` (src/inclass.cpp:535-553), with sufficient fuel. -/
def asAttach? (s : Str) : Option (List Attach) := asAttachLoop (s.length + 1) (IStream.ofStr s) [] []

def asAttach (s : Str) : List Attach := (asAttach? s).getD []

/-- `InClass::asString(set<AttachType>)` (src/inclass.cpp:568-576). -/
def setAsStringLoop (first : Bool) (str : Str) : List Attach → Str
  | [] => str
  | t :: ts => setAsStringLoop false ((if first then str else str ++ c!",") ++ asString t) ts

def setAsString (t : List Attach) : Str := setAsStringLoop true [] t

end Attach

end AS
