import Verif.Model.InClass
import Verif.Model.OutClass
/-
Specification tables of the class names and numbers.
-/
namespace AS.Props

/-- The documented input classes (docs/inclass.md and src/inclass.h): name, number, class. -/
def inTable : List (Str × Int × InType) := [
   (c!"STOP", -1, .STOP), (c!"NUMBER", 0, .NUMBER), (c!"WORD", 1, .WORD),
   (c!"TYPE", 2, .TYPE), (c!"QUALIF", 3, .QUALIF), (c!"ROAD", 6, .ROAD),
   (c!"STOPWORD", 7, .STOPWORD), (c!"RR", 8, .RR), (c!"DASH", 9, .DASH),
   (c!"CITY", 10, .CITY), (c!"PROV", 11, .PROV), (c!"NATION", 12, .NATION),
   (c!"AMPERS", 13, .AMPERS), (c!"BOXH", 14, .BOXH), (c!"ORD", 15, .ORD),
   (c!"UNITH", 16, .UNITH), (c!"UNITT", 17, .UNITT), (c!"SINGLE", 18, .SINGLE),
   (c!"BUILDH", 19, .BUILDH), (c!"MILE", 20, .MILE), (c!"DOUBLE", 21, .DOUBLE),
   (c!"DIRECT", 22, .DIRECT), (c!"MIXED", 23, .MIXED), (c!"BUILDT", 24, .BUILDT),
   (c!"FRACT", 25, .FRACT), (c!"PCT", 26, .PCT), (c!"PCH", 27, .PCH),
   (c!"QUINT", 28, .QUINT), (c!"QUAD", 29, .QUAD), (c!"PUNCT", 30, .PUNCT),
   (c!"SPACE", 31, .SPACE), (c!"PLACEN", 32, .PLACEN), (c!"EMDASH", 33, .EMDASH),
   (c!"SLASH", 34, .SLASH), (c!"ATSIGN", 35, .ATSIGN), (c!"COMMA", 36, .COMMA),
   (c!"BADTOKEN", 99, .BADTOKEN)]

/-- The documented output classes (docs/outclass.md and src/outclass.h): name, number, class. -/
def outTable : List (Str × Int × OutType) := [
   (c!"STOP", -1, .STOP), (c!"BLDNG", 0, .BLDNG), (c!"HOUSE", 1, .HOUSE),
   (c!"PREDIR", 2, .PREDIR), (c!"QUALIF", 3, .QUALIF), (c!"PRETYP", 4, .PRETYP),
   (c!"STREET", 5, .STREET), (c!"SUFTYP", 6, .SUFTYP), (c!"SUFDIR", 7, .SUFDIR),
   (c!"RR", 8, .RR), (c!"EXTRA", 9, .EXTRA), (c!"CITY", 10, .CITY),
   (c!"PROV", 11, .PROV), (c!"NATION", 12, .NATION), (c!"POSTAL", 13, .POSTAL),
   (c!"BOXH", 14, .BOXH), (c!"BOXT", 15, .BOXT), (c!"UNITH", 16, .UNITH),
   (c!"UNITT", 17, .UNITT), (c!"IGNORE", 98, .IGNORE), (c!"BADTOKEN", 99, .BADTOKEN)]

/-- The input class with the given name; `BADTOKEN` if there is none. -/
def inNamed (w : Str) : InType :=
  match inTable.find? (fun e => e.1 == w) with
  | some e => e.2.2
  | none => .BADTOKEN

/-- The output class with the given name; `BADTOKEN` if there is none. -/
def outNamed (w : Str) : OutType :=
  match outTable.find? (fun e => e.1 == w) with
  | some e => e.2.2
  | none => .BADTOKEN

end AS.Props
