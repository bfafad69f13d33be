import Verif.Model.Str
/-
Model of `OutClass` (src/outclass.h, src/outclass.cpp), transcribed case by case.
-/
namespace AS

/-- `OutClass::Type` (src/outclass.h:22-44). -/
inductive OutType where
  | STOP | BLDNG | HOUSE | PREDIR | QUALIF | PRETYP | STREET | SUFTYP
  | SUFDIR | RR | EXTRA | CITY | PROV | NATION | POSTAL | BOXH
  | BOXT | UNITH | UNITT | IGNORE | BADTOKEN
deriving DecidableEq, Repr

namespace OutType

/-- All enumerators (specification device). -/
def all : List OutType := [.STOP, .BLDNG, .HOUSE, .PREDIR, .QUALIF, .PRETYP, .STREET, .SUFTYP, .SUFDIR, .RR, .EXTRA, .CITY, .PROV, .NATION, .POSTAL, .BOXH, .BOXT, .UNITH, .UNITT, .IGNORE, .BADTOKEN]

/-- The integer value of an enumerator (src/outclass.h:22-44). -/
def code : OutType → Int
  | .STOP => -1
  | .BLDNG => 0
  | .HOUSE => 1
  | .PREDIR => 2
  | .QUALIF => 3
  | .PRETYP => 4
  | .STREET => 5
  | .SUFTYP => 6
  | .SUFDIR => 7
  | .RR => 8
  | .EXTRA => 9
  | .CITY => 10
  | .PROV => 11
  | .NATION => 12
  | .POSTAL => 13
  | .BOXH => 14
  | .BOXT => 15
  | .UNITH => 16
  | .UNITT => 17
  | .IGNORE => 98
  | .BADTOKEN => 99

/-- `OutClass::asString(Type)` (src/outclass.cpp:16-42). -/
def asString : OutType → Str
  | .STOP => c!"STOP"
  | .BLDNG => c!"BLDNG"
  | .HOUSE => c!"HOUSE"
  | .PREDIR => c!"PREDIR"
  | .QUALIF => c!"QUALIF"
  | .PRETYP => c!"PRETYP"
  | .STREET => c!"STREET"
  | .SUFTYP => c!"SUFTYP"
  | .SUFDIR => c!"SUFDIR"
  | .RR => c!"RR"
  | .EXTRA => c!"EXTRA"
  | .CITY => c!"CITY"
  | .PROV => c!"PROV"
  | .NATION => c!"NATION"
  | .POSTAL => c!"POSTAL"
  | .BOXH => c!"BOXH"
  | .BOXT => c!"BOXT"
  | .UNITH => c!"UNITH"
  | .UNITT => c!"UNITT"
  | .IGNORE => c!"IGNORE"
  | .BADTOKEN => c!"BADTOKEN"

/-- `OutClass::asType(string)` (src/outclass.cpp:45-79): lookup in a local `std::map` whose keys are
distinct, written as a chain of comparisons. -/
def asType (s : Str) : OutType :=
  if s = c!"STOP" then .STOP
  else if s = c!"BLDNG" then .BLDNG
  else if s = c!"HOUSE" then .HOUSE
  else if s = c!"PREDIR" then .PREDIR
  else if s = c!"QUALIF" then .QUALIF
  else if s = c!"PRETYP" then .PRETYP
  else if s = c!"STREET" then .STREET
  else if s = c!"SUFTYP" then .SUFTYP
  else if s = c!"SUFDIR" then .SUFDIR
  else if s = c!"RR" then .RR
  else if s = c!"EXTRA" then .EXTRA
  else if s = c!"CITY" then .CITY
  else if s = c!"PROV" then .PROV
  else if s = c!"NATION" then .NATION
  else if s = c!"POSTAL" then .POSTAL
  else if s = c!"BOXH" then .BOXH
  else if s = c!"BOXT" then .BOXT
  else if s = c!"UNITH" then .UNITH
  else if s = c!"UNITT" then .UNITT
  else if s = c!"IGNORE" then .IGNORE
  else if s = c!"BADTOKEN" then .BADTOKEN
  else .BADTOKEN

/-- `OutClass::asType(int)` (src/outclass.cpp:82-108). -/
def ofInt (i : Int) : OutType :=
  if i = -1 then .STOP
  else if i = 0 then .BLDNG
  else if i = 1 then .HOUSE
  else if i = 2 then .PREDIR
  else if i = 3 then .QUALIF
  else if i = 4 then .PRETYP
  else if i = 5 then .STREET
  else if i = 6 then .SUFTYP
  else if i = 7 then .SUFDIR
  else if i = 8 then .RR
  else if i = 9 then .EXTRA
  else if i = 10 then .CITY
  else if i = 11 then .PROV
  else if i = 12 then .NATION
  else if i = 13 then .POSTAL
  else if i = 14 then .BOXH
  else if i = 15 then .BOXT
  else if i = 16 then .UNITH
  else if i = 17 then .UNITT
  else if i = 98 then .IGNORE
  else .BADTOKEN

end OutType

end AS
