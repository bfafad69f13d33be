import Verif.Lemmas.SampleCheck
/-
The grammar data/sample/luxembourg.gmr (all 81 lines). Written by tools/samples.py.
-/
namespace AS.Sample.Luxembourg

/-- The text (data/sample/luxembourg.gmr:1-81), and what is claimed of it. -/
def sample : Sample where
  lines := [
    c!"# luxembourg.grammar",
    c!"# Initial grammar for Luxembourg",
    c!"# Author: Stephen Woodbridge <woodbri@imaptools.com>",
    c!"",
    c!"[ADDRESS]",
    c!"@micro @macro",
    c!"#@placename @micro @macro",
    c!"",
    c!"[micro]",
    c!"@housenumber @streetname",
    c!"@housenumber @streetname @unit",
    c!"@pobox",
    c!"",
    c!"[macro]",
    c!"@postal @citywords @country",
    c!"@postal @citywords",
    c!"",
    c!"[citywords]",
    c!"@city @citywords",
    c!"@city",
    c!"",
    c!"[placename]",
    c!"PLACEN -> BLDNG -> 0.7",
    c!"PLACEN WORD -> BLDNG BLDNG -> 0.6",
    c!"PLACEN WORD WORD -> BLDNG BLDNG BLDNG -> 0.5",
    c!"PLACEN WORD WORD WORD -> BLDNG BLDNG BLDNG BLDNG -> 0.4",
    c!"BUILDT -> BLDNG -> 0.7",
    c!"BUILDT WORD -> BLDNG BLDNG -> 0.6",
    c!"BUILDT WORD WORD -> BLDNG BLDNG BLDNG -> 0.5",
    c!"BUILDT WORD WORD WORD -> BLDNG BLDNG BLDNG BLDNG -> 0.4",
    c!"",
    c!"[postal]",
    c!"QUAD -> POSTAL -> 0.7",
    c!"NUMBER -> POSTAL -> 0.4",
    c!"SINGLE QUAD -> IGNORE POSTAL -> 0.7",
    c!"SINGLE NUMBER -> IGNORE POSTAL -> 0.4",
    c!"SINGLE DASH QUAD -> IGNORE IGNORE POSTAL -> 0.7",
    c!"SINGLE DASH NUMBER -> IGNORE IGNORE POSTAL -> 0.4",
    c!"",
    c!"[streetname]",
    c!"TYPE WORD -> PRETYP STREET -> 0.7",
    c!"TYPE WORD WORD -> PRETYP STREET STREET -> 0.6",
    c!"TYPE WORD WORD WORD -> PRETYP STREET STREET STREET -> 0.5",
    c!"TYPE WORD WORD WORD WORD -> PRETYP STREET STREET STREET STREET -> 0.4",
    c!"WORD TYPE -> STREET SUFTYP -> 0.7",
    c!"WORD WORD TYPE -> STREET STREET SUFTYP -> 0.6",
    c!"WORD WORD WORD TYPE -> STREET STREET STREET SUFTYP -> 0.5",
    c!"WORD WORD WORD WORD TYPE -> STREET STREET STREET STREET SUFTYP -> 0.4",
    c!"WORD -> STREET -> 0.4",
    c!"WORD WORD -> STREET STREET -> 0.3",
    c!"WORD WORD WORD -> STREET STREET STREET -> 0.2",
    c!"WORD WORD WORD WORD -> STREET STREET STREET STREET -> 0.1",
    c!"",
    c!"[housenumber]",
    c!"NUMBER -> HOUSE -> 0.5",
    c!"NUMBER SINGLE -> HOUSE HOUSE -> 0.6",
    c!"NUMBER DOUBLE -> HOUSE HOUSE -> 0.5",
    c!"MIXED -> HOUSE -> 0.4",
    c!"FRACT -> HOUSE -> 0.7",
    c!"NUMBER SLASH MIXED -> HOUSE HOUSE HOUSE -> 0.7",
    c!"FRACT SINGLE -> HOUSE HOUSE -> 0.8",
    c!"FRACT DOUBLE -> HOUSE HOUSE -> 0.7",
    c!"NUMBER SINGLE SINGLE -> HOUSE HOUSE HOUSE -> 0.7",
    c!"",
    c!"[unit]",
    c!"UNITH UNITT -> UNITH UNITT -> 0.8",
    c!"UNITH WORD -> UNITH UNIT -> 0.7",
    c!"UNITH NUMBER -> UNITH UNITT -> 0.7",
    c!"UNITH MIXED -> UNITH UNITT -> 0.7",
    c!"UNITH WORD WORD -> UNITH UNITT UNITT -> 0.4",
    c!"",
    c!"[pobox]",
    c!"BOXH NUMBER -> BOXH BOXT -> 0.7",
    c!"",
    c!"[city]",
    c!"CITY -> CITY -> 0.9",
    c!"WORD -> CITY -> 0.5",
    c!"",
    c!"[country]",
    c!"NATION -> NATION -> 0.9",
    c!""]
  warns := true
  odd := [([.UNITH, .WORD], [.UNITH, .BADTOKEN])]
  never := [.building, .predir, .qual, .sufdir, .ruralroute, .prov]
  always := [.city, .postcode]
  origin := [
    (.houseNum, [.NUMBER, .SINGLE, .DOUBLE, .MIXED, .FRACT, .SLASH]),
    (.pretype, [.TYPE]),
    (.name, [.WORD]),
    (.suftype, [.TYPE]),
    (.extra, [.WORD]),
    (.city, [.CITY, .WORD]),
    (.country, [.NATION]),
    (.postcode, [.QUAD, .NUMBER]),
    (.box, [.BOXH, .NUMBER]),
    (.unit, [.UNITH, .UNITT, .NUMBER, .MIXED, .WORD])]

/-- What shows it. -/
def cert : Cert where
  excess := [
    (c!"ADDRESS", 0), (c!"macro", 0), (c!"citywords", 0), (c!"unit", -2), (c!"pobox", -2)]
  reach := [
    c!"ADDRESS", c!"micro", c!"macro", c!"housenumber", c!"streetname", c!"unit", c!"pobox", c!"postal",
    c!"citywords", c!"country", c!"city"]
  must := [[c!"ADDRESS", c!"macro", c!"citywords", c!"city"],
    [c!"ADDRESS", c!"macro", c!"postal"]]

set_option maxRecDepth 100000 in
theorem checked : checkSample sample cert = true := by decide +kernel

end AS.Sample.Luxembourg
