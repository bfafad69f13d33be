import Verif.Lemmas.SampleCheck
/-
The grammar data/sample/andorra.gmr (all 74 lines). Written by tools/samples.py.
-/
namespace AS.Sample.Andorra

/-- The text (data/sample/andorra.gmr:1-74), and what is claimed of it. -/
def sample : Sample where
  lines := [
    c!"# andorra.grammar",
    c!"# Initial grammar for Andorra",
    c!"# Author: Stephen Woodbridge <woodbri@imaptools.com>",
    c!"",
    c!"[ADDRESS]",
    c!"@micro @macro",
    c!"#@placename @micro @macro",
    c!"",
    c!"[micro]",
    c!"@housenumber @streetname",
    c!"@housenumber @streetname @unit",
    c!"",
    c!"[macro]",
    c!"@postal @city @region @country",
    c!"@postal @city @country",
    c!"@postal @city",
    c!"@city @region @country",
    c!"@city @country",
    c!"@city",
    c!"",
    c!"[placename]",
    c!"PLACEN -> BLDNG -> 0.7",
    c!"PLACEN WORD -> BLDNG BLDNG -> 0.6",
    c!"PLACEN WORD WORD -> BLDNG BLDNG BLDNG -> 0.5",
    c!"PLACEN WORD WORD WORD -> BLDNG BLDNG BLDNG BLDNG -> 0.4",
    c!"BUILDT -> BLDNG -> 0.7",
    c!"BUILDT WORD -> BLDNG BLDNG -> 0.6",
    c!"BUILDT WORD WORD -> BLDNG BLDNG BLDNG -> 0.5",
    c!"BUILDT WORD WORD WORD -> BLDNG BLDNG BLDNG BLDNG -> 0.4",
    c!"",
    c!"# Postal format: ADnnn ",
    c!"[postal]",
    c!"MIXED -> POSTAL -> 0.7",
    c!"NUMBER -> POSTAL -> 0.4",
    c!"DOUBLE NUMBER -> IGNORE POSTAL -> 0.4",
    c!"",
    c!"[streetname]",
    c!"TYPE WORD -> PRETYP STREET -> 0.7",
    c!"TYPE WORD WORD -> PRETYP STREET STREET -> 0.6",
    c!"TYPE WORD WORD WORD -> PRETYP STREET STREET STREET -> 0.5",
    c!"TYPE WORD WORD WORD WORD -> PRETYP STREET STREET STREET STREET -> 0.4",
    c!"WORD -> STREET -> 0.4",
    c!"WORD WORD -> STREET STREET -> 0.3",
    c!"WORD WORD WORD -> STREET STREET STREET -> 0.2",
    c!"WORD WORD WORD WORD -> STREET STREET STREET STREET -> 0.1",
    c!"",
    c!"[housenumber]",
    c!"NUMBER -> HOUSE -> 0.5",
    c!"NUMBER NUMBER -> HOUSE HOUSE -> 0.5",
    c!"NUMBER DASH NUMBER -> HOUSE IGNORE HOUSE -> 0.5",
    c!"",
    c!"[unit]",
    c!"UNITH UNITT -> UNITH UNITT -> 0.8",
    c!"UNITH WORD -> UNITH UNIT -> 0.7",
    c!"UNITH NUMBER -> UNITH UNITT -> 0.7",
    c!"UNITH MIXED -> UNITH UNITT -> 0.7",
    c!"UNITH WORD WORD -> UNITH UNITT UNITT -> 0.4",
    c!"",
    c!"[pobox]",
    c!"BOXH NUMBER -> BOXH BOXT -> 0.7",
    c!"",
    c!"[city]",
    c!"CITY -> CITY -> 0.9",
    c!"WORD -> CITY -> 0.5",
    c!"WORD WORD -> CITY CITY -> 0.3",
    c!"",
    c!"[region]",
    c!"PROV -> PROV -> 0.9",
    c!"",
    c!"[country]",
    c!"NATION -> NATION -> 0.9",
    c!"",
    c!"",
    c!""]
  warns := true
  odd := [([.UNITH, .WORD], [.UNITH, .BADTOKEN])]
  never := [.building, .predir, .qual, .suftype, .sufdir, .ruralroute, .box]
  always := [.houseNum, .name, .city]
  origin := [
    (.houseNum, [.NUMBER]),
    (.pretype, [.TYPE]),
    (.name, [.WORD]),
    (.extra, [.WORD]),
    (.city, [.CITY, .WORD]),
    (.prov, [.PROV]),
    (.country, [.NATION]),
    (.postcode, [.MIXED, .NUMBER]),
    (.unit, [.UNITH, .UNITT, .NUMBER, .MIXED, .WORD])]

/-- What shows it. -/
def cert : Cert where
  excess := [
    (c!"ADDRESS", 0), (c!"macro", 0), (c!"unit", -2), (c!"pobox", -2)]
  reach := [
    c!"ADDRESS", c!"micro", c!"macro", c!"housenumber", c!"streetname", c!"unit", c!"postal", c!"city",
    c!"region", c!"country"]
  must := [[c!"ADDRESS", c!"micro", c!"housenumber"],
    [c!"ADDRESS", c!"micro", c!"streetname"],
    [c!"ADDRESS", c!"macro", c!"city"]]

set_option maxRecDepth 100000 in
theorem checked : checkSample sample cert = true := by decide +kernel

end AS.Sample.Andorra
