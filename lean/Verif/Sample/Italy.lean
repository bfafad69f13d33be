import Verif.Lemmas.SampleCheck
/-
The grammar data/sample/italy.gmr (all 81 lines). Written by tools/samples.py.
-/
namespace AS.Sample.Italy

/-- The text (data/sample/italy.gmr:1-81), and what is claimed of it. -/
def sample : Sample where
  lines := [
    c!"# italy.grammar",
    c!"# Initial grammar for Italy",
    c!"# Author: Stephen Woodbridge <woodbri@imaptools.com>",
    c!"",
    c!"[ADDRESS]",
    c!"@micro @macro",
    c!"#@placename @micro @macro",
    c!"",
    c!"[micro]",
    c!"@streetname @housenumber",
    c!"@unit @streetname @housenumber",
    c!"@pobox",
    c!"",
    c!"[macro]",
    c!"@postal @citywords @region @country",
    c!"@postal @citywords @country",
    c!"@postal @citywords @region",
    c!"@postal @citywords",
    c!"",
    c!"[citywords]",
    c!"@city @citywords",
    c!"@city",
    c!"",
    c!"[city]",
    c!"CITY -> CITY -> 0.9",
    c!"WORD -> CITY -> 0.5",
    c!"",
    c!"[placename]",
    c!"PLACEN -> BLDNG -> 0.7",
    c!"PLACEN WORD -> BLDNG BLDNG -> 0.6",
    c!"PLACEN WORD WORD -> BLDNG BLDNG BLDNG -> 0.5",
    c!"PLACEN WORD WORD WORD -> BLDNG BLDNG BLDNG BLDNG -> 0.4",
    c!"BUILDT -> BLDNG -> 0.7",
    c!"BUILDT WORD -> BLDNG BLDNG -> 0.6",
    c!"BUILDT WORD WORD -> BLDNG BLDNG BLDNG -> 0.5",
    c!"BUILDT WORD WORD WORD -> BLDNG BLDNG BLDNG BLDNG -> 0.4",
    c!"",
    c!"[postal]",
    c!"QUINT -> POSTAL -> 0.7",
    c!"NUMBER -> POSTAL -> 0.4",
    c!"SINGLE QUINT -> IGNORE POSTAL -> 0.7",
    c!"SINGLE NUMBER -> IGNORE POSTAL -> 0.4",
    c!"",
    c!"[streetname]",
    c!"TYPE WORD -> PRETYP STREET -> 0.7",
    c!"TYPE WORD WORD -> PRETYP STREET STREET -> 0.6",
    c!"TYPE WORD WORD WORD -> PRETYP STREET STREET STREET -> 0.5",
    c!"TYPE WORD WORD WORD WORD -> PRETYP STREET STREET STREET STREET -> 0.4",
    c!"WORD -> STREET -> 0.4",
    c!"WORD WORD -> STREET STREET -> 0.3",
    c!"WORD WORD WORD -> STREET STREET STREET -> 0.2",
    c!"WORD WORD WORD WORD -> STREET STREET STREET STREET -> 0.1",
    c!"",
    c!"[housenumber]",
    c!"NUMBER -> HOUSE -> 0.5",
    c!"NUMBER SINGLE -> HOUSE HOUSE -> 0.6",
    c!"NUMBER DOUBLE -> HOUSE HOUSE -> 0.5",
    c!"NUMBER SLASH SINGLE -> HOUSE HOUSE HOUSE -> 0.7",
    c!"NUMBER DASH NUMBER -> HOUSE HOUSE HOUSE -> 0.7",
    c!"NUMBER SLASH NUMBER -> HOUSE HOUSE HOUSE -> 0.7",
    c!"NUMBER SLASH NUMBER SINGLE -> HOUSE HOUSE HOUSE HOUSE -> 0.7",
    c!"RR NUMBER -> HOUSE HOUSE -> 0.8",
    c!"RR NUMBER NUMBER -> HOUSE HOUSE HOUSE -> 0.8",
    c!"",
    c!"[unit]",
    c!"UNITH NUMBER -> UNITH UNITT -> 0.7",
    c!"UNITH NUMBER SINGLE -> UNITH UNITT UNITT -> 0.7",
    c!"UNITH NUMBER UNITH NUMBER -> UNITH UNITT UNITH UNITT -> 0.7",
    c!"UNITH WORD -> UNITH UNITT -> 0.7",
    c!"UNITH NUMBER SINGLE UNITH NUMBER -> UNITH UNITT UNITT UNITH UNITT -> 0.7",
    c!"",
    c!"[pobox]",
    c!"BOXH NUMBER -> BOXH BOXT -> 0.7",
    c!"",
    c!"[region]",
    c!"PROV -> PROV -> 0.9",
    c!"",
    c!"[country]",
    c!"NATION -> NATION -> 0.9",
    c!"",
    c!""]
  warns := true
  odd := []
  never := [.building, .predir, .qual, .suftype, .sufdir, .ruralroute, .extra]
  always := [.city, .postcode]
  origin := [
    (.houseNum, [.NUMBER, .SINGLE, .DOUBLE, .SLASH, .DASH, .RR]),
    (.pretype, [.TYPE]),
    (.name, [.WORD]),
    (.city, [.CITY, .WORD]),
    (.prov, [.PROV]),
    (.country, [.NATION]),
    (.postcode, [.QUINT, .NUMBER]),
    (.box, [.BOXH, .NUMBER]),
    (.unit, [.UNITH, .NUMBER, .SINGLE, .WORD])]

/-- What shows it. -/
def cert : Cert where
  excess := [
    (c!"ADDRESS", 0), (c!"macro", 0), (c!"citywords", 0), (c!"unit", -2), (c!"pobox", -2)]
  reach := [
    c!"ADDRESS", c!"micro", c!"macro", c!"streetname", c!"housenumber", c!"unit", c!"pobox", c!"postal",
    c!"citywords", c!"region", c!"country", c!"city"]
  must := [[c!"ADDRESS", c!"macro", c!"citywords", c!"city"],
    [c!"ADDRESS", c!"macro", c!"postal"]]

set_option maxRecDepth 100000 in
theorem checked : checkSample sample cert = true := by decide +kernel

end AS.Sample.Italy
