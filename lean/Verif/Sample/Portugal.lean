import Verif.Lemmas.SampleCheck
/-
The grammar data/sample/portugal.gmr (all 92 lines). Written by tools/samples.py.
-/
namespace AS.Sample.Portugal

/-- The text (data/sample/portugal.gmr:1-92), and what is claimed of it. -/
def sample : Sample where
  lines := [
    c!"# portugal.grammar",
    c!"# Initial grammar for Portugal",
    c!"# Author: Stephen Woodbridge <woodbri@imaptools.com>",
    c!"",
    c!"[ADDRESS]",
    c!"@micro @macro",
    c!"#@placename @micro @macro",
    c!"",
    c!"[micro]",
    c!"@streetname @housenumber",
    c!"@unit @streetname @housenumber",
    c!"@pobox",
    c!"",
    c!"[macro]",
    c!"@locality @postal @citywords @region @country",
    c!"@locality @postal @citywords @country",
    c!"@locality @postal @citywords @region",
    c!"@locality @postal @citywords",
    c!"@postal @citywords @region @country",
    c!"@postal @citywords @country",
    c!"@postal @citywords @region",
    c!"@postal @citywords",
    c!"",
    c!"[locality]",
    c!"@word @locality",
    c!"@word",
    c!"",
    c!"[word]",
    c!"WORD -> EXTRA -> 0.3",
    c!"",
    c!"[citywords]",
    c!"@city @citywords",
    c!"@city",
    c!"",
    c!"[placename]",
    c!"PLACEN -> BLDNG -> 0.7",
    c!"PLACEN WORD -> BLDNG BLDNG -> 0.6",
    c!"PLACEN WORD WORD -> BLDNG BLDNG BLDNG -> 0.5",
    c!"PLACEN WORD WORD WORD -> BLDNG BLDNG BLDNG BLDNG -> 0.4",
    c!"",
    c!"[postal]",
    c!"QUAD -> POSTAL -> 0.7",
    c!"NUMBER -> POSTAL -> 0.4",
    c!"QUAD DASH NUMBER -> POSTAL IGNORE POSTAL -> 0.7",
    c!"NUMBER DASH NUMBER -> POSTAL IGNORE POSTAL -> 0.4",
    c!"SINGLE QUAD -> IGNORE POSTAL -> 0.7",
    c!"SINGLE NUMBER -> IGNORE POSTAL -> 0.4",
    c!"SINGLE QUAD DASH NUMBER -> IGNORE POSTAL IGNORE POSTAL -> 0.7",
    c!"SINGLE NUMBER DASH NUMBER -> IGNORE POSTAL IGNORE POSTAL -> 0.4",
    c!"",
    c!"[streetname]",
    c!"TYPE WORD -> PRETYP STREET -> 0.7",
    c!"TYPE WORD WORD -> PRETYP STREET STREET -> 0.6",
    c!"TYPE WORD WORD WORD -> PRETYP STREET STREET STREET -> 0.5",
    c!"TYPE WORD WORD WORD WORD -> PRETYP STREET STREET STREET STREET -> 0.4",
    c!"WORD -> STREET -> 0.4",
    c!"WORD WORD -> STREET STREET -> 0.3",
    c!"WORD WORD WORD -> STREET STREET STREET -> 0.2",
    c!"WORD WORD WORD WORD -> STREET STREET STREET STREET -> 0.1",
    c!"",
    c!"[housenumber]",
    c!"NUMBER -> HOUSE -> 0.5",
    c!"NUMBER SINGLE -> HOUSE HOUSE -> 0.6",
    c!"NUMBER DOUBLE -> HOUSE HOUSE -> 0.5",
    c!"NUMBER DASH SINGLE -> HOUSE HOUSE HOUSE -> 0.7",
    c!"NUMBER DASH NUMBER -> HOUSE HOUSE HOUSE -> 0.7",
    c!"NUMBER DASH NUMBER SINGLE -> HOUSE HOUSE HOUSE HOUSE -> 0.7",
    c!"NUMBER SLASH SINGLE -> HOUSE HOUSE HOUSE -> 0.7",
    c!"NUMBER SLASH NUMBER -> HOUSE HOUSE HOUSE -> 0.7",
    c!"NUMBER SLASH NUMBER SINGLE -> HOUSE HOUSE HOUSE HOUSE -> 0.7",
    c!"",
    c!"[unit]",
    c!"UNITH NUMBER -> UNITH UNITT -> 0.7",
    c!"UNITH NUMBER SINGLE -> UNITH UNITT UNITT -> 0.7",
    c!"UNITH NUMBER UNITH NUMBER -> UNITH UNITT UNITH UNITT -> 0.7",
    c!"UNITH WORD -> UNITH UNITT -> 0.7",
    c!"UNITH NUMBER SINGLE UNITH NUMBER -> UNITH UNITT UNITT UNITH UNITT -> 0.7",
    c!"",
    c!"[pobox]",
    c!"BOXH NUMBER -> BOXH BOXT -> 0.7",
    c!"",
    c!"[city]",
    c!"CITY -> CITY -> 0.9",
    c!"WORD -> CITY -> 0.5",
    c!"",
    c!"[region]",
    c!"PROV -> PROV -> 0.9",
    c!"",
    c!"[country]",
    c!"NATION -> NATION -> 0.9",
    c!"",
    c!""]
  warns := true
  odd := []
  never := [.building, .predir, .qual, .suftype, .sufdir, .ruralroute]
  always := [.city, .postcode]
  origin := [
    (.houseNum, [.NUMBER, .SINGLE, .DOUBLE, .DASH, .SLASH]),
    (.pretype, [.TYPE]),
    (.name, [.WORD]),
    (.extra, [.WORD]),
    (.city, [.CITY, .WORD]),
    (.prov, [.PROV]),
    (.country, [.NATION]),
    (.postcode, [.QUAD, .NUMBER]),
    (.box, [.BOXH, .NUMBER]),
    (.unit, [.UNITH, .NUMBER, .SINGLE, .WORD])]

/-- What shows it. -/
def cert : Cert where
  excess := [
    (c!"ADDRESS", 0), (c!"macro", 0), (c!"locality", 0), (c!"citywords", 0), (c!"unit", -2), (c!"pobox", -2)]
  reach := [
    c!"ADDRESS", c!"micro", c!"macro", c!"streetname", c!"housenumber", c!"unit", c!"pobox", c!"locality",
    c!"postal", c!"citywords", c!"region", c!"country", c!"word", c!"city"]
  must := [[c!"ADDRESS", c!"macro", c!"citywords", c!"city"],
    [c!"ADDRESS", c!"macro", c!"postal"]]

set_option maxRecDepth 100000 in
theorem checked : checkSample sample cert = true := by decide +kernel

end AS.Sample.Portugal
