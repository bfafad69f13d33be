import Verif.Lemmas.SampleCheck
/-
The grammar data/sample/netherlands.gmr (all 105 lines). Written by tools/samples.py.
-/
namespace AS.Sample.Netherlands

/-- The text (data/sample/netherlands.gmr:1-105), and what is claimed of it. -/
def sample : Sample where
  lines := [
    c!"# netherlands.grammar",
    c!"# Initial grammar for Netherlands",
    c!"# Author: Stephen Woodbridge <woodbri@imaptools.com>",
    c!"",
    c!"[ADDRESS]",
    c!"@micro @macro",
    c!"#@placename @micro @macro",
    c!"",
    c!"[micro]",
    c!"@streetname @housenumber",
    c!"@streetname @housenumber @unit",
    c!"@pobox",
    c!"",
    c!"[macro]",
    c!"@postal @citywords @region @country",
    c!"@postal @citywords @country",
    c!"@postal @citywords @region",
    c!"@postal @citywords",
    c!"",
    c!"[citywords]",
    c!"@city @citywords",
    c!"@city",
    c!"",
    c!"[placename]",
    c!"@building",
    c!"@building @unit",
    c!"",
    c!"[building]",
    c!"PLACEN -> BLDNG -> 0.7",
    c!"WORD PLACEN -> BLDNG BLDNG -> 0.6",
    c!"WORD WORD PLACEN -> BLDNG BLDNG BLDNG -> 0.5",
    c!"WORD WORD WORD PLACEN -> BLDNG BLDNG BLDNG BLDNG -> 0.4",
    c!"PLACEN -> BLDNG -> 0.7",
    c!"PLACEN WORD -> BLDNG BLDNG -> 0.6",
    c!"PLACEN WORD WORD -> BLDNG BLDNG BLDNG -> 0.5",
    c!"PLACEN WORD WORD WORD -> BLDNG BLDNG BLDNG BLDNG -> 0.4",
    c!"",
    c!"[postal]",
    c!"QUAD -> POSTAL -> 0.7",
    c!"QUAD DOUBLE -> POSTAL POSTAL -> 0.7",
    c!"NUMBER -> POSTAL -> 0.4",
    c!"NATION QUAD -> IGNORE POSTAL -> 0.7",
    c!"NATION QUAD DOUBLE -> IGNORE POSTAL POSTAL -> 0.7",
    c!"NATION NUMBER -> IGNORE POSTAL -> 0.4",
    c!"NATION DASH QUAD -> IGNORE IGNORE POSTAL -> 0.7",
    c!"NATION DASH QUAD DOUBLE -> IGNORE IGNORE POSTAL POSTAL -> 0.7",
    c!"NATION DASH NUMBER -> IGNORE IGNORE POSTAL -> 0.4",
    c!"",
    c!"[streetname]",
    c!"@basename",
    c!"@prefix @basename",
    c!"",
    c!"[prefix]",
    c!"NUMBER SINGLE -> STREET STREET -> 0.3",
    c!"NUMBER -> STREET -> 0.3",
    c!"",
    c!"[basename]",
    c!"WORD TYPE -> STREET SUFTYP -> 0.7",
    c!"WORD WORD TYPE -> STREET STREET SUFTYP -> 0.6",
    c!"WORD WORD WORD TYPE -> STREET STREET STREET SUFTYP -> 0.5",
    c!"WORD WORD WORD WORD TYPE -> STREET STREET STREET STREET SUFTYP -> 0.4",
    c!"WORD -> STREET -> 0.4",
    c!"WORD WORD -> STREET STREET -> 0.3",
    c!"WORD WORD WORD -> STREET STREET STREET -> 0.2",
    c!"WORD WORD WORD WORD -> STREET STREET STREET STREET -> 0.1",
    c!"",
    c!"[housenumber]",
    c!"NUMBER -> HOUSE -> 0.5",
    c!"NUMBER SINGLE -> HOUSE HOUSE -> 0.6",
    c!"NUMBER DOUBLE -> HOUSE HOUSE -> 0.5",
    c!"FRACT -> HOUSE -> 0.7",
    c!"NUMBER SLASH NUMBER -> HOUSE HOUSE HOUSE -> 0.7",
    c!"NUMBER SLASH SINGLE -> HOUSE HOUSE HOUSE -> 0.7",
    c!"NUMBER SLASH NUMBER SINGLE -> HOUSE HOUSE HOUSE HOUSE -> 0.7",
    c!"NUMBER DASH NUMBER -> HOUSE HOUSE HOUSE -> 0.7",
    c!"NUMBER DASH SINGLE -> HOUSE HOUSE HOUSE -> 0.7",
    c!"NUMBER DASH NUMBER SINGLE -> HOUSE HOUSE HOUSE HOUSE -> 0.7",
    c!"FRACT SINGLE -> HOUSE HOUSE -> 0.8",
    c!"FRACT DOUBLE -> HOUSE HOUSE -> 0.7",
    c!"NUMBER SINGLE SINGLE -> HOUSE HOUSE HOUSE -> 0.7",
    c!"",
    c!"[unit]",
    c!"UNITH UNITT -> UNITH UNITT -> 0.8",
    c!"UNITH WORD -> UNITH UNIT -> 0.7",
    c!"UNITH NUMBER -> UNITH UNITT -> 0.7",
    c!"UNITH MIXED -> UNITH UNITT -> 0.7",
    c!"UNITH WORD WORD -> UNITH UNITT UNITT -> 0.4",
    c!"WORD NUMBER SINGLE -> UNITH UNITT UNITT -> 0.3",
    c!"",
    c!"[pobox]",
    c!"BOXH NUMBER -> BOXH BOXT -> 0.7",
    c!"WORD NUMBER -> BOXH BOXT -> 0.3",
    c!"NUMBER WORD -> BOXT BOXH -> 0.3",
    c!"",
    c!"[city]",
    c!"CITY -> CITY -> 0.9",
    c!"WORD -> CITY -> 0.5",
    c!"",
    c!"[region]",
    c!"PROV -> PROV -> 0.9",
    c!"",
    c!"[country]",
    c!"NATION -> NATION -> 0.9",
    c!"",
    c!""]
  warns := true
  odd := [([.UNITH, .WORD], [.UNITH, .BADTOKEN])]
  never := [.building, .predir, .qual, .pretype, .sufdir, .ruralroute]
  always := [.city, .postcode]
  origin := [
    (.houseNum, [.NUMBER, .SINGLE, .DOUBLE, .FRACT, .SLASH, .DASH]),
    (.name, [.WORD, .NUMBER, .SINGLE]),
    (.suftype, [.TYPE]),
    (.extra, [.WORD]),
    (.city, [.CITY, .WORD]),
    (.prov, [.PROV]),
    (.country, [.NATION]),
    (.postcode, [.QUAD, .DOUBLE, .NUMBER]),
    (.box, [.BOXH, .NUMBER, .WORD]),
    (.unit, [.UNITH, .UNITT, .NUMBER, .MIXED, .WORD, .SINGLE])]

/-- What shows it. -/
def cert : Cert where
  excess := [
    (c!"ADDRESS", 1), (c!"micro", 0), (c!"macro", 0), (c!"citywords", 0), (c!"placename", 0),
    (c!"streetname", 0), (c!"unit", -2), (c!"pobox", -2)]
  reach := [
    c!"ADDRESS", c!"micro", c!"macro", c!"streetname", c!"housenumber", c!"unit", c!"pobox", c!"postal",
    c!"citywords", c!"region", c!"country", c!"basename", c!"prefix", c!"city"]
  must := [[c!"ADDRESS", c!"macro", c!"citywords", c!"city"],
    [c!"ADDRESS", c!"macro", c!"postal"]]

set_option maxRecDepth 100000 in
theorem checked : checkSample sample cert = true := by decide +kernel

end AS.Sample.Netherlands
