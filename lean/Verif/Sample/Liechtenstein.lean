import Verif.Lemmas.SampleCheck
/-
The grammar data/sample/liechtenstein.gmr (all 75 lines). Written by tools/samples.py.
-/
namespace AS.Sample.Liechtenstein

/-- The text (data/sample/liechtenstein.gmr:1-75), and what is claimed of it. -/
def sample : Sample where
  lines := [
    c!"# liechtenstein.grammar",
    c!"# Initial grammar for Liechtenstein",
    c!"# Author: Stephen Woodbridge <woodbri@imaptools.com>",
    c!"",
    c!"[ADDRESS]",
    c!"@micro @macro",
    c!"#@placename @micro @macro",
    c!"",
    c!"[micro]",
    c!"@streetname @housenumber",
    c!"@streetname @housenumber @unit",
    c!"@pobox",
    c!"",
    c!"[macro]",
    c!"@postal @citywords @country",
    c!"@postal @citywords",
    c!"#@postal @citywords @region @country",
    c!"#@postal @citywords @region",
    c!"",
    c!"[citywords]",
    c!"@city @citywords",
    c!"@city",
    c!"",
    c!"[placename]",
    c!"PLACEN -> BLDNG -> 0.7",
    c!"PLACEN WORD -> BLDNG BLDNG -> 0.6",
    c!"PLACEN WORD WORD -> BLDNG BLDNG BLDNG -> 0.5",
    c!"PLACEN WORD WORD WORD -> BLDNG BLDNG BLDNG BLDNG -> 0.4",
    c!"BUILDT -> BLDNG -> 0.7",
    c!"BUILDT WORD -> BLDNG BLDNG -> 0.6",
    c!"BUILDT WORD WORD -> BLDNG BLDNG BLDNG -> 0.5",
    c!"BUILDT WORD WORD WORD -> BLDNG BLDNG BLDNG BLDNG -> 0.4",
    c!"",
    c!"[postal]",
    c!"QUAD -> POSTAL -> 0.7",
    c!"NUMBER -> POSTAL -> 0.4",
    c!"DOUBLE QUAD -> IGNORE POSTAL -> 0.7",
    c!"DOUBLE NUMBER -> IGNORE POSTAL -> 0.4",
    c!"",
    c!"[streetname]",
    c!"WORD TYPE -> STREET SUFTYP -> 0.7",
    c!"WORD WORD TYPE -> STREET STREET SUFTYP -> 0.6",
    c!"WORD WORD WORD TYPE -> STREET STREET STREET SUFTYP -> 0.5",
    c!"WORD WORD WORD WORD TYPE -> STREET STREET STREET STREET SUFTYP -> 0.4",
    c!"WORD -> STREET -> 0.4",
    c!"WORD WORD -> STREET STREET -> 0.3",
    c!"WORD WORD WORD -> STREET STREET STREET -> 0.2",
    c!"WORD WORD WORD WORD -> STREET STREET STREET STREET -> 0.1",
    c!"",
    c!"[housenumber]",
    c!"NUMBER -> HOUSE -> 0.5",
    c!"NUMBER SINGLE -> HOUSE HOUSE -> 0.6",
    c!"NUMBER DOUBLE -> HOUSE HOUSE -> 0.5",
    c!"",
    c!"[unit]",
    c!"UNITH WORD -> UNITH UNIT -> 0.7",
    c!"UNITH NUMBER -> UNITH UNITT -> 0.7",
    c!"UNITH NUMBER SINGLE -> UNITH UNITT UNITT -> 0.7",
    c!"UNITH NUMBER DOUBLE -> UNITH UNITT UNITT -> 0.7",
    c!"UNITH WORD WORD -> UNITH UNITT UNITT -> 0.4",
    c!"",
    c!"[pobox]",
    c!"BOXH NUMBER -> BOXH BOXT -> 0.7",
    c!"",
    c!"[city]",
    c!"CITY -> CITY -> 0.9",
    c!"WORD -> CITY -> 0.5",
    c!"",
    c!"#[region]",
    c!"#PROV -> PROV -> 0.9",
    c!"",
    c!"[country]",
    c!"NATION -> NATION -> 0.9",
    c!"",
    c!""]
  warns := true
  odd := [([.UNITH, .WORD], [.UNITH, .BADTOKEN])]
  never := [.building, .predir, .qual, .pretype, .sufdir, .ruralroute, .prov]
  always := [.city, .postcode]
  origin := [
    (.houseNum, [.NUMBER, .SINGLE, .DOUBLE]),
    (.name, [.WORD]),
    (.suftype, [.TYPE]),
    (.extra, [.WORD]),
    (.city, [.CITY, .WORD]),
    (.country, [.NATION]),
    (.postcode, [.QUAD, .NUMBER]),
    (.box, [.BOXH, .NUMBER]),
    (.unit, [.UNITH, .NUMBER, .SINGLE, .DOUBLE, .WORD])]

/-- What shows it. -/
def cert : Cert where
  excess := [
    (c!"ADDRESS", 0), (c!"macro", 0), (c!"citywords", 0), (c!"unit", -2), (c!"pobox", -2)]
  reach := [
    c!"ADDRESS", c!"micro", c!"macro", c!"streetname", c!"housenumber", c!"unit", c!"pobox", c!"postal",
    c!"citywords", c!"country", c!"city"]
  must := [[c!"ADDRESS", c!"macro", c!"citywords", c!"city"],
    [c!"ADDRESS", c!"macro", c!"postal"]]

set_option maxRecDepth 100000 in
theorem checked : checkSample sample cert = true := by decide +kernel

end AS.Sample.Liechtenstein
