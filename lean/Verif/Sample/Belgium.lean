import Verif.Lemmas.SampleCheck
/-
The grammar data/sample/belgium.gmr (all 72 lines). Written by tools/samples.py.
-/
namespace AS.Sample.Belgium

/-- The text (data/sample/belgium.gmr:1-72), and what is claimed of it. -/
def sample : Sample where
  lines := [
    c!"# belgium.grammar",
    c!"# Initial grammar for Belgium",
    c!"# Author: Stephen Woodbridge <woodbri@imaptools.com>",
    c!"",
    c!"[ADDRESS]",
    c!"@micro @macro",
    c!"#@placename @micro @macro",
    c!"",
    c!"[micro]",
    c!"@streetname @housenumber",
    c!"@streetname @housenumber @unit",
    c!"@pobox",
    c!"",
    c!"[macro]",
    c!"@postal @city @region @country",
    c!"@postal @city @country",
    c!"@postal @city",
    c!"",
    c!"[placename]",
    c!"PLACEN -> BLDNG -> 0.7",
    c!"PLACEN WORD -> BLDNG BLDNG -> 0.6",
    c!"PLACEN WORD WORD -> BLDNG BLDNG BLDNG -> 0.5",
    c!"PLACEN WORD WORD WORD -> BLDNG BLDNG BLDNG BLDNG -> 0.4",
    c!"BUILDT -> BLDNG -> 0.7",
    c!"BUILDT WORD -> BLDNG BLDNG -> 0.6",
    c!"BUILDT WORD WORD -> BLDNG BLDNG BLDNG -> 0.5",
    c!"BUILDT WORD WORD WORD -> BLDNG BLDNG BLDNG BLDNG -> 0.4",
    c!"",
    c!"[postal]",
    c!"QUAD -> POSTAL -> 0.7",
    c!"NUMBER -> POSTAL -> 0.4",
    c!"SINGLE QUAD -> IGNORE POSTAL -> 0.7",
    c!"SINGLE NUMBER -> IGNORE POSTAL -> 0.4",
    c!"SINGLE DASH QUAD -> IGNORE IGNORE POSTAL -> 0.7",
    c!"SINGLE DASH NUMBER -> IGNORE IGNORE POSTAL -> 0.4",
    c!"",
    c!"[streetname]",
    c!"WORD TYPE -> STREET SUFTYP -> 0.7",
    c!"WORD WORD TYPE -> STREET STREET SUFTYP -> 0.6",
    c!"WORD WORD WORD TYPE -> STREET STREET STREET SUFTYP -> 0.5",
    c!"WORD WORD WORD WORD TYPE -> STREET STREET STREET STREET SUFTYP -> 0.4",
    c!"WORD -> STREET -> 0.4",
    c!"WORD WORD -> STREET STREET -> 0.3",
    c!"WORD WORD WORD -> STREET STREET STREET -> 0.2",
    c!"WORD WORD WORD WORD -> STREET STREET STREET STREET -> 0.1",
    c!"",
    c!"[housenumber]",
    c!"NUMBER -> HOUSE -> 0.5",
    c!"NUMBER DASH NUMBER -> HOUSE IGNORE UNITT -> 0.5",
    c!"NUMBER NUMBER -> HOUSE UNITT -> 0.2",
    c!"",
    c!"[unit]",
    c!"UNITH NUMBER -> UNITH UNITT -> 0.7",
    c!"UNITH NUMBER SINGLE -> UNITH UNITT SINGLE -> 0.7",
    c!"UNITH WORD -> UNITH UNITT -> 0.7",
    c!"UNITH MIXED -> UNITH UNITT -> 0.7",
    c!"",
    c!"[pobox]",
    c!"BOXH NUMBER -> BOXH BOXT -> 0.7",
    c!"",
    c!"[city]",
    c!"CITY -> CITY -> 0.9",
    c!"WORD -> CITY -> 0.5",
    c!"WORD WORD -> CITY CITY -> 0.3",
    c!"",
    c!"[region]",
    c!"PROV -> PROV -> 0.9",
    c!"",
    c!"[country]",
    c!"NATION -> NATION -> 0.9",
    c!"",
    c!""]
  warns := true
  odd := [([.UNITH, .NUMBER, .SINGLE], [.UNITH, .UNITT, .BADTOKEN])]
  never := [.building, .predir, .qual, .pretype, .sufdir, .ruralroute]
  always := [.city, .postcode]
  origin := [
    (.houseNum, [.NUMBER]),
    (.name, [.WORD]),
    (.suftype, [.TYPE]),
    (.extra, [.SINGLE]),
    (.city, [.CITY, .WORD]),
    (.prov, [.PROV]),
    (.country, [.NATION]),
    (.postcode, [.QUAD, .NUMBER]),
    (.box, [.BOXH, .NUMBER]),
    (.unit, [.NUMBER, .UNITH, .WORD, .MIXED])]

/-- What shows it. -/
def cert : Cert where
  excess := [
    (c!"unit", -2), (c!"pobox", -2)]
  reach := [
    c!"ADDRESS", c!"micro", c!"macro", c!"streetname", c!"housenumber", c!"unit", c!"pobox", c!"postal",
    c!"city", c!"region", c!"country"]
  must := [[c!"ADDRESS", c!"macro", c!"city"],
    [c!"ADDRESS", c!"macro", c!"postal"]]

set_option maxRecDepth 100000 in
theorem checked : checkSample sample cert = true := by decide +kernel

end AS.Sample.Belgium
