import Verif.Lemmas.SampleCheck
/-
The grammar data/sample/finland.gmr (all 80 lines). Written by tools/samples.py.
-/
namespace AS.Sample.Finland

/-- The text (data/sample/finland.gmr:1-80), and what is claimed of it. -/
def sample : Sample where
  lines := [
    c!"# finland.grammar",
    c!"# Initial grammar for Finland",
    c!"# Author: Stephen Woodbridge <woodbri@imaptools.com>",
    c!"",
    c!"[ADDRESS]",
    c!"@micro @macro",
    c!"#@placename @micro @macro",
    c!"",
    c!"[micro]",
    c!"@streetname @housenumber",
    c!"@streetname @housenumber @unit",
    c!"@pobox",
    c!"",
    c!"[macro]",
    c!"@postal @citywords @country",
    c!"@postal @citywords",
    c!"@citywords @country",
    c!"@citywords",
    c!"",
    c!"[citywords]",
    c!"@city @citywords",
    c!"@city",
    c!"",
    c!"[placename]",
    c!"PLACEN WORD -> BLDNG BLDNG -> 0.5",
    c!"WORD PLACEN -> BLDNG BLDNG -> 0.5",
    c!"PLACEN WORD PLACEN -> BLDNG BLDNG BLDNG -> 0.5",
    c!"WORD PLACEN PLACEN -> BLDNG BLDNG BLDNG -> 0.5",
    c!"PLACEN WORD WORD -> BLDNG BLDNG BLDNG -> 0.5",
    c!"WORD WORD PLACEN -> BLDNG BLDNG BLDNG -> 0.5",
    c!"PLACEN WORD WORD PLACEN -> BLDNG BLDNG BLDNG BLDNG -> 0.5",
    c!"WORD WORD PLACEN PLACEN -> BLDNG BLDNG BLDNG BLDNG -> 0.5",
    c!"PLACEN WORD WORD WORD -> BLDNG BLDNG BLDNG BLDNG -> 0.5",
    c!"WORD WORD WORD PLACEN -> BLDNG BLDNG BLDNG BLDNG -> 0.5",
    c!"PLACEN WORD WORD WORD PLACEN -> BLDNG BLDNG BLDNG BLDNG BLDNG -> 0.5",
    c!"WORD WORD WORD PLACEN PLACEN -> BLDNG BLDNG BLDNG BLDNG BLDNG -> 0.5",
    c!"",
    c!"[postal]",
    c!"QUINT -> POSTAL -> 0.7",
    c!"NUMBER -> POSTAL -> 0.5",
    c!"NATION QUINT -> IGNORE POSTAL -> 0.7",
    c!"NATION NUMBER -> IGNORE POSTAL -> 0.5",
    c!"NATION DASH QUINT -> IGNORE IGNORE POSTAL -> 0.7",
    c!"NATION DASH NUMBER -> IGNORE IGNORE POSTAL -> 0.5",
    c!"",
    c!"[streetname]",
    c!"WORD TYPE -> STREET SUFTYP -> 0.7",
    c!"WORD WORD TYPE -> STREET STREET SUFTYP -> 0.6",
    c!"WORD WORD WORD TYPE -> STREET STREET STREET SUFTYP -> 0.5",
    c!"WORD WORD WORD WORD TYPE -> STREET STREET STREET STREET SUFTYP -> 0.4",
    c!"WORD -> STREET -> 0.4",
    c!"WORD WORD -> STREET STREET -> 0.3",
    c!"WORD WORD WORD -> STREET STREET STREET -> 0.2",
    c!"WORD WORD WORD WORD -> STREET STREET STREET STREET -> 0.1",
    c!"",
    c!"[housenumber]",
    c!"NUMBER -> HOUSE -> 0.5",
    c!"NUMBER SINGLE -> HOUSE IGNORE -> 0.6",
    c!"NUMBER DOUBLE -> HOUSE IGNORE -> 0.5",
    c!"MIXED -> HOUSE -> 0.4",
    c!"NUMBER DASH NUMBER -> HOUSE IGNORE IGNORE -> 0.7",
    c!"",
    c!"[unit]",
    c!"NUMBER -> UNITT -> 0.4",
    c!"NUMBER WORD -> UNITT UNITT -> 0.4",
    c!"NUMBER WORD WORD -> UNITT UNITT UNITT -> 0.3",
    c!"",
    c!"[pobox]",
    c!"BOXH NUMBER -> BOXH BOXT -> 0.7",
    c!"BOXH WORD -> BOXH BOXT -> 0.7",
    c!"",
    c!"[city]",
    c!"CITY -> CITY -> 0.9",
    c!"WORD -> CITY -> 0.5",
    c!"",
    c!"[country]",
    c!"NATION -> NATION -> 0.9",
    c!"",
    c!"",
    c!""]
  warns := true
  odd := []
  never := [.building, .predir, .qual, .pretype, .sufdir, .ruralroute, .extra, .prov]
  always := [.city]
  origin := [
    (.houseNum, [.NUMBER, .MIXED]),
    (.name, [.WORD]),
    (.suftype, [.TYPE]),
    (.city, [.CITY, .WORD]),
    (.country, [.NATION]),
    (.postcode, [.QUINT, .NUMBER]),
    (.box, [.BOXH, .NUMBER, .WORD]),
    (.unit, [.NUMBER, .WORD])]

/-- What shows it. -/
def cert : Cert where
  excess := [
    (c!"ADDRESS", 1), (c!"macro", 1), (c!"citywords", 0), (c!"placename", -2), (c!"pobox", -2)]
  reach := [
    c!"ADDRESS", c!"micro", c!"macro", c!"streetname", c!"housenumber", c!"unit", c!"pobox", c!"postal",
    c!"citywords", c!"country", c!"city"]
  must := [[c!"ADDRESS", c!"macro", c!"citywords", c!"city"]]

set_option maxRecDepth 100000 in
theorem checked : checkSample sample cert = true := by decide +kernel

end AS.Sample.Finland
