import Verif.Lemmas.SampleCheck
/-
The grammar data/sample/denmark.gmr (all 59 lines). Written by tools/samples.py.
-/
namespace AS.Sample.Denmark

/-- The text (data/sample/denmark.gmr:1-59), and what is claimed of it. -/
def sample : Sample where
  lines := [
    c!"# denmark.grammar",
    c!"# Initial grammar for Denmark",
    c!"# Author: Stephen Woodbridge <woodbri@imaptools.com>",
    c!"",
    c!"[ADDRESS]",
    c!"@micro @macro",
    c!"#@placename @micro @macro",
    c!"",
    c!"[micro]",
    c!"@streetname @housenumber",
    c!"@streetname @housenumber @unit",
    c!"@pobox",
    c!"",
    c!"[macro]",
    c!"@postal @city @country",
    c!"@postal @city",
    c!"",
    c!"[postal]",
    c!"QUAD -> POSTAL -> 0.8",
    c!"DOUBLE QUAD -> IGNORE POSTAL -> 0.8",
    c!"DOUBLE DASH QUAD -> IGNORE IGNORE POSTAL -> 0.8",
    c!"",
    c!"[streetname]",
    c!"WORD TYPE -> STREET SUFTYP -> 0.7",
    c!"WORD WORD TYPE -> STREET STREET SUFTYP -> 0.6",
    c!"WORD WORD WORD TYPE -> STREET STREET STREET SUFTYP -> 0.5",
    c!"WORD WORD WORD WORD TYPE -> STREET STREET STREET STREET SUFTYP -> 0.4",
    c!"WORD -> STREET -> 0.4",
    c!"WORD WORD -> STREET STREET -> 0.3",
    c!"WORD WORD WORD -> STREET STREET STREET -> 0.2",
    c!"WORD WORD WORD WORD -> STREET STREET STREET STREET -> 0.1",
    c!"",
    c!"[housenumber]",
    c!"NUMBER -> HOUSE -> 0.5",
    c!"NUMBER SINGLE -> HOUSE HOUSE -> 0.6",
    c!"MIXED -> HOUSE -> 0.4",
    c!"",
    c!"[unit]",
    c!"COMMA NUMBER -> IGNORE UNITT -> 0.5",
    c!"COMMA NUMBER COMMA WORD -> IGNORE UNITT IGNORE EXTRA -> 0.7",
    c!"COMMA NUMBER COMMA WORD WORD -> IGNORE UNITT IGNORE EXTRA EXTRA -> 0.7",
    c!"NUMBER -> UNITT -> 0.5",
    c!"NUMBER WORD -> UNITT EXTRA -> 0.7",
    c!"NUMBER WORD WORD -> UNITT EXTRA EXTRA -> 0.7",
    c!"",
    c!"[pobox]",
    c!"BOXH NUMBER -> BOXH BOXT -> 0.7",
    c!"",
    c!"[city]",
    c!"CITY -> CITY -> 0.9",
    c!"WORD -> CITY -> 0.5",
    c!"WORD WORD -> CITY CITY -> 0.3",
    c!"WORD WORD WORD -> CITY CITY CITY -> 0.3",
    c!"WORD WORD WORD WORD -> CITY CITY CITY CITY -> 0.3",
    c!"",
    c!"[country]",
    c!"NATION -> NATION -> 0.9",
    c!"",
    c!""]
  warns := false
  odd := []
  never := [.building, .predir, .qual, .pretype, .sufdir, .ruralroute, .prov]
  always := [.city, .postcode]
  origin := [
    (.houseNum, [.NUMBER, .SINGLE, .MIXED]),
    (.name, [.WORD]),
    (.suftype, [.TYPE]),
    (.extra, [.WORD]),
    (.city, [.CITY, .WORD]),
    (.country, [.NATION]),
    (.postcode, [.QUAD]),
    (.box, [.BOXH, .NUMBER]),
    (.unit, [.NUMBER])]

/-- What shows it. -/
def cert : Cert where
  excess := [
    (c!"pobox", -2)]
  reach := [
    c!"ADDRESS", c!"micro", c!"macro", c!"streetname", c!"housenumber", c!"unit", c!"pobox", c!"postal",
    c!"city", c!"country"]
  must := [[c!"ADDRESS", c!"macro", c!"city"],
    [c!"ADDRESS", c!"macro", c!"postal"]]

set_option maxRecDepth 100000 in
theorem checked : checkSample sample cert = true := by decide +kernel

end AS.Sample.Denmark
