import Verif.Lemmas.SampleCheck
/-
The grammar data/sample/spain.gmr (all 94 lines). Written by tools/samples.py.
-/
namespace AS.Sample.Spain

/-- The text (data/sample/spain.gmr:1-94), and what is claimed of it. -/
def sample : Sample where
  lines := [
    c!"# spain.grammar",
    c!"# Initial grammar for Spain",
    c!"# Author: Stephen Woodbridge <woodbri@imaptools.com>",
    c!"",
    c!"[ADDRESS]",
    c!"@micro @macro",
    c!"#@placename @micro @macro",
    c!"@locality @micro @macro",
    c!"@locality @macro",
    c!"",
    c!"[micro]",
    c!"@streetname @housenumber",
    c!"@streetname @housenumber @unit",
    c!"@streetname @housenumber @unit @unit",
    c!"@pobox",
    c!"",
    c!"[macro]",
    c!"@postal @citywords @prov @nation",
    c!"@postal @citywords @nation",
    c!"@postal @citywords @prov",
    c!"@postal @citywords",
    c!"@postal @city @prov @nation",
    c!"@postal @city @nation",
    c!"@postal @city @prov",
    c!"@postal @city",
    c!"",
    c!"[locality]",
    c!"@locword @locality",
    c!"@locword",
    c!"",
    c!"[locword]",
    c!"WORD -> EXTRA -> 0.3",
    c!"",
    c!"[citywords]",
    c!"@c_word @citywords",
    c!"@c_word",
    c!"",
    c!"[city]",
    c!"CITY -> CITY -> 0.8",
    c!"",
    c!"[c_word]",
    c!"WORD -> CITY -> 0.5",
    c!"",
    c!"[placename]",
    c!"PLACEN -> BLDNG -> 0.7",
    c!"PLACEN WORD -> BLDNG BLDNG -> 0.6",
    c!"PLACEN WORD WORD -> BLDNG BLDNG BLDNG -> 0.5",
    c!"PLACEN WORD WORD WORD -> BLDNG BLDNG BLDNG BLDNG -> 0.4",
    c!"",
    c!"[postal]",
    c!"QUINT -> POSTAL -> 0.7",
    c!"NUMBER -> POSTAL -> 0.4",
    c!"SINGLE QUINT -> IGNORE POSTAL -> 0.7",
    c!"SINGLE NUMBER -> IGNORE POSTAL -> 0.4",
    c!"SINGLE DASH QUINT -> IGNORE IGNORE POSTAL -> 0.7",
    c!"SINGLE DASH NUMBER -> IGNORE IGNORE POSTAL -> 0.4",
    c!"",
    c!"[streetname]",
    c!"TYPE WORD -> PRETYP STREET -> 0.7",
    c!"TYPE WORD WORD -> PRETYP STREET STREET -> 0.6",
    c!"TYPE WORD WORD WORD -> PRETYP STREET STREET STREET -> 0.5",
    c!"TYPE WORD WORD WORD WORD -> PRETYP STREET STREET STREET STREET -> 0.4",
    c!"WORD -> STREET -> 0.4",
    c!"WORD WORD -> STREET STREET -> 0.3",
    c!"WORD WORD WORD -> STREET STREET STREET -> 0.2",
    c!"WORD WORD WORD WORD -> STREET STREET STREET STREET -> 0.1",
    c!"",
    c!"[housenumber]",
    c!"NUMBER -> HOUSE -> 0.5",
    c!"NUMBER DASH NUMBER -> HOUSE HOUSE HOUSE -> 0.7",
    c!"NUMBER DASH NUMBER SINGLE -> HOUSE HOUSE HOUSE HOUSE -> 0.7",
    c!"NUMBER DASH NUMBER UNITH -> HOUSE IGNORE UNITT IGNORE -> 0.7",
    c!"NUMBER WORD SINGLE -> HOUSE UNITT UNITT -> 0.5",
    c!"",
    c!"[unit]",
    c!"UNITH NUMBER -> UNITH UNITT -> 0.7",
    c!"NUMBER UNITH -> UNITT UNITH -> 0.7",
    c!"NUMBER UNITH SINGLE -> UNITT UNITH UNITT -> 0.7",
    c!"UNITH NUMBER NUMBER UNITH -> UNITH UNITT UNITT IGNORE -> 0.7",
    c!"UNITH NUMBER WORD -> UNITH UNITT UNITT -> 0.7",
    c!"UNITH NUMBER SINGLE -> UNITH UNITT UNITT -> 0.7",
    c!"UNITH NUMBER NUMBER UNITH SINGLE -> UNITH UNITT UNITT IGNORE UNITT -> 0.7",
    c!"UNITH NUMBER WORD SINGLE -> UNITH UNITT UNITT UNITT -> 0.7",
    c!"",
    c!"[pobox]",
    c!"BOXH NUMBER -> BOXH BOXT -> 0.7",
    c!"",
    c!"[prov]",
    c!"PROV -> PROV -> 0.9",
    c!"",
    c!"[nation]",
    c!"NATION -> NATION -> 0.9",
    c!"",
    c!""]
  warns := true
  odd := []
  never := [.building, .predir, .qual, .suftype, .sufdir, .ruralroute]
  always := [.city, .postcode]
  origin := [
    (.houseNum, [.NUMBER, .DASH, .SINGLE]),
    (.pretype, [.TYPE]),
    (.name, [.WORD]),
    (.extra, [.WORD]),
    (.city, [.CITY, .WORD]),
    (.prov, [.PROV]),
    (.country, [.NATION]),
    (.postcode, [.QUINT, .NUMBER]),
    (.box, [.BOXH, .NUMBER]),
    (.unit, [.NUMBER, .WORD, .SINGLE, .UNITH])]

/-- What shows it. -/
def cert : Cert where
  excess := [
    (c!"ADDRESS", 1), (c!"macro", 0), (c!"locality", 0), (c!"citywords", 0), (c!"unit", -2), (c!"pobox", -2)]
  reach := [
    c!"ADDRESS", c!"micro", c!"macro", c!"locality", c!"streetname", c!"housenumber", c!"unit", c!"pobox",
    c!"postal", c!"citywords", c!"prov", c!"nation", c!"city", c!"locword", c!"c_word"]
  must := [[c!"ADDRESS", c!"macro", c!"citywords", c!"city", c!"c_word"],
    [c!"ADDRESS", c!"macro", c!"postal"]]

set_option maxRecDepth 100000 in
theorem checked : checkSample sample cert = true := by decide +kernel

end AS.Sample.Spain
