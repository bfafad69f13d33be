import Verif.Lemmas.SampleCheck
/-
The grammar data/sample/vatican.gmr (all 55 lines). Written by tools/samples.py.
-/
namespace AS.Sample.Vatican

/-- The text (data/sample/vatican.gmr:1-55), and what is claimed of it. -/
def sample : Sample where
  lines := [
    c!"# vatican.grammar",
    c!"# Initial grammar for Vatican",
    c!"# Author: Stephen Woodbridge <woodbri@imaptools.com>",
    c!"",
    c!"[ADDRESS]",
    c!"@micro @macro",
    c!"@placename @micro @macro",
    c!"@placename @macro",
    c!"@placename @streetname @macro",
    c!"",
    c!"[micro]",
    c!"@streetname @housenumber",
    c!"@pobox",
    c!"",
    c!"[macro]",
    c!"@postal @city @country",
    c!"@postal @city",
    c!"",
    c!"[placename]",
    c!"PLACEN -> BLDNG -> 0.7",
    c!"PLACEN WORD -> BLDNG BLDNG -> 0.6",
    c!"PLACEN WORD WORD -> BLDNG BLDNG BLDNG -> 0.5",
    c!"PLACEN WORD WORD WORD -> BLDNG BLDNG BLDNG BLDNG -> 0.4",
    c!"",
    c!"[postal]",
    c!"QUINT -> POSTAL -> 0.7",
    c!"NUMBER -> POSTAL -> 0.4",
    c!"",
    c!"[streetname]",
    c!"TYPE WORD -> PRETYP STREET -> 0.7",
    c!"TYPE WORD WORD -> PRETYP STREET STREET -> 0.6",
    c!"TYPE WORD WORD WORD -> PRETYP STREET STREET STREET -> 0.5",
    c!"TYPE WORD WORD WORD WORD -> PRETYP STREET STREET STREET STREET -> 0.4",
    c!"WORD -> STREET -> 0.4",
    c!"WORD WORD -> STREET STREET -> 0.3",
    c!"WORD WORD WORD -> STREET STREET STREET -> 0.2",
    c!"WORD WORD WORD WORD -> STREET STREET STREET STREET -> 0.1",
    c!"",
    c!"[housenumber]",
    c!"NUMBER -> HOUSE -> 0.5",
    c!"NUMBER SINGLE -> HOUSE HOUSE -> 0.6",
    c!"NUMBER DOUBLE -> HOUSE HOUSE -> 0.5",
    c!"NUMBER DASH NUMBER -> HOUSE HOUSE HOUSE -> 0.7",
    c!"",
    c!"[pobox]",
    c!"BOXH NUMBER -> BOXH BOXT -> 0.7",
    c!"",
    c!"[city]",
    c!"CITY -> CITY -> 0.9",
    c!"WORD -> CITY -> 0.5",
    c!"",
    c!"[country]",
    c!"NATION -> NATION -> 0.9",
    c!"",
    c!""]
  warns := false
  odd := []
  never := [.predir, .qual, .suftype, .sufdir, .ruralroute, .extra, .prov, .unit]
  always := [.city, .postcode]
  origin := [
    (.building, [.PLACEN, .WORD]),
    (.houseNum, [.NUMBER, .SINGLE, .DOUBLE, .DASH]),
    (.pretype, [.TYPE]),
    (.name, [.WORD]),
    (.city, [.CITY, .WORD]),
    (.country, [.NATION]),
    (.postcode, [.QUINT, .NUMBER]),
    (.box, [.BOXH, .NUMBER])]

/-- What shows it. -/
def cert : Cert where
  excess := [
    (c!"pobox", -2)]
  reach := [
    c!"ADDRESS", c!"micro", c!"macro", c!"placename", c!"streetname", c!"housenumber", c!"pobox", c!"postal",
    c!"city", c!"country"]
  must := [[c!"ADDRESS", c!"macro", c!"city"],
    [c!"ADDRESS", c!"macro", c!"postal"]]

set_option maxRecDepth 100000 in
theorem checked : checkSample sample cert = true := by decide +kernel

end AS.Sample.Vatican
