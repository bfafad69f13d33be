import Verif.Lemmas.SampleCheck
/-
The grammar data/sample/australia.gmr (all 107 lines). Written by tools/samples.py.
-/
namespace AS.Sample.Australia

/-- The text (data/sample/australia.gmr:1-107), and what is claimed of it. -/
def sample : Sample where
  lines := [
    c!"# australia.grammar",
    c!"# Initial grammar for Australia",
    c!"# Author: Stephen Woodbridge <woodbri@imaptools.com>",
    c!"",
    c!"[ADDRESS]",
    c!"@micro @macro",
    c!"#@placename @micro @macro",
    c!"",
    c!"[micro]",
    c!"@housenumber @streetname",
    c!"@unit @housenumber @streetname",
    c!"@pobox",
    c!"",
    c!"[streetname]",
    c!"@prefixtype @basename @suffixtype",
    c!"@prefixtype @basename",
    c!"@basename @suffixtype",
    c!"@basename",
    c!"",
    c!"[placename]",
    c!"PLACEN -> BLDNG -> 0.7",
    c!"PLACEN WORD -> BLDNG BLDNG -> 0.6",
    c!"PLACEN WORD WORD -> BLDNG BLDNG BLDNG -> 0.5",
    c!"PLACEN WORD WORD WORD -> BLDNG BLDNG BLDNG BLDNG -> 0.4",
    c!"BUILDT -> BLDNG -> 0.7",
    c!"BUILDT WORD -> BLDNG BLDNG -> 0.6",
    c!"BUILDT WORD WORD -> BLDNG BLDNG BLDNG -> 0.5",
    c!"BUILDT WORD WORD WORD -> BLDNG BLDNG BLDNG BLDNG -> 0.4",
    c!"",
    c!"[unit]",
    c!"UNITH -> UNITH -> 0.5",
    c!"UNITH NUMBER -> UNITH UNITT -> 0.4",
    c!"UNITH WORD -> UNITH UNITT -> 0.4",
    c!"UNITH WORD WORD -> UNITH UNITT UNITT -> 0.4",
    c!"",
    c!"[housenumber]",
    c!"NUMBER -> HOUSE -> 0.3",
    c!"NUMBER SLASH NUMBER -> IGNORE IGNORE HOUSE -> 0.3",
    c!"NUMBER DASH NUMBER -> HOUSE IGNORE IGNORE -> 0.3",
    c!"",
    c!"",
    c!"[basename]",
    c!"WORD -> STREET -> 0.4",
    c!"WORD WORD -> STREET STREET -> 0.3",
    c!"WORD WORD WORD -> STREET STREET STREET -> 0.2",
    c!"WORD WORD WORD WORD -> STREET STREET STREET STREET -> 0.1",
    c!"",
    c!"[prefixtype]",
    c!"@prefix @ptype",
    c!"@prefix",
    c!"@ptype",
    c!"",
    c!"[suffixtype]",
    c!"@stype @suffix",
    c!"@stype",
    c!"@suffix",
    c!"",
    c!"[prefix]",
    c!"QUALIF DIRECT -> QUALIF PREDIR -> 0.8",
    c!"DIRECT QUALIF -> PREDIR QUALIF -> 0.8",
    c!"QUALIF -> QUALIF -> 0.8",
    c!"DIRECT -> PREDIR -> 0.7",
    c!"",
    c!"[suffix]",
    c!"DIRECT QUALIF -> SUFDIR QUALIF -> 0.8",
    c!"QUALIF DIRECT -> QUALIF SUFDIR -> 0.8",
    c!"DIRECT -> SUFDIR -> 0.7",
    c!"QUALIF -> QUALIF -> 0.8",
    c!"",
    c!"[ptype]",
    c!"TYPE -> PRETYP -> 0.7",
    c!"",
    c!"[stype]",
    c!"TYPE -> SUFTYP -> 0.7",
    c!"",
    c!"[pobox]",
    c!"NUMBER SINGLE TYPE -> BOXT BOXH BOXH -> 0.2",
    c!"BOXH NUMBER -> BOXH BOXT -> 0.8",
    c!"",
    c!"[macro]",
    c!"@city @prov @postal @nation",
    c!"@city @prov @nation",
    c!"@city @prov @postal",
    c!"@city @prov",
    c!"",
    c!"[city]",
    c!"DIRECT CITY -> CITY CITY -> 0.6",
    c!"CITY -> CITY -> 0.8",
    c!"DIRECT WORD WORD WORD WORD -> CITY CITY CITY CITY CITY -> 0.3",
    c!"DIRECT WORD WORD WORD -> CITY CITY CITY CITY -> 0.4",
    c!"DIRECT WORD WORD -> CITY CITY CITY -> 0.5",
    c!"DIRECT WORD -> CITY CITY -> 0.5",
    c!"WORD WORD WORD WORD -> CITY CITY CITY CITY -> 0.3",
    c!"WORD WORD WORD -> CITY CITY CITY -> 0.2",
    c!"WORD WORD -> CITY CITY -> 0.2",
    c!"WORD -> CITY -> 0.2",
    c!"",
    c!"[postal]",
    c!"QUAD -> POSTAL -> 0.7",
    c!"NUMBER -> POSTAL -> 0.6",
    c!"",
    c!"[prov]",
    c!"PROV -> PROV -> 0.8",
    c!"",
    c!"[nation]",
    c!"NATION -> NATION -> 0.8",
    c!""]
  warns := true
  odd := []
  never := [.building, .ruralroute, .extra]
  always := [.city, .prov]
  origin := [
    (.houseNum, [.NUMBER]),
    (.predir, [.DIRECT]),
    (.qual, [.QUALIF]),
    (.pretype, [.TYPE]),
    (.name, [.WORD]),
    (.suftype, [.TYPE]),
    (.sufdir, [.DIRECT]),
    (.city, [.DIRECT, .CITY, .WORD]),
    (.prov, [.PROV]),
    (.country, [.NATION]),
    (.postcode, [.QUAD, .NUMBER]),
    (.box, [.NUMBER, .SINGLE, .TYPE, .BOXH]),
    (.unit, [.UNITH, .NUMBER, .WORD])]

/-- What shows it. -/
def cert : Cert where
  excess := [
    (c!"ADDRESS", 0), (c!"micro", 0), (c!"streetname", 0), (c!"prefixtype", 0), (c!"suffixtype", 0),
    (c!"pobox", -2)]
  reach := [
    c!"ADDRESS", c!"micro", c!"macro", c!"housenumber", c!"streetname", c!"unit", c!"pobox", c!"city",
    c!"prov", c!"postal", c!"nation", c!"prefixtype", c!"basename", c!"suffixtype", c!"prefix", c!"ptype",
    c!"stype", c!"suffix"]
  must := [[c!"ADDRESS", c!"macro", c!"city"],
    [c!"ADDRESS", c!"macro", c!"prov"]]

set_option maxRecDepth 100000 in
theorem checked : checkSample sample cert = true := by decide +kernel

end AS.Sample.Australia
