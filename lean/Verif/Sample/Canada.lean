import Verif.Lemmas.SampleCheck
/-
The grammar data/sample/canada.gmr (all 146 lines). Written by tools/samples.py.
-/
namespace AS.Sample.Canada

/-- The text (data/sample/canada.gmr:1-146), and what is claimed of it. -/
def sample : Sample where
  lines := [
    c!"# canada.grammar",
    c!"# Initial grammar for Canada",
    c!"# Author: Stephen Woodbridge <woodbri@imaptools.com>",
    c!"",
    c!"[ADDRESS]",
    c!"@micro @macro",
    c!"#@building @micro @macro",
    c!"",
    c!"[micro]",
    c!"@housenumber @street",
    c!"@housenumber @street @pobox",
    c!"@housenumber @street @unit",
    c!"#@housenumber @street @unit @pobox",
    c!"@pobox",
    c!"",
    c!"[macro]",
    c!"@city @prov @postal @country",
    c!"@city @prov @country",
    c!"@city @prov @postal",
    c!"@city @prov",
    c!"",
    c!"[building]",
    c!"@buildt @buildn",
    c!"@buildn @buildt",
    c!"",
    c!"[buildt]",
    c!"BUILDT -> BLDNG -> 0.4",
    c!"PLACEN -> BLDNG -> 0.4",
    c!"",
    c!"[buildn]",
    c!"WORD -> BLDNG -> 0.4",
    c!"WORD WORD -> BLDNG BLDNG -> 0.3",
    c!"WORD WORD WORD -> BLDNG BLDNG BLDNG -> 0.2",
    c!"WORD WORD WORD WORD -> BLDNG BLDNG BLDNG BLDNG -> 0.1",
    c!"",
    c!"[pobox]",
    c!"BOXH NUMBER -> BOXH BOXT -> 0.7",
    c!"BOXH NUMBER BOXH NUMBER -> BOXH BOXT BOXT BOXT -> 0.8",
    c!"BOXH NUMBER BOXH SINGLE -> BOXH BOXT BOXT BOXT -> 0.8",
    c!"BOXH NUMBER BOXH WORD -> BOXH BOXT BOXT BOXT -> 0.8",
    c!"BOXH NUMBER BOXH MIXED -> BOXH BOXT BOXT BOXT -> 0.8",
    c!"BOXH WORD -> BOXH BOXT -> 0.7",
    c!"",
    c!"[housenumber]",
    c!"NUMBER -> HOUSE -> 0.7",
    c!"MIXED -> HOUSE -> 0.7",
    c!"NUMBER SINGLE -> HOUSE IGNORE -> 0.5",
    c!"NUMBER NUMBER SLASH NUMBER -> HOUSE IGNORE IGNORE IGNORE -> 0.7",
    c!"NUMBER FRACT -> HOUSE IGNORE -> 0.7",
    c!"NUMBER DASH NUMBER -> HOUSE IGNORE IGNORE -> 0.7",
    c!"NUMBER DASH NUMBER SINGLE -> HOUSE IGNORE IGNORE IGNORE -> 0.7",
    c!"NUMBER DASH NUMBER DOUBLE -> HOUSE IGNORE IGNORE IGNORE -> 0.7",
    c!"NUMBER DASH MIXED -> HOUSE IGNORE IGNORE -> 0.7",
    c!"NUMBER DASH NUMBER NUMBER SLASH NUMBER -> HOUSE IGNORE IGNORE IGNORE IGNORE IGNORE -> 0.7",
    c!"NUMBER DASH NUMBER FRACT -> HOUSE IGNORE IGNORE IGNORE -> 0.7",
    c!"",
    c!"[street]",
    c!"@prefixtype @basename @suffixtype",
    c!"@prefix @road @basename @suffix",
    c!"@prefix @road @basename",
    c!"@road @basename @suffix",
    c!"@prefixtype @basename",
    c!"@road @basename",
    c!"@basename @suffixtype",
    c!"@basename",
    c!"",
    c!"[basename]",
    c!"SINGLE AMPERS SINGLE WORD WORD -> STREET STREET STREET STREET STREET -> 0.5",
    c!"SINGLE AMPERS SINGLE WORD -> STREET STREET STREET STREET -> 0.5",
    c!"SINGLE AMPERS SINGLE -> STREET STREET STREET -> 0.5",
    c!"WORD AMPERS WORD -> STREET STREET STREET -> 0.5",
    c!"WORD WORD WORD WORD WORD -> STREET STREET STREET STREET STREET -> 0.1",
    c!"WORD WORD WORD WORD -> STREET STREET STREET STREET -> 0.1",
    c!"WORD WORD WORD -> STREET STREET STREET -> 0.1",
    c!"WORD WORD -> STREET STREET -> 0.1",
    c!"ORD -> STREET -> 0.4",
    c!"NUMBER SINGLE -> STREET STREET -> 0.3",
    c!"NUMBER DOUBLE -> STREET STREET -> 0.3",
    c!"NUMBER -> STREET -> 0.3",
    c!"SINGLE -> STREET -> 0.3",
    c!"DOUBLE -> STREET -> 0.3",
    c!"MIXED -> STREET -> 0.3",
    c!"WORD -> STREET -> 0.2",
    c!"",
    c!"[prefixtype]",
    c!"@prefix @ptype",
    c!"@prefix",
    c!"@ptype",
    c!"",
    c!"[suffixtype]",
    c!"@stype @suffix",
    c!"@stype",
    c!"@suffix",
    c!"",
    c!"[prefix]",
    c!"QUALIF DIRECT -> QUALIF PREDIR -> 0.8",
    c!"DIRECT QUALIF -> PREDIR QUALIF -> 0.8",
    c!"QUALIF -> QUALIF -> 0.8",
    c!"DIRECT -> PREDIR -> 0.7",
    c!"",
    c!"[suffix]",
    c!"DIRECT QUALIF -> SUFDIR QUALIF -> 0.8",
    c!"QUALIF DIRECT -> QUALIF SUFDIR -> 0.8",
    c!"DIRECT -> SUFDIR -> 0.7",
    c!"QUALIF -> QUALIF -> 0.8",
    c!"",
    c!"[ptype]",
    c!"TYPE -> PRETYP -> 0.7",
    c!"",
    c!"[stype]",
    c!"TYPE -> SUFTYP -> 0.7",
    c!"",
    c!"[road]",
    c!"PROV ROAD -> EXTRA PRETYP -> 0.8",
    c!"ROAD -> PRETYP -> 0.8",
    c!"",
    c!"[unit]",
    c!"UNITH MIXED -> UNITH UNITT -> 0.6",
    c!"UNITH UNITH -> UNITH UNITT -> 0.6",
    c!"UNITH WORD WORD WORD -> UNITH UNITT UNITT UNITT -> 0.4",
    c!"UNITH WORD WORD -> UNITH UNITT UNITT -> 0.4",
    c!"UNITH WORD -> UNITH UNITT -> 0.4",
    c!"",
    c!"[city]",
    c!"DIRECT CITY -> CITY CITY -> 0.6",
    c!"CITY -> CITY -> 0.8",
    c!"DIRECT WORD WORD WORD WORD -> CITY CITY CITY CITY CITY -> 0.3",
    c!"DIRECT WORD WORD WORD -> CITY CITY CITY CITY -> 0.4",
    c!"DIRECT WORD WORD -> CITY CITY CITY -> 0.5",
    c!"DIRECT WORD -> CITY CITY -> 0.5",
    c!"WORD WORD WORD WORD -> CITY CITY CITY CITY -> 0.3",
    c!"WORD WORD WORD -> CITY CITY CITY -> 0.2",
    c!"WORD WORD -> CITY CITY -> 0.2",
    c!"WORD -> CITY -> 0.2",
    c!"",
    c!"[postal]",
    c!"MIXED -> POSTAL -> 0.7",
    c!"MIXED MIXED -> POSTAL POSTAL -> 0.8",
    c!"",
    c!"[prov]",
    c!"PROV -> PROV -> 0.8",
    c!"",
    c!"[country]",
    c!"NATION -> NATION -> 0.8",
    c!"",
    c!""]
  warns := true
  odd := []
  never := [.building, .ruralroute]
  always := [.city, .prov]
  origin := [
    (.houseNum, [.NUMBER, .MIXED]),
    (.predir, [.DIRECT]),
    (.qual, [.QUALIF]),
    (.pretype, [.ROAD, .TYPE]),
    (.name, [.SINGLE, .AMPERS, .WORD, .ORD, .NUMBER, .DOUBLE, .MIXED]),
    (.suftype, [.TYPE]),
    (.sufdir, [.DIRECT]),
    (.extra, [.PROV]),
    (.city, [.DIRECT, .CITY, .WORD]),
    (.prov, [.PROV]),
    (.country, [.NATION]),
    (.postcode, [.MIXED]),
    (.box, [.BOXH, .NUMBER, .SINGLE, .WORD, .MIXED]),
    (.unit, [.UNITH, .MIXED, .WORD])]

/-- What shows it. -/
def cert : Cert where
  excess := [
    (c!"ADDRESS", 0), (c!"micro", 0), (c!"street", 0), (c!"prefixtype", 0), (c!"suffixtype", 0),
    (c!"pobox", -2), (c!"unit", -2)]
  reach := [
    c!"ADDRESS", c!"micro", c!"macro", c!"housenumber", c!"street", c!"pobox", c!"unit", c!"city", c!"prov",
    c!"postal", c!"country", c!"prefixtype", c!"basename", c!"suffixtype", c!"prefix", c!"road", c!"suffix",
    c!"ptype", c!"stype"]
  must := [[c!"ADDRESS", c!"macro", c!"city"],
    [c!"ADDRESS", c!"macro", c!"prov"]]

set_option maxRecDepth 100000 in
theorem checked : checkSample sample cert = true := by decide +kernel

end AS.Sample.Canada
