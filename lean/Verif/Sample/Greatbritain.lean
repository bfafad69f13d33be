import Verif.Lemmas.SampleCheck
/-
The grammar data/sample/greatbritain.gmr (all 137 lines). Written by tools/samples.py.
-/
namespace AS.Sample.Greatbritain

/-- The text (data/sample/greatbritain.gmr:1-137), and what is claimed of it. -/
def sample : Sample where
  lines := [
    c!"# greatbritian.grammar",
    c!"# Initial grammar for Great Britian",
    c!"# Author: Stephen Woodbridge <woodbri@imaptools.com>",
    c!"",
    c!"[ADDRESS]",
    c!"@micro @macro",
    c!"@building @micro @macro",
    c!"",
    c!"[micro]",
    c!"@housenumber @street",
    c!"@unit @housenumber @street",
    c!"@pobox",
    c!"",
    c!"[macro]",
    c!"@city @prov @postal @country",
    c!"@city @prov @country",
    c!"@city @prov @postal",
    c!"@city @prov",
    c!"@city @postal @country",
    c!"@city @country",
    c!"@city @postal",
    c!"",
    c!"#[citywords]",
    c!"#@city @citywords",
    c!"#@city",
    c!"",
    c!"[building]",
    c!"@buildt @buildn",
    c!"@buildn @buildt",
    c!"",
    c!"[buildt]",
    c!"BUILDT -> BLDNG -> 0.4",
    c!"PLACEN -> BLDNG -> 0.4",
    c!"",
    c!"[buildn]",
    c!"WORD -> BLDNG -> 0.4",
    c!"WORD WORD -> BLDNG BLDNG -> 0.3",
    c!"WORD WORD WORD -> BLDNG BLDNG BLDNG -> 0.2",
    c!"WORD WORD WORD WORD -> BLDNG BLDNG BLDNG BLDNG -> 0.1",
    c!"",
    c!"[pobox]",
    c!"BOXH NUMBER -> BOXH BOXT -> 0.7",
    c!"",
    c!"[housenumber]",
    c!"NUMBER -> HOUSE -> 0.6",
    c!"NUMBER SINGLE -> HOUSE HOUSE -> 0.7",
    c!"MIXED -> HOUSE -> 0.7",
    c!"NUMBER DASH NUMBER -> HOUSE IGNORE IGNORE -> 0.7",
    c!"",
    c!"[street]",
    c!"@prefixtype @basename @suffixtype",
    c!"@prefix @road @basename @suffix",
    c!"@prefix @road @basename",
    c!"@road @basename @suffix",
    c!"@prefixtype @basename",
    c!"@road @basename",
    c!"@basename @suffixtype",
    c!"@basename",
    c!"",
    c!"[basename]",
    c!"SINGLE AMPERS SINGLE WORD WORD -> STREET STREET STREET STREET STREET -> 0.5",
    c!"SINGLE AMPERS SINGLE WORD -> STREET STREET STREET STREET -> 0.5",
    c!"SINGLE AMPERS SINGLE -> STREET STREET STREET -> 0.5",
    c!"WORD AMPERS WORD -> STREET STREET STREET -> 0.5",
    c!"WORD WORD WORD WORD WORD -> STREET STREET STREET STREET STREET -> 0.1",
    c!"WORD WORD WORD WORD -> STREET STREET STREET STREET -> 0.1",
    c!"WORD WORD WORD -> STREET STREET STREET -> 0.1",
    c!"WORD WORD -> STREET STREET -> 0.1",
    c!"ORD -> STREET -> 0.4",
    c!"NUMBER SINGLE -> STREET STREET -> 0.3",
    c!"NUMBER DOUBLE -> STREET STREET -> 0.3",
    c!"NUMBER -> STREET -> 0.3",
    c!"SINGLE -> STREET -> 0.3",
    c!"DOUBLE -> STREET -> 0.3",
    c!"MIXED -> STREET -> 0.3",
    c!"WORD -> STREET -> 0.2",
    c!"",
    c!"[prefixtype]",
    c!"@prefix @ptype",
    c!"@prefix",
    c!"@ptype",
    c!"",
    c!"[suffixtype]",
    c!"@stype @suffix",
    c!"@stype",
    c!"@suffix",
    c!"",
    c!"[prefix]",
    c!"QUALIF DIRECT -> QUALIF PREDIR -> 0.8",
    c!"DIRECT QUALIF -> PREDIR QUALIF -> 0.8",
    c!"QUALIF -> QUALIF -> 0.8",
    c!"DIRECT -> PREDIR -> 0.7",
    c!"",
    c!"[suffix]",
    c!"DIRECT QUALIF -> SUFDIR QUALIF -> 0.8",
    c!"QUALIF DIRECT -> QUALIF SUFDIR -> 0.8",
    c!"DIRECT -> SUFDIR -> 0.7",
    c!"QUALIF -> QUALIF -> 0.8",
    c!"",
    c!"[ptype]",
    c!"TYPE -> PRETYP -> 0.7",
    c!"",
    c!"[stype]",
    c!"TYPE -> SUFTYP -> 0.7",
    c!"",
    c!"[road]",
    c!"PROV ROAD -> EXTRA PRETYP -> 0.8",
    c!"ROAD -> PRETYP -> 0.8",
    c!"",
    c!"[unit]",
    c!"ORD UNITH -> UNITT UNITH -> 0.7",
    c!"UNITT UNITH -> UNITT UNITH -> 0.7",
    c!"UNITH UNITT -> UNITH UNITT -> 0.7",
    c!"NUMBER SINGLE WORD PLACEN -> UNITT UNITT UNITH UNITH -> 0.3",
    c!"",
    c!"[city]",
    c!"DIRECT CITY -> CITY CITY -> 0.6",
    c!"CITY -> CITY -> 0.8",
    c!"DIRECT WORD WORD WORD WORD -> CITY CITY CITY CITY CITY -> 0.3",
    c!"DIRECT WORD WORD WORD -> CITY CITY CITY CITY -> 0.4",
    c!"DIRECT WORD WORD -> CITY CITY CITY -> 0.5",
    c!"DIRECT WORD -> CITY CITY -> 0.5",
    c!"WORD WORD WORD WORD -> CITY CITY CITY CITY -> 0.3",
    c!"WORD WORD WORD -> CITY CITY CITY -> 0.2",
    c!"WORD WORD -> CITY CITY -> 0.2",
    c!"WORD -> CITY -> 0.2",
    c!"",
    c!"[postal]",
    c!"MIXED -> POSTAL -> 0.7",
    c!"MIXED MIXED -> POSTAL POSTAL -> 0.8",
    c!"",
    c!"[prov]",
    c!"PROV -> PROV -> 0.8",
    c!"",
    c!"[country]",
    c!"NATION -> NATION -> 0.8",
    c!""]
  warns := false
  odd := []
  never := [.ruralroute]
  always := [.city]
  origin := [
    (.building, [.BUILDT, .PLACEN, .WORD]),
    (.houseNum, [.NUMBER, .SINGLE, .MIXED]),
    (.predir, [.DIRECT]),
    (.qual, [.QUALIF]),
    (.pretype, [.ROAD, .TYPE]),
    (.name, [.SINGLE, .AMPERS, .WORD, .ORD, .NUMBER, .DOUBLE, .MIXED]),
    (.suftype, [.TYPE]),
    (.sufdir, [.DIRECT]),
    (.extra, [.PROV]),
    (.city, [.DIRECT, .CITY, .WORD]),
    (.prov, [.PROV]),
    (.country, [.NATION]),
    (.postcode, [.MIXED]),
    (.box, [.BOXH, .NUMBER]),
    (.unit, [.ORD, .UNITH, .UNITT, .NUMBER, .SINGLE, .WORD, .PLACEN])]

/-- What shows it. -/
def cert : Cert where
  excess := [
    (c!"ADDRESS", 0), (c!"micro", 0), (c!"street", 0), (c!"prefixtype", 0), (c!"suffixtype", 0),
    (c!"pobox", -2), (c!"unit", -2)]
  reach := [
    c!"ADDRESS", c!"micro", c!"macro", c!"building", c!"housenumber", c!"street", c!"unit", c!"pobox",
    c!"city", c!"prov", c!"postal", c!"country", c!"buildt", c!"buildn", c!"prefixtype", c!"basename",
    c!"suffixtype", c!"prefix", c!"road", c!"suffix", c!"ptype", c!"stype"]
  must := [[c!"ADDRESS", c!"macro", c!"city"]]

set_option maxRecDepth 100000 in
theorem checked : checkSample sample cert = true := by decide +kernel

end AS.Sample.Greatbritain
