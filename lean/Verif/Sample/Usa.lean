import Verif.Lemmas.SampleCheck
/-
The grammar data/sample/usa.gmr (all 180 lines). Written by tools/samples.py.
-/
namespace AS.Sample.Usa

/-- The text (data/sample/usa.gmr:1-180), and what is claimed of it. -/
def sample : Sample where
  lines := [
    c!"# usa.grammar",
    c!"# Initial grammar for United States of America",
    c!"# Author: Stephen Woodbridge <woodbri@imaptools.com>",
    c!"",
    c!"[ADDRESS]",
    c!"@micro @macro",
    c!"#@building @micro @macro",
    c!"",
    c!"[building]",
    c!"@buildt @buildn",
    c!"",
    c!"[buildt]",
    c!"BUILDT -> BLDNG -> 0.4",
    c!"PLACEN -> BLDNG -> 0.4",
    c!"",
    c!"[buildn]",
    c!"WORD -> BLDNG -> 0.4",
    c!"WORD WORD -> BLDNG BLDNG -> 0.3",
    c!"WORD WORD WORD -> BLDNG BLDNG BLDNG -> 0.2",
    c!"WORD WORD WORD WORD -> BLDNG BLDNG BLDNG BLDNG -> 0.1",
    c!"",
    c!"[micro]",
    c!"@housenum @street @unit",
    c!"@housenum @street",
    c!"@ruralroute",
    c!"@ruralroute @pobox",
    c!"@pobox",
    c!"",
    c!"[macro]",
    c!"@city @prov @postal @nation",
    c!"@city @prov @postal",
    c!"@city @prov @nation",
    c!"@city @prov",
    c!"",
    c!"[pobox]",
    c!"BOXH NUMBER -> BOXH BOXT -> 0.7",
    c!"BOXH NUMBER SINGLE -> BOXH BOXT BOXT -> 0.7",
    c!"",
    c!"[housenum]",
    c!"NUMBER SLASH SINGLE -> HOUSE HOUSE HOUSE -> 0.3",
    c!"NUMBER SLASH DOUBLE -> HOUSE HOUSE HOUSE -> 0.3",
    c!"NUMBER FRACT -> HOUSE HOUSE -> 0.3",
    c!"NUMBER SINGLE -> HOUSE HOUSE -> 0.3",
    c!"NUMBER DOUBLE -> HOUSE HOUSE -> 0.3",
    c!"MILE NUMBER -> HOUSE HOUSE -> 0.1",
    c!"NUMBER MILE -> HOUSE HOUSE -> 0.1",
    c!"NUMBER -> HOUSE -> 0.3",
    c!"FRACT -> HOUSE -> 0.3",
    c!"MIXED -> HOUSE -> 0.3",
    c!"DIRECT NUMBER DIRECT NUMBER -> HOUSE HOUSE HOUSE HOUSE -> 0.4",
    c!"DIRECT NUMBER NUMBER -> HOUSE HOUSE HOUSE -> 0.4",
    c!"DIRECT NUMBER -> HOUSE HOUSE -> 0.4",
    c!"",
    c!"[street]",
    c!"@prefixtype @basename @suffixtype",
    c!"@prefix @road @basename @suffix",
    c!"@prefix @road @basename",
    c!"@road @basename @suffix",
    c!"@prefixtype @basename",
    c!"@road @basename",
    c!"@basename @suffixtype",
    c!"@basename",
    c!"",
    c!"[basename]",
    c!"SINGLE AMPERS SINGLE WORD WORD -> STREET STREET STREET STREET STREET -> 0.5",
    c!"SINGLE AMPERS SINGLE WORD -> STREET STREET STREET STREET -> 0.5",
    c!"SINGLE AMPERS SINGLE -> STREET STREET STREET -> 0.5",
    c!"WORD AMPERS WORD -> STREET STREET STREET -> 0.5",
    c!"WORD WORD WORD WORD WORD -> STREET STREET STREET STREET STREET -> 0.1",
    c!"WORD WORD WORD WORD -> STREET STREET STREET STREET -> 0.1",
    c!"WORD WORD WORD -> STREET STREET STREET -> 0.1",
    c!"WORD WORD -> STREET STREET -> 0.1",
    c!"ORD -> STREET -> 0.4",
    c!"SINGLE NUMBER -> STREET STREET -> 0.4",
    c!"DOUBLE NUMBER -> STREET STREET -> 0.4",
    c!"SINGLE WORD -> STREET STREET -> 0.3",
    c!"SINGLE SINGLE WORD -> STREET STREET STREET -> 0.3",
    c!"NUMBER QUALIF -> STREET QUALIF -> 0.5",
    c!"NUMBER SINGLE -> STREET STREET -> 0.4",
    c!"NUMBER DOUBLE -> STREET STREET -> 0.3",
    c!"NUMBER WORD -> STREET STREET -> 0.3",
    c!"NUMBER -> STREET -> 0.3",
    c!"SINGLE -> STREET -> 0.3",
    c!"DOUBLE -> STREET -> 0.3",
    c!"MIXED -> STREET -> 0.3",
    c!"WORD -> STREET -> 0.2",
    c!"NUMBER FRACT -> STREET STREET -> 0.1",
    c!"TYPE -> STREET -> 0.1",
    c!"",
    c!"[prefixtype]",
    c!"@prefix @ptype",
    c!"@prefix",
    c!"@ptype",
    c!"",
    c!"[suffixtype]",
    c!"@stype @suffix",
    c!"@stype",
    c!"@suffix",
    c!"",
    c!"[prefix]",
    c!"QUALIF DIRECT -> QUALIF PREDIR -> 0.8",
    c!"DIRECT QUALIF -> PREDIR QUALIF -> 0.8",
    c!"QUALIF -> QUALIF -> 0.8",
    c!"DIRECT -> PREDIR -> 0.7",
    c!"",
    c!"[suffix]",
    c!"DIRECT QUALIF -> SUFDIR QUALIF -> 0.8",
    c!"QUALIF DIRECT -> QUALIF SUFDIR -> 0.8",
    c!"DIRECT -> SUFDIR -> 0.7",
    c!"QUALIF -> QUALIF -> 0.8",
    c!"",
    c!"[ptype]",
    c!"TYPE -> PRETYP -> 0.7",
    c!"",
    c!"[stype]",
    c!"TYPE -> SUFTYP -> 0.7",
    c!"",
    c!"[ruralroute]",
    c!"RR NUMBER SINGLE -> RR RR RR -> 0.3",
    c!"RR NUMBER DOUBLE -> RR RR RR -> 0.3",
    c!"RR NUMBER MIXED -> RR RR RR -> 0.3",
    c!"#RR NUMBER WORD -> RR RR RR -> 0.2",
    c!"RR SINGLE NUMBER -> RR RR RR -> 0.3",
    c!"RR DOUBLE NUMBER -> RR RR RR -> 0.3",
    c!"RR MIXED NUMBER -> RR RR RR -> 0.3",
    c!"RR WORD NUMBER -> RR RR RR -> 0.2",
    c!"RR NUMBER -> RR RR -> 0.3",
    c!"RR SINGLE -> RR RR -> 0.3",
    c!"RR DOUBLE -> RR RR -> 0.3",
    c!"RR MIXED -> RR RR -> 0.3",
    c!"#RR WORD -> RR RR -> 0.1",
    c!"RR -> RR -> 0.8",
    c!"",
    c!"[road]",
    c!"PROV ROAD -> EXTRA PRETYP -> 0.8",
    c!"ROAD -> PRETYP -> 0.8",
    c!"WORD ROAD -> EXTRA PRETYP -> 0.6",
    c!"",
    c!"[unit]",
    c!"UNITH NUMBER -> UNITH UNITT -> 0.6",
    c!"UNITH NUMBER WORD -> UNITH UNITT UNITT -> 0.6",
    c!"UNITH UNITH -> UNITH UNITT -> 0.6",
    c!"UNITH WORD WORD WORD -> UNITH UNITT UNITT UNITT -> 0.4",
    c!"UNITH WORD WORD -> UNITH UNITT UNITT -> 0.4",
    c!"UNITH WORD -> UNITH UNITT -> 0.4",
    c!"",
    c!"[city]",
    c!"CITY -> CITY -> 0.8",
    c!"DIRECT CITY -> CITY CITY -> 0.6",
    c!"DIRECT WORD WORD WORD WORD -> CITY CITY CITY CITY CITY -> 0.3",
    c!"DIRECT WORD WORD WORD -> CITY CITY CITY CITY -> 0.4",
    c!"DIRECT WORD WORD -> CITY CITY CITY -> 0.5",
    c!"DIRECT WORD -> CITY CITY -> 0.5",
    c!"WORD WORD WORD WORD -> CITY CITY CITY CITY -> 0.2",
    c!"WORD WORD WORD -> CITY CITY CITY -> 0.2",
    c!"WORD WORD -> CITY CITY -> 0.1",
    c!"WORD -> CITY -> 0.1",
    c!"",
    c!"[postal]",
    c!"QUINT -> POSTAL -> 0.5",
    c!"NUMBER -> POSTAL -> 0.3",
    c!"QUINT DASH QUAD -> POSTAL IGNORE POSTAL -> 0.7",
    c!"NUMBER DASH NUMBER -> POSTAL IGNORE POSTAL -> 0.4",
    c!"QUINT QUAD -> POSTAL POSTAL -> 0.7",
    c!"NUMBER NUMBER -> POSTAL POSTAL -> 0.4",
    c!"PCH PCT -> POSTAL POSTAL -> 0.7",
    c!"PCH -> POSTAL -> 0.6",
    c!"",
    c!"[prov]",
    c!"PROV -> PROV -> 0.8",
    c!"",
    c!"[nation]",
    c!"NATION -> NATION -> 0.8",
    c!"",
    c!"#[atsign]",
    c!"#ATSIGN -> ATSIGN -> 0.8",
    c!"",
    c!"#[ampersand]",
    c!"#AMPERS -> STREET -> 0.7",
    c!""]
  warns := true
  odd := []
  never := [.building]
  always := [.city, .prov]
  origin := [
    (.houseNum, [.NUMBER, .SLASH, .SINGLE, .DOUBLE, .FRACT, .MILE, .MIXED, .DIRECT]),
    (.predir, [.DIRECT]),
    (.qual, [.QUALIF]),
    (.pretype, [.ROAD, .TYPE]),
    (.name, [.SINGLE, .AMPERS, .WORD, .ORD, .NUMBER, .DOUBLE, .MIXED, .FRACT, .TYPE]),
    (.suftype, [.TYPE]),
    (.sufdir, [.DIRECT]),
    (.ruralroute, [.RR, .NUMBER, .SINGLE, .DOUBLE, .MIXED, .WORD]),
    (.extra, [.PROV, .WORD]),
    (.city, [.CITY, .DIRECT, .WORD]),
    (.prov, [.PROV]),
    (.country, [.NATION]),
    (.postcode, [.QUINT, .NUMBER, .QUAD, .PCH, .PCT]),
    (.box, [.BOXH, .NUMBER, .SINGLE]),
    (.unit, [.UNITH, .NUMBER, .WORD])]

/-- What shows it. -/
def cert : Cert where
  excess := [
    (c!"ADDRESS", 0), (c!"micro", 0), (c!"street", 0), (c!"prefixtype", 0), (c!"suffixtype", 0),
    (c!"pobox", -2), (c!"unit", -2)]
  reach := [
    c!"ADDRESS", c!"micro", c!"macro", c!"housenum", c!"street", c!"unit", c!"ruralroute", c!"pobox",
    c!"city", c!"prov", c!"postal", c!"nation", c!"prefixtype", c!"basename", c!"suffixtype", c!"prefix",
    c!"road", c!"suffix", c!"ptype", c!"stype"]
  must := [[c!"ADDRESS", c!"macro", c!"city"],
    [c!"ADDRESS", c!"macro", c!"prov"]]

set_option maxRecDepth 100000 in
theorem checked : checkSample sample cert = true := by decide +kernel

end AS.Sample.Usa
