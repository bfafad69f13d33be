import Verif.Spec.Forms
/-
Forms of addresses for the grammars that come with the sources: streets with or without a type before or behind the name, post
office boxes, units, directions, names of one or two words, postcodes, provinces and countries, as far as the grammar reads them so.
For each word: the class it is taken in, the class it is given, the classes it must not have. Written by tools/forms.py.
-/
namespace AS.FormTable

def andorra : List Form := [
  [⟨.NUMBER, .HOUSE, []⟩, ⟨.WORD, .STREET, []⟩, ⟨.WORD, .CITY, [.CITY]⟩],
  [⟨.NUMBER, .HOUSE, []⟩, ⟨.TYPE, .PRETYP, []⟩, ⟨.WORD, .STREET, []⟩, ⟨.WORD, .CITY, [.CITY, .NATION]⟩]]

def australia : List Form := [
  [⟨.NUMBER, .HOUSE, []⟩, ⟨.WORD, .STREET, [.TYPE, .DIRECT, .QUALIF, .NUMBER]⟩, ⟨.TYPE, .SUFTYP, [.DIRECT, .QUALIF]⟩,
    ⟨.WORD, .CITY, [.PROV, .CITY]⟩, ⟨.PROV, .PROV, []⟩],
  [⟨.NUMBER, .HOUSE, []⟩, ⟨.WORD, .STREET, [.SINGLE, .TYPE, .DIRECT, .QUALIF, .NUMBER]⟩, ⟨.TYPE, .SUFTYP, [.DIRECT, .CITY, .QUALIF]⟩,
    ⟨.CITY, .CITY, []⟩, ⟨.PROV, .PROV, []⟩],
  [⟨.NUMBER, .HOUSE, []⟩, ⟨.WORD, .STREET, [.TYPE, .DIRECT, .QUALIF, .NUMBER, .DASH, .SLASH]⟩, ⟨.TYPE, .SUFTYP, [.DIRECT, .QUALIF]⟩,
    ⟨.WORD, .CITY, [.DIRECT, .QUALIF]⟩, ⟨.WORD, .CITY, [.PROV, .CITY]⟩, ⟨.PROV, .PROV, [.NATION]⟩],
  [⟨.NUMBER, .HOUSE, []⟩, ⟨.WORD, .STREET, [.TYPE, .DIRECT, .QUALIF, .NUMBER]⟩, ⟨.TYPE, .SUFTYP, [.DIRECT, .QUALIF, .NUMBER]⟩,
    ⟨.WORD, .CITY, [.PROV, .CITY]⟩, ⟨.PROV, .PROV, []⟩, ⟨.NATION, .NATION, [.PROV]⟩],
  [⟨.NUMBER, .HOUSE, [.UNITH]⟩, ⟨.DIRECT, .PREDIR, [.TYPE, .QUALIF, .NUMBER, .DASH, .SLASH]⟩, ⟨.WORD, .STREET, [.TYPE]⟩,
    ⟨.TYPE, .SUFTYP, [.DIRECT, .QUALIF]⟩, ⟨.WORD, .CITY, [.PROV, .CITY, .QUALIF, .NUMBER]⟩, ⟨.PROV, .PROV, [.NATION, .QUALIF]⟩],
  [⟨.BOXH, .BOXH, []⟩, ⟨.NUMBER, .BOXT, []⟩, ⟨.WORD, .CITY, [.CITY]⟩, ⟨.PROV, .PROV, []⟩],
  [⟨.NUMBER, .HOUSE, []⟩, ⟨.WORD, .STREET, [.NUMBER]⟩, ⟨.WORD, .CITY, [.CITY]⟩, ⟨.PROV, .PROV, []⟩],
  [⟨.NUMBER, .HOUSE, []⟩, ⟨.WORD, .STREET, [.TYPE, .DIRECT, .QUALIF, .NUMBER, .SLASH]⟩, ⟨.WORD, .STREET, [.TYPE, .DIRECT, .QUALIF]⟩,
    ⟨.TYPE, .SUFTYP, [.DIRECT, .QUALIF]⟩, ⟨.WORD, .CITY, [.PROV, .CITY]⟩, ⟨.PROV, .PROV, [.NATION]⟩],
  [⟨.UNITH, .UNITH, []⟩, ⟨.NUMBER, .UNITT, [.WORD, .DASH, .SLASH]⟩, ⟨.NUMBER, .HOUSE, [.WORD, .TYPE, .DIRECT, .QUALIF]⟩,
    ⟨.WORD, .STREET, [.TYPE, .DIRECT, .QUALIF]⟩, ⟨.TYPE, .SUFTYP, [.DIRECT, .QUALIF]⟩, ⟨.WORD, .CITY, [.PROV, .CITY]⟩,
    ⟨.PROV, .PROV, []⟩],
  [⟨.NUMBER, .HOUSE, []⟩, ⟨.TYPE, .PRETYP, [.DIRECT, .QUALIF, .NUMBER]⟩, ⟨.WORD, .STREET, [.TYPE, .DIRECT, .QUALIF]⟩,
    ⟨.WORD, .CITY, [.PROV, .CITY]⟩, ⟨.PROV, .PROV, []⟩],
  [⟨.NUMBER, .HOUSE, []⟩, ⟨.WORD, .STREET, [.TYPE, .DIRECT, .QUALIF, .NUMBER]⟩, ⟨.TYPE, .SUFTYP, [.DIRECT, .QUALIF, .NUMBER]⟩,
    ⟨.WORD, .CITY, [.CITY]⟩, ⟨.PROV, .PROV, []⟩, ⟨.QUAD, .POSTAL, [.PROV, .NATION]⟩],
  [⟨.NUMBER, .HOUSE, []⟩, ⟨.WORD, .STREET, [.SINGLE, .TYPE, .DIRECT, .QUALIF, .NUMBER]⟩,
    ⟨.TYPE, .SUFTYP, [.DIRECT, .QUALIF, .NUMBER]⟩, ⟨.CITY, .CITY, []⟩, ⟨.PROV, .PROV, [.CITY]⟩, ⟨.QUAD, .POSTAL, [.NATION]⟩],
  [⟨.NUMBER, .HOUSE, [.UNITH]⟩, ⟨.WORD, .STREET, [.TYPE, .DIRECT, .QUALIF, .NUMBER, .DASH, .SLASH]⟩,
    ⟨.TYPE, .SUFTYP, [.DIRECT, .QUALIF]⟩, ⟨.WORD, .CITY, [.DIRECT, .CITY, .QUALIF]⟩, ⟨.WORD, .CITY, [.CITY, .QUALIF, .NUMBER]⟩,
    ⟨.PROV, .PROV, [.QUALIF, .NUMBER]⟩, ⟨.QUAD, .POSTAL, [.PROV, .NATION, .QUALIF]⟩],
  [⟨.NUMBER, .HOUSE, [.UNITH]⟩, ⟨.WORD, .STREET, [.TYPE, .DIRECT, .QUALIF, .NUMBER, .DASH, .SLASH]⟩,
    ⟨.TYPE, .SUFTYP, [.DIRECT, .QUALIF]⟩, ⟨.WORD, .CITY, [.CITY, .QUALIF]⟩,
    ⟨.PROV, .PROV, [.DIRECT, .CITY, .NATION, .QUALIF, .NUMBER]⟩, ⟨.QUAD, .POSTAL, [.PROV, .CITY, .NATION, .QUALIF]⟩,
    ⟨.NATION, .NATION, [.PROV, .CITY, .QUALIF]⟩],
  [⟨.NUMBER, .HOUSE, [.UNITH]⟩, ⟨.DIRECT, .PREDIR, [.TYPE, .QUALIF, .NUMBER, .DASH, .SLASH]⟩,
    ⟨.WORD, .STREET, [.TYPE, .CITY, .QUALIF]⟩, ⟨.TYPE, .SUFTYP, [.DIRECT, .PROV, .CITY, .QUALIF]⟩,
    ⟨.WORD, .CITY, [.DIRECT, .PROV, .CITY, .QUALIF]⟩, ⟨.PROV, .PROV, [.DIRECT, .CITY, .QUALIF]⟩, ⟨.QUAD, .POSTAL, [.PROV, .NATION]⟩],
  [⟨.BOXH, .BOXH, [.NUMBER]⟩, ⟨.NUMBER, .BOXT, []⟩, ⟨.WORD, .CITY, [.CITY]⟩, ⟨.PROV, .PROV, []⟩, ⟨.QUAD, .POSTAL, [.PROV, .NATION]⟩],
  [⟨.NUMBER, .HOUSE, []⟩, ⟨.WORD, .STREET, [.NUMBER, .SLASH]⟩, ⟨.WORD, .CITY, [.CITY]⟩, ⟨.PROV, .PROV, [.QUALIF]⟩,
    ⟨.QUAD, .POSTAL, [.PROV, .NATION]⟩],
  [⟨.NUMBER, .HOUSE, []⟩, ⟨.WORD, .STREET, [.TYPE, .DIRECT, .QUALIF, .NUMBER]⟩, ⟨.WORD, .STREET, [.TYPE, .DIRECT, .QUALIF, .NUMBER]⟩,
    ⟨.TYPE, .SUFTYP, [.DIRECT, .QUALIF, .NUMBER]⟩, ⟨.WORD, .CITY, [.CITY, .NUMBER]⟩, ⟨.PROV, .PROV, [.NUMBER]⟩,
    ⟨.QUAD, .POSTAL, [.PROV, .NATION]⟩],
  [⟨.UNITH, .UNITH, []⟩, ⟨.NUMBER, .UNITT, [.WORD, .DASH, .SLASH]⟩,
    ⟨.NUMBER, .HOUSE, [.WORD, .TYPE, .DIRECT, .QUALIF, .DASH, .SLASH]⟩, ⟨.WORD, .STREET, [.TYPE, .DIRECT, .QUALIF, .DASH, .SLASH]⟩,
    ⟨.TYPE, .SUFTYP, [.DIRECT, .QUALIF]⟩, ⟨.WORD, .CITY, [.CITY]⟩, ⟨.PROV, .PROV, [.NUMBER]⟩, ⟨.QUAD, .POSTAL, [.PROV, .NATION]⟩],
  [⟨.NUMBER, .HOUSE, []⟩, ⟨.TYPE, .PRETYP, [.DIRECT, .QUALIF, .NUMBER]⟩, ⟨.WORD, .STREET, [.TYPE, .DIRECT, .QUALIF, .NUMBER]⟩,
    ⟨.WORD, .CITY, [.CITY]⟩, ⟨.PROV, .PROV, [.QUALIF]⟩, ⟨.QUAD, .POSTAL, [.PROV, .NATION]⟩]]

def austria : List Form := [
  [⟨.WORD, .STREET, [.BOXH]⟩, ⟨.NUMBER, .HOUSE, []⟩, ⟨.QUAD, .POSTAL, []⟩, ⟨.WORD, .CITY, [.CITY]⟩],
  [⟨.WORD, .STREET, [.BOXH]⟩, ⟨.NUMBER, .HOUSE, []⟩, ⟨.QUAD, .POSTAL, []⟩, ⟨.CITY, .CITY, []⟩],
  [⟨.WORD, .STREET, [.BOXH]⟩, ⟨.NUMBER, .HOUSE, [.WORD, .TYPE]⟩, ⟨.QUAD, .POSTAL, [.DOUBLE, .SINGLE]⟩, ⟨.WORD, .CITY, []⟩,
    ⟨.WORD, .CITY, [.NATION]⟩],
  [⟨.WORD, .STREET, [.BOXH]⟩, ⟨.NUMBER, .HOUSE, [.TYPE]⟩, ⟨.QUAD, .POSTAL, []⟩, ⟨.WORD, .CITY, [.CITY]⟩, ⟨.NATION, .NATION, [.CITY]⟩],
  [⟨.WORD, .STREET, []⟩, ⟨.TYPE, .SUFTYP, [.NUMBER]⟩, ⟨.NUMBER, .HOUSE, []⟩, ⟨.QUAD, .POSTAL, []⟩, ⟨.WORD, .CITY, [.CITY]⟩],
  [⟨.WORD, .STREET, []⟩, ⟨.TYPE, .SUFTYP, [.NUMBER]⟩, ⟨.NUMBER, .HOUSE, []⟩, ⟨.QUAD, .POSTAL, []⟩, ⟨.CITY, .CITY, []⟩],
  [⟨.WORD, .STREET, []⟩, ⟨.TYPE, .SUFTYP, [.NUMBER]⟩, ⟨.NUMBER, .HOUSE, [.TYPE]⟩, ⟨.QUAD, .POSTAL, [.DOUBLE, .SINGLE]⟩,
    ⟨.WORD, .CITY, []⟩, ⟨.WORD, .CITY, [.CITY, .NATION]⟩],
  [⟨.WORD, .STREET, []⟩, ⟨.TYPE, .SUFTYP, [.NUMBER]⟩, ⟨.NUMBER, .HOUSE, []⟩, ⟨.QUAD, .POSTAL, []⟩, ⟨.WORD, .CITY, [.CITY]⟩,
    ⟨.NATION, .NATION, [.CITY]⟩],
  [⟨.BOXH, .BOXH, []⟩, ⟨.NUMBER, .BOXT, []⟩, ⟨.QUAD, .POSTAL, []⟩, ⟨.WORD, .CITY, [.CITY]⟩],
  [⟨.WORD, .STREET, []⟩, ⟨.WORD, .STREET, [.TYPE, .NUMBER]⟩, ⟨.NUMBER, .HOUSE, []⟩, ⟨.QUAD, .POSTAL, []⟩, ⟨.WORD, .CITY, [.CITY]⟩],
  [⟨.WORD, .STREET, [.BOXH]⟩, ⟨.NUMBER, .HOUSE, []⟩, ⟨.UNITH, .UNITH, [.TYPE, .NUMBER, .DASH, .PUNCT, .SLASH]⟩,
    ⟨.NUMBER, .UNITT, [.WORD, .UNITT, .MIXED]⟩, ⟨.QUAD, .POSTAL, []⟩, ⟨.WORD, .CITY, [.CITY, .NATION]⟩],
  [⟨.WORD, .STREET, []⟩, ⟨.WORD, .STREET, [.NUMBER]⟩, ⟨.TYPE, .SUFTYP, [.NUMBER]⟩, ⟨.NUMBER, .HOUSE, []⟩, ⟨.QUAD, .POSTAL, []⟩,
    ⟨.WORD, .CITY, [.CITY]⟩]]

def belgium : List Form := [
  [⟨.WORD, .STREET, [.BOXH]⟩, ⟨.NUMBER, .HOUSE, []⟩, ⟨.QUAD, .POSTAL, []⟩, ⟨.WORD, .CITY, [.CITY]⟩],
  [⟨.WORD, .STREET, [.BOXH]⟩, ⟨.NUMBER, .HOUSE, []⟩, ⟨.QUAD, .POSTAL, []⟩, ⟨.CITY, .CITY, []⟩],
  [⟨.WORD, .STREET, [.BOXH]⟩, ⟨.NUMBER, .HOUSE, [.WORD, .TYPE]⟩, ⟨.QUAD, .POSTAL, [.SINGLE]⟩, ⟨.WORD, .CITY, []⟩,
    ⟨.WORD, .CITY, [.CITY, .NATION]⟩],
  [⟨.WORD, .STREET, [.BOXH]⟩, ⟨.NUMBER, .HOUSE, [.TYPE]⟩, ⟨.QUAD, .POSTAL, []⟩, ⟨.WORD, .CITY, [.CITY]⟩, ⟨.NATION, .NATION, [.CITY]⟩],
  [⟨.WORD, .STREET, []⟩, ⟨.TYPE, .SUFTYP, [.NUMBER]⟩, ⟨.NUMBER, .HOUSE, []⟩, ⟨.QUAD, .POSTAL, []⟩, ⟨.WORD, .CITY, [.CITY]⟩],
  [⟨.WORD, .STREET, []⟩, ⟨.TYPE, .SUFTYP, [.NUMBER]⟩, ⟨.NUMBER, .HOUSE, []⟩, ⟨.QUAD, .POSTAL, []⟩, ⟨.CITY, .CITY, []⟩],
  [⟨.WORD, .STREET, []⟩, ⟨.TYPE, .SUFTYP, [.NUMBER]⟩, ⟨.NUMBER, .HOUSE, [.TYPE]⟩, ⟨.QUAD, .POSTAL, [.SINGLE]⟩, ⟨.WORD, .CITY, []⟩,
    ⟨.WORD, .CITY, [.CITY, .NATION]⟩],
  [⟨.WORD, .STREET, []⟩, ⟨.TYPE, .SUFTYP, [.NUMBER]⟩, ⟨.NUMBER, .HOUSE, []⟩, ⟨.QUAD, .POSTAL, []⟩, ⟨.WORD, .CITY, [.CITY]⟩,
    ⟨.NATION, .NATION, [.CITY]⟩],
  [⟨.BOXH, .BOXH, []⟩, ⟨.NUMBER, .BOXT, []⟩, ⟨.QUAD, .POSTAL, []⟩, ⟨.WORD, .CITY, [.CITY]⟩],
  [⟨.WORD, .STREET, []⟩, ⟨.WORD, .STREET, [.TYPE, .NUMBER]⟩, ⟨.NUMBER, .HOUSE, []⟩, ⟨.QUAD, .POSTAL, []⟩, ⟨.WORD, .CITY, [.CITY]⟩],
  [⟨.WORD, .STREET, [.BOXH]⟩, ⟨.NUMBER, .HOUSE, []⟩, ⟨.UNITH, .UNITH, [.TYPE, .NUMBER]⟩, ⟨.NUMBER, .UNITT, [.WORD, .MIXED]⟩,
    ⟨.QUAD, .POSTAL, []⟩, ⟨.WORD, .CITY, [.CITY, .NATION]⟩],
  [⟨.WORD, .STREET, []⟩, ⟨.WORD, .STREET, [.NUMBER]⟩, ⟨.TYPE, .SUFTYP, [.NUMBER]⟩, ⟨.NUMBER, .HOUSE, []⟩, ⟨.QUAD, .POSTAL, []⟩,
    ⟨.WORD, .CITY, [.CITY]⟩]]

def canada : List Form := [
  [⟨.NUMBER, .HOUSE, [.BOXH, .MIXED]⟩,
    ⟨.WORD, .STREET, [.DOUBLE, .SINGLE, .TYPE, .ROAD, .DIRECT, .QUALIF, .ORD, .NUMBER, .MIXED, .FRACT, .DASH]⟩,
    ⟨.TYPE, .SUFTYP, [.DIRECT, .QUALIF]⟩, ⟨.WORD, .CITY, [.CITY]⟩, ⟨.PROV, .PROV, [.NATION, .MIXED]⟩],
  [⟨.NUMBER, .HOUSE, [.MIXED]⟩,
    ⟨.WORD, .STREET, [.DOUBLE, .SINGLE, .TYPE, .ROAD, .DIRECT, .QUALIF, .ORD, .NUMBER, .MIXED, .FRACT, .DASH]⟩,
    ⟨.TYPE, .SUFTYP, [.DIRECT, .QUALIF]⟩, ⟨.CITY, .CITY, []⟩, ⟨.PROV, .PROV, [.NATION, .MIXED]⟩],
  [⟨.NUMBER, .HOUSE, [.BOXH, .MIXED]⟩,
    ⟨.WORD, .STREET, [.DOUBLE, .SINGLE, .TYPE, .ROAD, .DIRECT, .PROV, .QUALIF, .ORD, .NUMBER, .MIXED, .FRACT, .DASH]⟩,
    ⟨.TYPE, .SUFTYP, [.DIRECT, .QUALIF, .BOXH, .AMPERS]⟩, ⟨.WORD, .CITY, [.DIRECT, .QUALIF, .BOXH, .MIXED]⟩,
    ⟨.WORD, .CITY, [.CITY, .BOXH, .MIXED]⟩, ⟨.PROV, .PROV, [.NATION, .MIXED]⟩],
  [⟨.NUMBER, .HOUSE, [.BOXH, .MIXED]⟩,
    ⟨.WORD, .STREET, [.DOUBLE, .SINGLE, .TYPE, .ROAD, .DIRECT, .PROV, .QUALIF, .ORD, .NUMBER, .MIXED, .FRACT, .DASH]⟩,
    ⟨.TYPE, .SUFTYP, [.DIRECT, .QUALIF, .UNITH, .BOXH, .AMPERS]⟩, ⟨.WORD, .CITY, [.CITY, .QUALIF, .UNITH, .BOXH]⟩,
    ⟨.PROV, .PROV, [.BOXH, .MIXED]⟩, ⟨.NATION, .NATION, [.PROV, .MIXED]⟩],
  [⟨.NUMBER, .HOUSE, [.BOXH, .MIXED]⟩, ⟨.DIRECT, .PREDIR, [.TYPE, .QUALIF, .ORD, .NUMBER, .MIXED, .FRACT]⟩,
    ⟨.WORD, .STREET, [.DOUBLE, .SINGLE, .TYPE, .ROAD, .DIRECT, .PROV, .CITY, .QUALIF, .ORD, .NUMBER, .MIXED, .AMPERS]⟩,
    ⟨.TYPE, .SUFTYP, [.WORD, .DIRECT, .PROV, .CITY, .QUALIF, .UNITH, .BOXH, .NUMBER, .MIXED, .AMPERS]⟩,
    ⟨.WORD, .CITY, [.CITY, .QUALIF, .UNITH, .BOXH]⟩, ⟨.PROV, .PROV, [.CITY, .QUALIF]⟩],
  [⟨.NUMBER, .HOUSE, [.MIXED]⟩, ⟨.ORD, .STREET, [.ROAD, .DIRECT, .QUALIF, .NUMBER, .MIXED, .FRACT]⟩,
    ⟨.TYPE, .SUFTYP, [.WORD, .ROAD, .DIRECT, .CITY, .QUALIF, .UNITH, .BOXH, .ORD, .NUMBER, .MIXED, .AMPERS]⟩,
    ⟨.WORD, .CITY, [.DIRECT, .CITY, .QUALIF, .UNITH, .BOXH, .ORD, .NUMBER, .MIXED, .AMPERS]⟩, ⟨.PROV, .PROV, []⟩],
  [⟨.BOXH, .BOXH, [.NUMBER, .MIXED]⟩, ⟨.NUMBER, .BOXT, [.WORD]⟩, ⟨.WORD, .CITY, [.CITY]⟩, ⟨.PROV, .PROV, []⟩],
  [⟨.NUMBER, .HOUSE, [.BOXH, .MIXED]⟩, ⟨.WORD, .STREET, [.DOUBLE, .SINGLE, .ORD, .NUMBER, .MIXED]⟩, ⟨.WORD, .CITY, [.CITY]⟩,
    ⟨.PROV, .PROV, []⟩],
  [⟨.NUMBER, .HOUSE, [.BOXH, .MIXED]⟩, ⟨.WORD, .STREET, [.SINGLE, .TYPE, .DIRECT, .PROV, .QUALIF, .ORD, .NUMBER, .MIXED, .FRACT]⟩,
    ⟨.WORD, .STREET, [.QUALIF, .ORD, .NUMBER, .MIXED]⟩,
    ⟨.TYPE, .SUFTYP, [.WORD, .DIRECT, .QUALIF, .UNITH, .BOXH, .NUMBER, .MIXED, .AMPERS]⟩, ⟨.WORD, .CITY, [.CITY, .QUALIF, .MIXED]⟩,
    ⟨.PROV, .PROV, [.NATION, .MIXED]⟩],
  [⟨.NUMBER, .HOUSE, [.BOXH, .MIXED]⟩, ⟨.TYPE, .PRETYP, [.ROAD, .DIRECT, .PROV, .QUALIF, .ORD, .NUMBER, .MIXED, .FRACT]⟩,
    ⟨.WORD, .STREET, [.DOUBLE, .SINGLE, .TYPE, .DIRECT, .CITY, .QUALIF, .UNITH, .BOXH, .ORD, .NUMBER, .MIXED, .AMPERS]⟩,
    ⟨.WORD, .CITY, [.DIRECT, .CITY, .QUALIF, .BOXH, .ORD, .NUMBER, .MIXED, .AMPERS]⟩, ⟨.PROV, .PROV, [.NATION, .MIXED]⟩],
  [⟨.NUMBER, .HOUSE, [.BOXH, .MIXED]⟩,
    ⟨.WORD, .STREET, [.DOUBLE, .SINGLE, .TYPE, .ROAD, .DIRECT, .PROV, .QUALIF, .ORD, .NUMBER, .MIXED, .FRACT, .DASH]⟩,
    ⟨.TYPE, .SUFTYP, [.DIRECT, .CITY, .QUALIF, .UNITH, .BOXH, .AMPERS]⟩, ⟨.WORD, .CITY, [.DIRECT, .CITY, .QUALIF, .UNITH, .BOXH]⟩,
    ⟨.PROV, .PROV, [.QUALIF, .UNITH, .BOXH, .MIXED]⟩, ⟨.MIXED, .POSTAL, [.DIRECT, .PROV, .CITY, .NATION, .QUALIF, .UNITH, .BOXH]⟩,
    ⟨.MIXED, .POSTAL, [.PROV, .NATION]⟩],
  [⟨.NUMBER, .HOUSE, [.BOXH, .MIXED]⟩,
    ⟨.WORD, .STREET, [.DOUBLE, .SINGLE, .TYPE, .ROAD, .DIRECT, .PROV, .QUALIF, .ORD, .NUMBER, .MIXED, .FRACT, .DASH]⟩,
    ⟨.TYPE, .SUFTYP, [.DIRECT, .CITY, .QUALIF, .UNITH, .BOXH, .AMPERS]⟩, ⟨.CITY, .CITY, [.DIRECT, .QUALIF, .UNITH, .BOXH]⟩,
    ⟨.PROV, .PROV, [.DIRECT, .CITY, .QUALIF, .UNITH, .BOXH, .MIXED]⟩,
    ⟨.MIXED, .POSTAL, [.PROV, .CITY, .NATION, .QUALIF, .UNITH, .BOXH]⟩, ⟨.MIXED, .POSTAL, [.PROV, .CITY, .NATION, .QUALIF]⟩],
  [⟨.NUMBER, .HOUSE, [.BOXH, .MIXED]⟩,
    ⟨.WORD, .STREET, [.DOUBLE, .SINGLE, .TYPE, .ROAD, .DIRECT, .PROV, .QUALIF, .ORD, .NUMBER, .MIXED, .FRACT, .DASH]⟩,
    ⟨.TYPE, .SUFTYP, [.DIRECT, .CITY, .QUALIF, .UNITH, .BOXH, .AMPERS]⟩,
    ⟨.WORD, .CITY, [.DIRECT, .PROV, .CITY, .QUALIF, .UNITH, .BOXH]⟩,
    ⟨.WORD, .CITY, [.TYPE, .DIRECT, .PROV, .CITY, .QUALIF, .UNITH, .BOXH]⟩, ⟨.PROV, .PROV, [.TYPE, .DIRECT, .QUALIF, .UNITH, .BOXH]⟩,
    ⟨.MIXED, .POSTAL, [.DIRECT, .PROV, .CITY, .NATION, .QUALIF, .UNITH, .BOXH]⟩, ⟨.MIXED, .POSTAL, [.PROV, .NATION]⟩],
  [⟨.NUMBER, .HOUSE, [.BOXH, .MIXED]⟩,
    ⟨.WORD, .STREET, [.DOUBLE, .SINGLE, .TYPE, .ROAD, .DIRECT, .PROV, .QUALIF, .ORD, .NUMBER, .MIXED, .FRACT, .DASH]⟩,
    ⟨.TYPE, .SUFTYP, [.DIRECT, .CITY, .QUALIF, .UNITH, .BOXH, .AMPERS]⟩,
    ⟨.WORD, .CITY, [.DIRECT, .PROV, .CITY, .QUALIF, .UNITH, .BOXH]⟩, ⟨.PROV, .PROV, [.DIRECT, .CITY, .QUALIF, .UNITH, .BOXH]⟩,
    ⟨.MIXED, .POSTAL, [.TYPE, .DIRECT, .PROV, .CITY, .NATION, .QUALIF, .UNITH, .BOXH]⟩,
    ⟨.MIXED, .POSTAL, [.TYPE, .DIRECT, .PROV, .NATION, .QUALIF, .BOXH]⟩, ⟨.NATION, .NATION, [.PROV, .UNITH, .MIXED]⟩],
  [⟨.NUMBER, .HOUSE, [.MIXED]⟩, ⟨.DIRECT, .PREDIR, [.WORD, .TYPE, .QUALIF, .ORD, .NUMBER, .MIXED, .FRACT]⟩,
    ⟨.WORD, .STREET, [.DOUBLE, .SINGLE, .TYPE, .ROAD, .DIRECT, .PROV, .CITY, .QUALIF, .ORD, .NUMBER, .MIXED, .AMPERS]⟩,
    ⟨.TYPE, .SUFTYP, [.WORD, .DIRECT, .CITY, .QUALIF, .UNITH, .BOXH, .NUMBER, .MIXED, .AMPERS]⟩,
    ⟨.WORD, .CITY, [.DIRECT, .CITY, .NATION, .QUALIF, .UNITH, .BOXH, .MIXED]⟩, ⟨.PROV, .PROV, []⟩, ⟨.MIXED, .POSTAL, [.NATION]⟩,
    ⟨.MIXED, .POSTAL, [.PROV, .NATION]⟩],
  [⟨.NUMBER, .HOUSE, [.BOXH, .MIXED]⟩,
    ⟨.ORD, .STREET, [.SINGLE, .TYPE, .ROAD, .DIRECT, .PROV, .QUALIF, .NUMBER, .MIXED, .FRACT, .DASH]⟩,
    ⟨.TYPE, .SUFTYP, [.DIRECT, .CITY, .QUALIF, .UNITH, .BOXH, .AMPERS]⟩, ⟨.WORD, .CITY, [.DIRECT, .PROV, .CITY, .QUALIF]⟩,
    ⟨.PROV, .PROV, [.WORD, .DIRECT, .CITY, .QUALIF, .UNITH, .BOXH, .NUMBER, .MIXED]⟩,
    ⟨.MIXED, .POSTAL, [.CITY, .NATION, .QUALIF, .UNITH, .BOXH]⟩, ⟨.MIXED, .POSTAL, [.CITY, .NATION, .QUALIF]⟩],
  [⟨.BOXH, .BOXH, [.NUMBER, .MIXED]⟩, ⟨.NUMBER, .BOXT, [.WORD]⟩, ⟨.WORD, .CITY, [.CITY]⟩, ⟨.PROV, .PROV, []⟩,
    ⟨.MIXED, .POSTAL, [.PROV]⟩, ⟨.MIXED, .POSTAL, [.PROV, .NATION]⟩],
  [⟨.NUMBER, .HOUSE, [.BOXH, .MIXED]⟩,
    ⟨.WORD, .STREET, [.DOUBLE, .SINGLE, .ROAD, .DIRECT, .PROV, .QUALIF, .ORD, .NUMBER, .MIXED, .FRACT]⟩,
    ⟨.WORD, .CITY, [.DIRECT, .CITY, .QUALIF, .UNITH, .BOXH, .ORD, .NUMBER, .MIXED, .AMPERS]⟩,
    ⟨.PROV, .PROV, [.TYPE, .DIRECT, .CITY, .QUALIF, .UNITH, .BOXH, .AMPERS]⟩,
    ⟨.MIXED, .POSTAL, [.TYPE, .DIRECT, .PROV, .QUALIF, .UNITH]⟩, ⟨.MIXED, .POSTAL, [.PROV, .NATION, .NUMBER]⟩],
  [⟨.NUMBER, .HOUSE, [.BOXH, .MIXED]⟩, ⟨.WORD, .STREET, [.SINGLE, .TYPE, .DIRECT, .PROV, .QUALIF, .ORD, .NUMBER, .MIXED, .FRACT]⟩,
    ⟨.WORD, .STREET, [.QUALIF, .ORD, .NUMBER, .MIXED]⟩,
    ⟨.TYPE, .SUFTYP, [.WORD, .DIRECT, .CITY, .QUALIF, .UNITH, .BOXH, .NUMBER, .MIXED, .AMPERS]⟩,
    ⟨.WORD, .CITY, [.CITY, .QUALIF, .UNITH, .BOXH, .MIXED]⟩, ⟨.PROV, .PROV, [.QUALIF, .UNITH]⟩, ⟨.MIXED, .POSTAL, [.PROV, .NUMBER]⟩,
    ⟨.MIXED, .POSTAL, [.PROV, .NATION]⟩],
  [⟨.NUMBER, .HOUSE, [.MIXED]⟩, ⟨.TYPE, .PRETYP, [.WORD, .ROAD, .DIRECT, .QUALIF, .ORD, .NUMBER, .MIXED, .FRACT]⟩,
    ⟨.WORD, .STREET, [.DOUBLE, .SINGLE, .TYPE, .ROAD, .DIRECT, .PROV, .CITY, .QUALIF, .UNITH, .BOXH, .ORD, .NUMBER, .MIXED, .AMPERS]⟩,
    ⟨.WORD, .CITY, [.DIRECT, .PROV, .CITY, .QUALIF]⟩,
    ⟨.PROV, .PROV, [.WORD, .TYPE, .DIRECT, .CITY, .QUALIF, .UNITH, .BOXH, .NUMBER, .MIXED]⟩, ⟨.MIXED, .POSTAL, []⟩,
    ⟨.MIXED, .POSTAL, [.NATION]⟩]]

def denmark : List Form := [
  [⟨.WORD, .STREET, [.BOXH]⟩, ⟨.NUMBER, .HOUSE, []⟩, ⟨.QUAD, .POSTAL, []⟩, ⟨.WORD, .CITY, [.CITY]⟩],
  [⟨.WORD, .STREET, [.BOXH]⟩, ⟨.NUMBER, .HOUSE, []⟩, ⟨.QUAD, .POSTAL, []⟩, ⟨.CITY, .CITY, []⟩],
  [⟨.WORD, .STREET, [.BOXH]⟩, ⟨.NUMBER, .HOUSE, []⟩, ⟨.QUAD, .POSTAL, []⟩, ⟨.WORD, .CITY, [.QUAD]⟩, ⟨.WORD, .CITY, [.NATION]⟩],
  [⟨.WORD, .STREET, [.BOXH]⟩, ⟨.NUMBER, .HOUSE, [.TYPE]⟩, ⟨.QUAD, .POSTAL, []⟩, ⟨.WORD, .CITY, [.CITY]⟩, ⟨.NATION, .NATION, [.CITY]⟩],
  [⟨.WORD, .STREET, []⟩, ⟨.TYPE, .SUFTYP, [.NUMBER, .MIXED]⟩, ⟨.NUMBER, .HOUSE, []⟩, ⟨.QUAD, .POSTAL, []⟩, ⟨.WORD, .CITY, [.CITY]⟩],
  [⟨.WORD, .STREET, []⟩, ⟨.TYPE, .SUFTYP, [.NUMBER]⟩, ⟨.NUMBER, .HOUSE, []⟩, ⟨.QUAD, .POSTAL, []⟩, ⟨.CITY, .CITY, []⟩],
  [⟨.WORD, .STREET, []⟩, ⟨.TYPE, .SUFTYP, [.NUMBER]⟩, ⟨.NUMBER, .HOUSE, []⟩, ⟨.QUAD, .POSTAL, []⟩, ⟨.WORD, .CITY, [.QUAD]⟩,
    ⟨.WORD, .CITY, [.NATION]⟩],
  [⟨.WORD, .STREET, []⟩, ⟨.TYPE, .SUFTYP, [.NUMBER]⟩, ⟨.NUMBER, .HOUSE, []⟩, ⟨.QUAD, .POSTAL, []⟩, ⟨.WORD, .CITY, [.CITY]⟩,
    ⟨.NATION, .NATION, [.CITY]⟩],
  [⟨.BOXH, .BOXH, []⟩, ⟨.NUMBER, .BOXT, []⟩, ⟨.QUAD, .POSTAL, []⟩, ⟨.WORD, .CITY, [.CITY]⟩],
  [⟨.WORD, .STREET, []⟩, ⟨.WORD, .STREET, [.TYPE, .NUMBER, .MIXED]⟩, ⟨.NUMBER, .HOUSE, []⟩, ⟨.QUAD, .POSTAL, []⟩,
    ⟨.WORD, .CITY, [.CITY]⟩],
  [⟨.WORD, .STREET, []⟩, ⟨.WORD, .STREET, [.NUMBER, .MIXED]⟩, ⟨.TYPE, .SUFTYP, [.NUMBER, .MIXED]⟩, ⟨.NUMBER, .HOUSE, []⟩,
    ⟨.QUAD, .POSTAL, []⟩, ⟨.WORD, .CITY, [.CITY]⟩]]

def finland : List Form := [
  [⟨.WORD, .STREET, [.BOXH]⟩, ⟨.NUMBER, .HOUSE, [.TYPE]⟩, ⟨.QUINT, .POSTAL, [.CITY]⟩, ⟨.WORD, .CITY, [.CITY, .NATION]⟩],
  [⟨.WORD, .STREET, [.BOXH]⟩, ⟨.NUMBER, .HOUSE, [.TYPE]⟩, ⟨.QUINT, .POSTAL, [.SINGLE, .CITY]⟩, ⟨.CITY, .CITY, []⟩],
  [⟨.WORD, .STREET, [.BOXH]⟩, ⟨.NUMBER, .HOUSE, [.TYPE]⟩, ⟨.QUINT, .POSTAL, [.DOUBLE, .SINGLE, .CITY, .NATION]⟩,
    ⟨.WORD, .CITY, [.CITY, .NUMBER]⟩, ⟨.WORD, .CITY, [.CITY, .NATION]⟩],
  [⟨.WORD, .STREET, [.BOXH]⟩, ⟨.NUMBER, .HOUSE, [.TYPE, .MIXED]⟩, ⟨.QUINT, .POSTAL, [.SINGLE, .CITY]⟩, ⟨.WORD, .CITY, [.CITY]⟩,
    ⟨.NATION, .NATION, [.CITY]⟩],
  [⟨.WORD, .STREET, [.BOXH]⟩, ⟨.TYPE, .SUFTYP, [.NUMBER]⟩, ⟨.NUMBER, .HOUSE, [.MIXED]⟩, ⟨.QUINT, .POSTAL, [.SINGLE, .CITY]⟩,
    ⟨.WORD, .CITY, [.CITY, .NATION]⟩],
  [⟨.WORD, .STREET, [.BOXH]⟩, ⟨.TYPE, .SUFTYP, [.NUMBER]⟩, ⟨.NUMBER, .HOUSE, [.MIXED]⟩, ⟨.QUINT, .POSTAL, [.DOUBLE, .SINGLE, .CITY]⟩,
    ⟨.CITY, .CITY, []⟩],
  [⟨.WORD, .STREET, [.BOXH]⟩, ⟨.TYPE, .SUFTYP, [.NUMBER, .MIXED]⟩, ⟨.NUMBER, .HOUSE, [.MIXED]⟩,
    ⟨.QUINT, .POSTAL, [.DOUBLE, .SINGLE, .CITY, .NATION, .MIXED]⟩, ⟨.WORD, .CITY, [.CITY, .NUMBER]⟩,
    ⟨.WORD, .CITY, [.CITY, .NATION]⟩],
  [⟨.WORD, .STREET, [.BOXH]⟩, ⟨.TYPE, .SUFTYP, [.NUMBER, .MIXED]⟩, ⟨.NUMBER, .HOUSE, [.MIXED]⟩,
    ⟨.QUINT, .POSTAL, [.SINGLE, .CITY, .NATION, .MIXED]⟩, ⟨.WORD, .CITY, [.TYPE, .CITY, .NATION, .NUMBER, .MIXED, .DASH]⟩,
    ⟨.NATION, .NATION, [.CITY]⟩],
  [⟨.BOXH, .BOXH, []⟩, ⟨.NUMBER, .BOXT, [.WORD]⟩, ⟨.QUINT, .POSTAL, [.CITY]⟩, ⟨.WORD, .CITY, [.CITY, .NATION]⟩],
  [⟨.WORD, .STREET, [.BOXH]⟩, ⟨.WORD, .STREET, [.TYPE, .NUMBER, .MIXED]⟩, ⟨.NUMBER, .HOUSE, [.TYPE]⟩, ⟨.QUINT, .POSTAL, [.CITY]⟩,
    ⟨.WORD, .CITY, [.CITY, .NATION]⟩],
  [⟨.WORD, .STREET, [.BOXH]⟩, ⟨.WORD, .STREET, [.NUMBER, .MIXED]⟩, ⟨.TYPE, .SUFTYP, [.NUMBER, .MIXED]⟩, ⟨.NUMBER, .HOUSE, []⟩,
    ⟨.QUINT, .POSTAL, [.CITY]⟩, ⟨.WORD, .CITY, [.CITY, .NATION]⟩],
  [⟨.BOXH, .BOXH, []⟩, ⟨.NUMBER, .BOXT, [.WORD]⟩, ⟨.WORD, .CITY, [.CITY]⟩]]

def france : List Form := [
  [⟨.NUMBER, .HOUSE, []⟩, ⟨.TYPE, .PRETYP, [.NUMBER]⟩, ⟨.WORD, .STREET, []⟩, ⟨.QUINT, .POSTAL, [.CITY]⟩,
    ⟨.WORD, .CITY, [.CITY, .NATION]⟩],
  [⟨.NUMBER, .HOUSE, []⟩, ⟨.TYPE, .PRETYP, [.NUMBER]⟩, ⟨.WORD, .STREET, []⟩, ⟨.QUINT, .POSTAL, []⟩, ⟨.CITY, .CITY, []⟩],
  [⟨.NUMBER, .HOUSE, []⟩, ⟨.TYPE, .PRETYP, [.NUMBER, .DASH, .SLASH]⟩, ⟨.WORD, .STREET, []⟩,
    ⟨.QUINT, .POSTAL, [.CITY, .NATION, .UNITT]⟩, ⟨.WORD, .CITY, [.CITY]⟩, ⟨.WORD, .CITY, [.CITY, .NATION, .BOXH]⟩],
  [⟨.NUMBER, .HOUSE, []⟩, ⟨.TYPE, .PRETYP, [.NUMBER, .DASH, .SLASH]⟩, ⟨.WORD, .STREET, []⟩, ⟨.QUINT, .POSTAL, [.MIXED, .DASH]⟩,
    ⟨.WORD, .CITY, [.CITY, .BOXH, .NUMBER, .MIXED, .DASH]⟩, ⟨.NATION, .NATION, [.CITY]⟩],
  [⟨.BOXH, .BOXH, []⟩, ⟨.NUMBER, .BOXT, []⟩, ⟨.QUINT, .POSTAL, []⟩, ⟨.WORD, .CITY, [.CITY]⟩],
  [⟨.NUMBER, .HOUSE, []⟩, ⟨.TYPE, .PRETYP, [.DASH, .SLASH]⟩, ⟨.WORD, .STREET, []⟩,
    ⟨.WORD, .STREET, [.NATION, .UNITT, .NUMBER, .DASH]⟩, ⟨.QUINT, .POSTAL, [.WORD, .CITY, .BOXH]⟩, ⟨.WORD, .CITY, [.CITY]⟩]]

def germany : List Form := [
  [⟨.WORD, .STREET, [.BOXH]⟩, ⟨.NUMBER, .HOUSE, [.FRACT]⟩, ⟨.QUINT, .POSTAL, []⟩, ⟨.WORD, .CITY, [.DIRECT, .CITY]⟩],
  [⟨.WORD, .STREET, [.BOXH]⟩, ⟨.NUMBER, .HOUSE, [.FRACT]⟩, ⟨.QUINT, .POSTAL, []⟩, ⟨.CITY, .CITY, []⟩],
  [⟨.WORD, .STREET, [.BOXH]⟩, ⟨.NUMBER, .HOUSE, [.TYPE, .FRACT]⟩, ⟨.QUINT, .POSTAL, [.DOUBLE, .SINGLE, .FRACT]⟩,
    ⟨.WORD, .CITY, [.DIRECT, .CITY]⟩, ⟨.WORD, .CITY, [.DIRECT, .PROV, .CITY, .NATION]⟩],
  [⟨.WORD, .STREET, [.BOXH]⟩, ⟨.NUMBER, .HOUSE, [.TYPE, .FRACT]⟩, ⟨.QUINT, .POSTAL, [.FRACT]⟩,
    ⟨.WORD, .CITY, [.DIRECT, .CITY, .MIXED, .SLASH]⟩, ⟨.NATION, .NATION, [.PROV, .CITY]⟩],
  [⟨.WORD, .STREET, [.TYPE]⟩, ⟨.TYPE, .SUFTYP, [.NUMBER, .MIXED, .FRACT]⟩, ⟨.NUMBER, .HOUSE, [.FRACT]⟩, ⟨.QUINT, .POSTAL, []⟩,
    ⟨.WORD, .CITY, [.DIRECT, .CITY]⟩],
  [⟨.WORD, .STREET, [.TYPE]⟩, ⟨.TYPE, .SUFTYP, [.NUMBER, .FRACT]⟩, ⟨.NUMBER, .HOUSE, [.FRACT]⟩, ⟨.QUINT, .POSTAL, [.FRACT, .SLASH]⟩,
    ⟨.CITY, .CITY, []⟩],
  [⟨.WORD, .STREET, [.TYPE]⟩, ⟨.TYPE, .SUFTYP, [.NUMBER, .MIXED, .FRACT]⟩, ⟨.NUMBER, .HOUSE, [.MIXED, .FRACT]⟩,
    ⟨.QUINT, .POSTAL, [.DOUBLE, .SINGLE, .FRACT]⟩, ⟨.WORD, .CITY, [.DIRECT, .CITY, .SLASH]⟩,
    ⟨.WORD, .CITY, [.DIRECT, .PROV, .CITY, .NATION]⟩],
  [⟨.WORD, .STREET, [.TYPE]⟩, ⟨.TYPE, .SUFTYP, [.NUMBER, .MIXED, .FRACT]⟩, ⟨.NUMBER, .HOUSE, [.MIXED, .FRACT]⟩,
    ⟨.QUINT, .POSTAL, [.MIXED, .FRACT, .SLASH]⟩, ⟨.WORD, .CITY, [.DIRECT, .CITY, .NUMBER, .FRACT]⟩,
    ⟨.NATION, .NATION, [.PROV, .CITY, .MIXED]⟩],
  [⟨.BOXH, .BOXH, []⟩, ⟨.NUMBER, .BOXT, []⟩, ⟨.QUINT, .POSTAL, []⟩, ⟨.WORD, .CITY, [.DIRECT, .CITY]⟩],
  [⟨.WORD, .STREET, []⟩, ⟨.WORD, .STREET, [.TYPE, .NUMBER, .MIXED, .FRACT]⟩, ⟨.NUMBER, .HOUSE, [.FRACT]⟩, ⟨.QUINT, .POSTAL, []⟩,
    ⟨.WORD, .CITY, [.DIRECT, .CITY]⟩],
  [⟨.WORD, .STREET, [.BOXH]⟩, ⟨.NUMBER, .HOUSE, [.MIXED, .FRACT]⟩, ⟨.UNITH, .UNITH, [.TYPE, .NUMBER, .MIXED, .FRACT]⟩,
    ⟨.NUMBER, .UNITT, [.SINGLE, .WORD, .CITY, .UNITT, .MIXED, .FRACT]⟩, ⟨.QUINT, .POSTAL, [.CITY, .UNITT, .MIXED, .FRACT]⟩,
    ⟨.WORD, .CITY, [.DIRECT, .PROV, .CITY, .NATION]⟩],
  [⟨.WORD, .STREET, []⟩, ⟨.WORD, .STREET, [.NUMBER, .MIXED, .FRACT]⟩, ⟨.TYPE, .SUFTYP, [.NUMBER, .MIXED, .FRACT]⟩,
    ⟨.NUMBER, .HOUSE, [.FRACT]⟩, ⟨.QUINT, .POSTAL, []⟩, ⟨.WORD, .CITY, [.DIRECT, .CITY]⟩]]

def greatbritain : List Form := [
  [⟨.NUMBER, .HOUSE, [.MIXED]⟩, ⟨.WORD, .STREET, [.DOUBLE, .SINGLE, .TYPE, .ROAD, .DIRECT, .QUALIF, .ORD, .NUMBER, .MIXED]⟩,
    ⟨.TYPE, .SUFTYP, [.DIRECT, .QUALIF, .NUMBER, .MIXED, .AMPERS]⟩, ⟨.WORD, .CITY, [.PROV, .CITY, .MIXED]⟩,
    ⟨.NATION, .NATION, [.PROV]⟩],
  [⟨.NUMBER, .HOUSE, [.MIXED]⟩, ⟨.WORD, .STREET, [.DOUBLE, .SINGLE, .TYPE, .ROAD, .DIRECT, .QUALIF, .ORD, .NUMBER, .MIXED]⟩,
    ⟨.TYPE, .SUFTYP, [.DIRECT, .QUALIF, .NUMBER, .MIXED, .AMPERS]⟩, ⟨.WORD, .CITY, [.CITY, .MIXED]⟩,
    ⟨.PROV, .PROV, [.NATION, .MIXED]⟩],
  [⟨.NUMBER, .HOUSE, [.MIXED]⟩, ⟨.WORD, .STREET, [.DOUBLE, .SINGLE, .TYPE, .ROAD, .DIRECT, .QUALIF, .ORD, .NUMBER, .MIXED]⟩,
    ⟨.TYPE, .SUFTYP, [.DIRECT, .QUALIF, .NUMBER, .MIXED]⟩, ⟨.CITY, .CITY, [.NUMBER]⟩, ⟨.PROV, .PROV, [.NATION, .MIXED]⟩],
  [⟨.NUMBER, .HOUSE, [.PLACEN, .MIXED]⟩,
    ⟨.WORD, .STREET, [.DOUBLE, .SINGLE, .TYPE, .ROAD, .DIRECT, .PROV, .QUALIF, .BUILDT, .PLACEN, .ORD, .NUMBER, .MIXED]⟩,
    ⟨.TYPE, .SUFTYP, [.DIRECT, .QUALIF, .BUILDT, .PLACEN, .ORD, .NUMBER, .MIXED, .AMPERS]⟩,
    ⟨.WORD, .CITY, [.DIRECT, .QUALIF, .BUILDT, .PLACEN, .NUMBER, .MIXED]⟩, ⟨.WORD, .CITY, [.CITY, .NUMBER, .MIXED]⟩,
    ⟨.PROV, .PROV, [.NATION, .NUMBER, .MIXED]⟩],
  [⟨.NUMBER, .HOUSE, [.PLACEN, .MIXED]⟩,
    ⟨.WORD, .STREET, [.DOUBLE, .SINGLE, .TYPE, .ROAD, .DIRECT, .PROV, .QUALIF, .PLACEN, .ORD, .NUMBER, .MIXED]⟩,
    ⟨.TYPE, .SUFTYP, [.DIRECT, .QUALIF, .PLACEN, .NUMBER, .MIXED, .AMPERS]⟩,
    ⟨.WORD, .CITY, [.DIRECT, .CITY, .QUALIF, .BUILDT, .PLACEN, .NUMBER, .MIXED]⟩, ⟨.PROV, .PROV, [.CITY, .NUMBER, .MIXED]⟩,
    ⟨.NATION, .NATION, [.NUMBER, .MIXED]⟩],
  [⟨.NUMBER, .HOUSE, [.BUILDT, .PLACEN, .ORD, .MIXED]⟩,
    ⟨.DIRECT, .PREDIR, [.TYPE, .QUALIF, .UNITT, .BUILDT, .PLACEN, .ORD, .NUMBER, .MIXED]⟩,
    ⟨.WORD, .STREET, [.DOUBLE, .SINGLE, .TYPE, .ROAD, .DIRECT, .CITY, .QUALIF, .BUILDT, .PLACEN, .ORD, .NUMBER, .MIXED, .AMPERS]⟩,
    ⟨.TYPE, .SUFTYP, [.WORD, .DIRECT, .CITY, .NATION, .QUALIF, .BUILDT, .PLACEN, .MIXED, .AMPERS]⟩,
    ⟨.WORD, .CITY, [.CITY, .NATION, .QUALIF, .ORD, .NUMBER, .MIXED]⟩, ⟨.PROV, .PROV, [.CITY, .NATION, .QUALIF, .MIXED]⟩],
  [⟨.NUMBER, .HOUSE, [.UNITT, .BUILDT, .PLACEN, .ORD, .MIXED]⟩,
    ⟨.ORD, .STREET, [.TYPE, .ROAD, .DIRECT, .QUALIF, .UNITT, .BUILDT, .PLACEN, .NUMBER, .MIXED]⟩,
    ⟨.TYPE, .SUFTYP, [.ROAD, .DIRECT, .CITY, .QUALIF, .BUILDT, .PLACEN, .ORD, .NUMBER, .MIXED, .AMPERS]⟩,
    ⟨.WORD, .CITY, [.TYPE, .DIRECT, .PROV, .CITY, .NATION, .QUALIF, .PLACEN, .ORD, .NUMBER, .MIXED, .AMPERS]⟩,
    ⟨.PROV, .PROV, [.WORD, .NATION, .MIXED]⟩],
  [⟨.BOXH, .BOXH, [.NUMBER, .MIXED]⟩, ⟨.NUMBER, .BOXT, []⟩, ⟨.WORD, .CITY, [.CITY]⟩, ⟨.PROV, .PROV, [.NATION]⟩],
  [⟨.NUMBER, .HOUSE, [.MIXED]⟩, ⟨.WORD, .STREET, [.DOUBLE, .SINGLE, .ORD, .NUMBER, .MIXED]⟩, ⟨.WORD, .CITY, [.CITY, .MIXED]⟩,
    ⟨.PROV, .PROV, [.NATION]⟩],
  [⟨.NUMBER, .HOUSE, [.BUILDT, .PLACEN, .MIXED]⟩,
    ⟨.WORD, .STREET, [.SINGLE, .TYPE, .ROAD, .DIRECT, .PROV, .QUALIF, .PLACEN, .ORD, .NUMBER, .MIXED]⟩,
    ⟨.WORD, .STREET, [.TYPE, .DIRECT, .QUALIF, .PLACEN, .NUMBER, .MIXED, .AMPERS]⟩,
    ⟨.TYPE, .SUFTYP, [.DIRECT, .QUALIF, .BUILDT, .PLACEN, .NUMBER, .MIXED]⟩, ⟨.WORD, .CITY, [.CITY, .QUALIF, .NUMBER, .MIXED]⟩,
    ⟨.PROV, .PROV, [.NATION, .MIXED]⟩],
  [⟨.NUMBER, .HOUSE, [.BUILDT, .PLACEN, .MIXED]⟩, ⟨.TYPE, .PRETYP, [.ROAD, .DIRECT, .PROV, .QUALIF, .PLACEN, .ORD, .NUMBER, .MIXED]⟩,
    ⟨.WORD, .STREET, [.DOUBLE, .SINGLE, .TYPE, .DIRECT, .CITY, .QUALIF, .PLACEN, .ORD, .NUMBER, .MIXED, .AMPERS]⟩,
    ⟨.WORD, .CITY, [.DIRECT, .CITY, .QUALIF, .ORD, .NUMBER, .MIXED, .AMPERS]⟩, ⟨.PROV, .PROV, [.NATION, .NUMBER, .MIXED]⟩],
  [⟨.NUMBER, .HOUSE, [.UNITT, .BUILDT, .PLACEN, .ORD, .MIXED]⟩,
    ⟨.WORD, .STREET, [.DOUBLE, .SINGLE, .TYPE, .ROAD, .DIRECT, .PROV, .QUALIF, .UNITT, .BUILDT, .PLACEN, .ORD, .NUMBER, .MIXED, .DASH]⟩,
    ⟨.TYPE, .SUFTYP, [.DIRECT, .CITY, .QUALIF, .BUILDT, .PLACEN, .AMPERS]⟩,
    ⟨.WORD, .CITY, [.DIRECT, .CITY, .QUALIF, .BUILDT, .PLACEN, .MIXED]⟩,
    ⟨.PROV, .PROV, [.DIRECT, .CITY, .NATION, .QUALIF, .BUILDT, .PLACEN, .MIXED]⟩,
    ⟨.MIXED, .POSTAL, [.TYPE, .DIRECT, .PROV, .CITY, .NATION, .QUALIF]⟩, ⟨.MIXED, .POSTAL, [.PROV, .NATION]⟩],
  [⟨.NUMBER, .HOUSE, [.BUILDT, .PLACEN, .ORD, .MIXED]⟩,
    ⟨.WORD, .STREET, [.DOUBLE, .SINGLE, .TYPE, .ROAD, .DIRECT, .PROV, .QUALIF, .BUILDT, .PLACEN, .ORD, .NUMBER, .MIXED]⟩,
    ⟨.TYPE, .SUFTYP, [.DIRECT, .CITY, .QUALIF, .BUILDT, .PLACEN, .NUMBER, .MIXED, .AMPERS]⟩,
    ⟨.CITY, .CITY, [.TYPE, .DIRECT, .QUALIF, .BUILDT, .PLACEN, .MIXED]⟩,
    ⟨.PROV, .PROV, [.DIRECT, .CITY, .NATION, .QUALIF, .BUILDT, .PLACEN, .MIXED]⟩,
    ⟨.MIXED, .POSTAL, [.TYPE, .DIRECT, .PROV, .CITY, .NATION, .QUALIF]⟩, ⟨.MIXED, .POSTAL, [.PROV, .NATION]⟩],
  [⟨.NUMBER, .HOUSE, [.BUILDT, .PLACEN, .ORD, .MIXED]⟩,
    ⟨.WORD, .STREET, [.DOUBLE, .SINGLE, .TYPE, .ROAD, .DIRECT, .PROV, .QUALIF, .UNITT, .BUILDT, .PLACEN, .ORD, .NUMBER, .MIXED]⟩,
    ⟨.TYPE, .SUFTYP, [.DIRECT, .CITY, .QUALIF, .BUILDT, .PLACEN, .NUMBER, .MIXED, .AMPERS]⟩,
    ⟨.WORD, .CITY, [.TYPE, .DIRECT, .PROV, .CITY, .QUALIF, .BUILDT, .PLACEN, .MIXED]⟩,
    ⟨.WORD, .CITY, [.TYPE, .DIRECT, .PROV, .CITY, .NATION, .QUALIF, .BUILDT, .PLACEN, .MIXED]⟩,
    ⟨.PROV, .PROV, [.TYPE, .DIRECT, .CITY, .NATION, .QUALIF, .MIXED]⟩, ⟨.MIXED, .POSTAL, [.DIRECT, .PROV, .CITY, .NATION, .QUALIF]⟩,
    ⟨.MIXED, .POSTAL, [.PROV, .NATION]⟩],
  [⟨.NUMBER, .HOUSE, [.UNITT, .BUILDT, .PLACEN, .ORD, .MIXED]⟩,
    ⟨.WORD, .STREET, [.DOUBLE, .SINGLE, .TYPE, .ROAD, .DIRECT, .PROV, .QUALIF, .UNITT, .BUILDT, .PLACEN, .ORD, .NUMBER, .MIXED, .DASH]⟩,
    ⟨.TYPE, .SUFTYP, [.DIRECT, .CITY, .QUALIF, .BUILDT, .PLACEN, .AMPERS]⟩,
    ⟨.WORD, .CITY, [.TYPE, .DIRECT, .PROV, .CITY, .NATION, .QUALIF, .BUILDT, .PLACEN, .MIXED]⟩,
    ⟨.PROV, .PROV, [.TYPE, .DIRECT, .CITY, .NATION, .QUALIF, .BUILDT, .PLACEN, .MIXED]⟩,
    ⟨.MIXED, .POSTAL, [.TYPE, .DIRECT, .PROV, .CITY, .NATION, .QUALIF]⟩,
    ⟨.MIXED, .POSTAL, [.TYPE, .DIRECT, .PROV, .CITY, .NATION, .QUALIF]⟩, ⟨.NATION, .NATION, [.PROV, .MIXED]⟩],
  [⟨.NUMBER, .HOUSE, [.UNITT, .BUILDT, .PLACEN, .ORD, .MIXED]⟩,
    ⟨.DIRECT, .PREDIR, [.TYPE, .ROAD, .QUALIF, .UNITT, .BUILDT, .PLACEN, .ORD, .NUMBER, .MIXED]⟩,
    ⟨.WORD, .STREET, [.DOUBLE, .SINGLE, .TYPE, .ROAD, .DIRECT, .PROV, .CITY, .QUALIF, .BUILDT, .PLACEN, .ORD, .NUMBER, .MIXED, .AMPERS]⟩,
    ⟨.TYPE, .SUFTYP, [.WORD, .DIRECT, .PROV, .CITY, .QUALIF, .BUILDT, .PLACEN, .MIXED, .AMPERS]⟩,
    ⟨.WORD, .CITY, [.DIRECT, .CITY, .QUALIF]⟩, ⟨.PROV, .PROV, [.MIXED]⟩, ⟨.MIXED, .POSTAL, [.PROV, .NATION]⟩,
    ⟨.MIXED, .POSTAL, [.NATION]⟩],
  [⟨.NUMBER, .HOUSE, [.BUILDT, .PLACEN, .MIXED]⟩,
    ⟨.ORD, .STREET, [.TYPE, .ROAD, .DIRECT, .QUALIF, .BUILDT, .PLACEN, .NUMBER, .MIXED]⟩,
    ⟨.TYPE, .SUFTYP, [.WORD, .ROAD, .DIRECT, .PROV, .CITY, .QUALIF, .BUILDT, .PLACEN, .ORD, .NUMBER, .MIXED, .AMPERS]⟩,
    ⟨.WORD, .CITY, [.DIRECT, .CITY, .QUALIF, .ORD, .NUMBER, .MIXED, .AMPERS]⟩,
    ⟨.PROV, .PROV, [.WORD, .TYPE, .DIRECT, .CITY, .NATION, .QUALIF, .MIXED, .AMPERS]⟩, ⟨.MIXED, .POSTAL, [.NATION]⟩,
    ⟨.MIXED, .POSTAL, [.NATION]⟩],
  [⟨.BOXH, .BOXH, [.NUMBER, .MIXED]⟩, ⟨.NUMBER, .BOXT, []⟩, ⟨.WORD, .CITY, [.DIRECT, .CITY, .NUMBER, .MIXED]⟩,
    ⟨.PROV, .PROV, [.NUMBER, .MIXED]⟩, ⟨.MIXED, .POSTAL, []⟩, ⟨.MIXED, .POSTAL, [.NATION]⟩],
  [⟨.NUMBER, .HOUSE, [.PLACEN, .MIXED]⟩,
    ⟨.WORD, .STREET, [.DOUBLE, .SINGLE, .TYPE, .ROAD, .DIRECT, .PROV, .QUALIF, .ORD, .NUMBER, .MIXED]⟩,
    ⟨.WORD, .CITY, [.DIRECT, .CITY, .QUALIF, .PLACEN, .ORD, .NUMBER, .MIXED, .AMPERS]⟩,
    ⟨.PROV, .PROV, [.DIRECT, .CITY, .QUALIF, .PLACEN, .NUMBER, .MIXED]⟩, ⟨.MIXED, .POSTAL, [.PROV, .CITY, .NUMBER]⟩,
    ⟨.MIXED, .POSTAL, [.NATION, .NUMBER]⟩],
  [⟨.NUMBER, .HOUSE, [.MIXED]⟩, ⟨.WORD, .STREET, [.SINGLE, .TYPE, .DIRECT, .PROV, .QUALIF, .PLACEN, .ORD, .NUMBER, .MIXED]⟩,
    ⟨.WORD, .STREET, [.PLACEN, .ORD, .NUMBER, .MIXED]⟩,
    ⟨.TYPE, .SUFTYP, [.WORD, .DIRECT, .CITY, .QUALIF, .PLACEN, .ORD, .NUMBER, .MIXED, .AMPERS]⟩,
    ⟨.WORD, .CITY, [.DIRECT, .CITY, .QUALIF, .NUMBER, .MIXED]⟩, ⟨.PROV, .PROV, [.NUMBER, .MIXED]⟩, ⟨.MIXED, .POSTAL, []⟩,
    ⟨.MIXED, .POSTAL, [.NATION]⟩],
  [⟨.NUMBER, .HOUSE, [.UNITT, .BUILDT, .PLACEN, .ORD, .MIXED]⟩,
    ⟨.TYPE, .PRETYP, [.ROAD, .DIRECT, .QUALIF, .UNITT, .BUILDT, .PLACEN, .ORD, .NUMBER, .MIXED]⟩,
    ⟨.WORD, .STREET, [.DOUBLE, .SINGLE, .TYPE, .ROAD, .DIRECT, .PROV, .CITY, .QUALIF, .BUILDT, .PLACEN, .ORD, .NUMBER, .MIXED, .AMPERS]⟩,
    ⟨.WORD, .CITY, [.DIRECT, .PROV, .CITY, .QUALIF, .BUILDT, .PLACEN, .MIXED]⟩,
    ⟨.PROV, .PROV, [.WORD, .TYPE, .DIRECT, .CITY, .QUALIF, .BUILDT, .PLACEN, .MIXED]⟩, ⟨.MIXED, .POSTAL, [.NATION]⟩,
    ⟨.MIXED, .POSTAL, [.NATION]⟩],
  [⟨.NUMBER, .HOUSE, [.PLACEN, .ORD, .MIXED]⟩,
    ⟨.WORD, .STREET, [.DOUBLE, .SINGLE, .TYPE, .ROAD, .DIRECT, .PROV, .QUALIF, .ORD, .NUMBER, .MIXED]⟩,
    ⟨.TYPE, .SUFTYP, [.DIRECT, .QUALIF, .ORD, .NUMBER, .MIXED, .AMPERS]⟩,
    ⟨.WORD, .CITY, [.DIRECT, .PROV, .CITY, .QUALIF, .NUMBER, .MIXED]⟩, ⟨.MIXED, .POSTAL, [.PROV, .CITY, .NUMBER]⟩,
    ⟨.MIXED, .POSTAL, [.PROV, .NATION, .NUMBER]⟩],
  [⟨.NUMBER, .HOUSE, [.BUILDT, .PLACEN, .ORD, .MIXED]⟩,
    ⟨.WORD, .STREET, [.DOUBLE, .SINGLE, .TYPE, .ROAD, .DIRECT, .PROV, .QUALIF, .UNITT, .BUILDT, .PLACEN, .ORD, .NUMBER, .MIXED]⟩,
    ⟨.TYPE, .SUFTYP, [.DIRECT, .CITY, .QUALIF, .BUILDT, .PLACEN, .NUMBER, .MIXED, .AMPERS]⟩,
    ⟨.CITY, .CITY, [.PROV, .QUALIF, .BUILDT, .PLACEN, .MIXED]⟩, ⟨.MIXED, .POSTAL, [.PROV, .CITY, .NATION, .QUALIF]⟩,
    ⟨.MIXED, .POSTAL, [.PROV, .CITY, .NATION, .QUALIF]⟩],
  [⟨.NUMBER, .HOUSE, [.BUILDT, .PLACEN, .MIXED]⟩,
    ⟨.WORD, .STREET, [.DOUBLE, .SINGLE, .TYPE, .ROAD, .DIRECT, .PROV, .QUALIF, .BUILDT, .PLACEN, .ORD, .NUMBER, .MIXED]⟩,
    ⟨.TYPE, .SUFTYP, [.DIRECT, .QUALIF, .BUILDT, .PLACEN, .NUMBER, .MIXED, .AMPERS]⟩,
    ⟨.WORD, .CITY, [.DIRECT, .CITY, .QUALIF, .BUILDT, .PLACEN, .MIXED]⟩,
    ⟨.WORD, .CITY, [.DIRECT, .PROV, .CITY, .NATION, .QUALIF, .BUILDT, .PLACEN, .MIXED]⟩,
    ⟨.MIXED, .POSTAL, [.DIRECT, .PROV, .CITY, .NATION, .QUALIF]⟩, ⟨.MIXED, .POSTAL, [.PROV, .NATION]⟩],
  [⟨.NUMBER, .HOUSE, [.UNITT, .BUILDT, .PLACEN, .ORD, .MIXED]⟩,
    ⟨.WORD, .STREET, [.DOUBLE, .SINGLE, .TYPE, .ROAD, .DIRECT, .PROV, .QUALIF, .UNITT, .BUILDT, .PLACEN, .ORD, .NUMBER, .MIXED, .DASH]⟩,
    ⟨.TYPE, .SUFTYP, [.DIRECT, .CITY, .QUALIF, .BUILDT, .PLACEN, .AMPERS]⟩,
    ⟨.WORD, .CITY, [.DIRECT, .PROV, .CITY, .QUALIF, .BUILDT, .PLACEN, .MIXED]⟩,
    ⟨.MIXED, .POSTAL, [.DIRECT, .PROV, .CITY, .QUALIF, .BUILDT, .PLACEN]⟩,
    ⟨.MIXED, .POSTAL, [.DIRECT, .PROV, .CITY, .NATION, .QUALIF]⟩, ⟨.NATION, .NATION, [.MIXED]⟩],
  [⟨.NUMBER, .HOUSE, [.BUILDT, .PLACEN, .ORD, .MIXED]⟩,
    ⟨.DIRECT, .PREDIR, [.TYPE, .QUALIF, .UNITT, .BUILDT, .PLACEN, .ORD, .NUMBER, .MIXED]⟩,
    ⟨.WORD, .STREET, [.DOUBLE, .SINGLE, .TYPE, .ROAD, .DIRECT, .PROV, .QUALIF, .BUILDT, .PLACEN, .ORD, .NUMBER, .MIXED, .AMPERS]⟩,
    ⟨.TYPE, .SUFTYP, [.WORD, .DIRECT, .CITY, .QUALIF, .BUILDT, .PLACEN, .MIXED, .AMPERS]⟩,
    ⟨.WORD, .CITY, [.DIRECT, .CITY, .NATION, .QUALIF, .MIXED]⟩, ⟨.MIXED, .POSTAL, [.PROV, .NATION]⟩,
    ⟨.MIXED, .POSTAL, [.PROV, .NATION]⟩],
  [⟨.NUMBER, .HOUSE, [.BUILDT, .PLACEN, .MIXED]⟩, ⟨.ORD, .STREET, [.ROAD, .DIRECT, .QUALIF, .BUILDT, .PLACEN, .NUMBER, .MIXED]⟩,
    ⟨.TYPE, .SUFTYP, [.WORD, .ROAD, .DIRECT, .PROV, .CITY, .QUALIF, .PLACEN, .ORD, .NUMBER, .MIXED, .AMPERS]⟩,
    ⟨.WORD, .CITY, [.TYPE, .DIRECT, .CITY, .QUALIF, .ORD, .NUMBER, .MIXED, .AMPERS]⟩,
    ⟨.MIXED, .POSTAL, [.WORD, .TYPE, .DIRECT, .PROV, .CITY, .NATION, .QUALIF, .NUMBER, .AMPERS]⟩, ⟨.MIXED, .POSTAL, [.NATION]⟩],
  [⟨.BOXH, .BOXH, [.NUMBER, .MIXED]⟩, ⟨.NUMBER, .BOXT, []⟩, ⟨.WORD, .CITY, [.DIRECT, .CITY, .NUMBER, .MIXED]⟩,
    ⟨.MIXED, .POSTAL, [.PROV]⟩, ⟨.MIXED, .POSTAL, [.PROV, .NATION]⟩],
  [⟨.NUMBER, .HOUSE, [.MIXED]⟩, ⟨.WORD, .STREET, [.DOUBLE, .SINGLE, .TYPE, .ROAD, .DIRECT, .QUALIF, .ORD, .NUMBER, .MIXED]⟩,
    ⟨.WORD, .CITY, [.TYPE, .DIRECT, .CITY, .QUALIF, .NUMBER, .MIXED]⟩, ⟨.MIXED, .POSTAL, [.PROV, .CITY]⟩,
    ⟨.MIXED, .POSTAL, [.PROV, .NATION]⟩],
  [⟨.NUMBER, .HOUSE, [.BUILDT, .PLACEN, .ORD, .MIXED]⟩,
    ⟨.WORD, .STREET, [.SINGLE, .TYPE, .ROAD, .DIRECT, .PROV, .QUALIF, .UNITT, .BUILDT, .PLACEN, .ORD, .NUMBER, .MIXED]⟩,
    ⟨.WORD, .STREET, [.TYPE, .DIRECT, .CITY, .QUALIF, .BUILDT, .PLACEN, .NUMBER, .MIXED, .AMPERS]⟩,
    ⟨.TYPE, .SUFTYP, [.DIRECT, .QUALIF, .BUILDT, .PLACEN, .MIXED]⟩,
    ⟨.WORD, .CITY, [.DIRECT, .PROV, .CITY, .NATION, .QUALIF, .BUILDT, .PLACEN, .MIXED]⟩,
    ⟨.MIXED, .POSTAL, [.DIRECT, .PROV, .CITY, .NATION, .QUALIF]⟩, ⟨.MIXED, .POSTAL, [.PROV, .NATION]⟩],
  [⟨.NUMBER, .HOUSE, [.BUILDT, .PLACEN, .MIXED]⟩,
    ⟨.TYPE, .PRETYP, [.ROAD, .DIRECT, .QUALIF, .BUILDT, .PLACEN, .ORD, .NUMBER, .MIXED]⟩,
    ⟨.WORD, .STREET, [.DOUBLE, .SINGLE, .TYPE, .ROAD, .DIRECT, .PROV, .CITY, .QUALIF, .BUILDT, .PLACEN, .ORD, .NUMBER, .MIXED, .AMPERS]⟩,
    ⟨.WORD, .CITY, [.DIRECT, .PROV, .CITY, .QUALIF, .BUILDT, .PLACEN, .MIXED]⟩,
    ⟨.MIXED, .POSTAL, [.WORD, .DIRECT, .PROV, .CITY, .QUALIF]⟩, ⟨.MIXED, .POSTAL, [.NATION]⟩]]

def ireland : List Form := [
  [⟨.NUMBER, .HOUSE, [.MIXED]⟩, ⟨.WORD, .STREET, [.DOUBLE, .SINGLE, .TYPE, .ROAD, .DIRECT, .QUALIF, .ORD, .NUMBER, .MIXED]⟩,
    ⟨.TYPE, .SUFTYP, [.DIRECT, .CITY, .QUALIF]⟩, ⟨.WORD, .CITY, [.PROV, .CITY, .NATION, .MIXED]⟩],
  [⟨.NUMBER, .HOUSE, [.MIXED]⟩, ⟨.WORD, .STREET, [.DOUBLE, .SINGLE, .TYPE, .ROAD, .DIRECT, .QUALIF, .ORD, .NUMBER, .MIXED]⟩,
    ⟨.TYPE, .SUFTYP, [.DIRECT, .CITY, .QUALIF]⟩, ⟨.CITY, .CITY, []⟩],
  [⟨.NUMBER, .HOUSE, [.MIXED]⟩, ⟨.WORD, .STREET, [.DOUBLE, .SINGLE, .TYPE, .ROAD, .DIRECT, .PROV, .QUALIF, .ORD, .NUMBER, .MIXED]⟩,
    ⟨.TYPE, .SUFTYP, [.DIRECT, .CITY, .QUALIF, .NUMBER, .MIXED, .AMPERS]⟩, ⟨.WORD, .CITY, [.DIRECT, .CITY, .QUALIF]⟩,
    ⟨.WORD, .CITY, [.PROV, .CITY, .NATION, .NUMBER, .MIXED]⟩],
  [⟨.NUMBER, .HOUSE, [.MIXED]⟩, ⟨.WORD, .STREET, [.DOUBLE, .SINGLE, .TYPE, .ROAD, .DIRECT, .QUALIF, .ORD, .NUMBER, .MIXED]⟩,
    ⟨.TYPE, .SUFTYP, [.DIRECT, .CITY, .QUALIF, .NUMBER, .MIXED, .AMPERS]⟩,
    ⟨.WORD, .CITY, [.DIRECT, .PROV, .CITY, .QUALIF, .ORD, .NUMBER, .MIXED]⟩, ⟨.NATION, .NATION, [.PROV, .CITY]⟩],
  [⟨.NUMBER, .HOUSE, [.MIXED]⟩, ⟨.DIRECT, .PREDIR, [.WORD, .TYPE, .QUALIF, .ORD, .NUMBER, .MIXED]⟩,
    ⟨.WORD, .STREET, [.DOUBLE, .SINGLE, .TYPE, .ROAD, .DIRECT, .CITY, .QUALIF, .ORD, .NUMBER, .MIXED]⟩,
    ⟨.TYPE, .SUFTYP, [.WORD, .DIRECT, .CITY, .QUALIF, .NUMBER]⟩, ⟨.WORD, .CITY, [.CITY, .NATION, .MIXED]⟩],
  [⟨.NUMBER, .HOUSE, [.UNITT, .ORD, .MIXED]⟩, ⟨.ORD, .STREET, [.TYPE, .ROAD, .DIRECT, .QUALIF, .UNITT, .NUMBER, .MIXED]⟩,
    ⟨.TYPE, .SUFTYP, [.DIRECT, .CITY, .QUALIF, .ORD, .NUMBER, .MIXED, .AMPERS]⟩,
    ⟨.WORD, .CITY, [.PROV, .CITY, .NATION, .PLACEN, .NUMBER, .MIXED]⟩],
  [⟨.BOXH, .BOXH, []⟩, ⟨.NUMBER, .BOXT, []⟩, ⟨.WORD, .CITY, [.CITY]⟩],
  [⟨.NUMBER, .HOUSE, [.MIXED]⟩, ⟨.WORD, .STREET, [.DOUBLE, .SINGLE, .ORD, .NUMBER, .MIXED]⟩, ⟨.WORD, .CITY, [.CITY]⟩],
  [⟨.NUMBER, .HOUSE, [.ORD, .MIXED]⟩, ⟨.WORD, .STREET, [.SINGLE, .TYPE, .DIRECT, .PROV, .QUALIF, .UNITT, .ORD, .NUMBER, .MIXED]⟩,
    ⟨.WORD, .STREET, [.DIRECT, .CITY, .QUALIF, .ORD, .NUMBER, .MIXED]⟩,
    ⟨.TYPE, .SUFTYP, [.WORD, .DIRECT, .CITY, .NATION, .QUALIF, .NUMBER, .MIXED, .AMPERS]⟩, ⟨.WORD, .CITY, [.CITY, .NATION, .MIXED]⟩],
  [⟨.NUMBER, .HOUSE, [.MIXED]⟩, ⟨.TYPE, .PRETYP, [.ROAD, .DIRECT, .QUALIF, .NUMBER]⟩,
    ⟨.WORD, .STREET, [.DOUBLE, .SINGLE, .TYPE, .DIRECT, .CITY, .QUALIF, .ORD, .NUMBER, .MIXED]⟩,
    ⟨.WORD, .CITY, [.PROV, .CITY, .NATION, .NUMBER, .MIXED]⟩],
  [⟨.NUMBER, .HOUSE, [.MIXED]⟩, ⟨.WORD, .STREET, [.DOUBLE, .SINGLE, .TYPE, .ROAD, .DIRECT, .QUALIF, .ORD, .NUMBER, .MIXED]⟩,
    ⟨.TYPE, .SUFTYP, [.DIRECT, .CITY, .QUALIF, .NUMBER, .MIXED, .AMPERS]⟩,
    ⟨.WORD, .CITY, [.DIRECT, .CITY, .QUALIF, .ORD, .NUMBER, .MIXED]⟩, ⟨.PROV, .PROV, [.CITY, .NATION, .MIXED]⟩],
  [⟨.NUMBER, .HOUSE, [.MIXED]⟩, ⟨.WORD, .STREET, [.DOUBLE, .SINGLE, .TYPE, .ROAD, .DIRECT, .PROV, .QUALIF, .ORD, .NUMBER, .MIXED]⟩,
    ⟨.TYPE, .SUFTYP, [.DIRECT, .CITY, .QUALIF, .NUMBER, .MIXED, .AMPERS]⟩, ⟨.CITY, .CITY, [.DIRECT, .QUALIF, .MIXED]⟩,
    ⟨.PROV, .PROV, [.CITY, .NATION, .MIXED]⟩],
  [⟨.NUMBER, .HOUSE, [.MIXED]⟩, ⟨.WORD, .STREET, [.DOUBLE, .SINGLE, .TYPE, .ROAD, .DIRECT, .PROV, .QUALIF, .ORD, .NUMBER, .MIXED]⟩,
    ⟨.TYPE, .SUFTYP, [.WORD, .DIRECT, .CITY, .QUALIF, .NUMBER, .MIXED, .AMPERS]⟩, ⟨.WORD, .CITY, [.DIRECT, .CITY, .QUALIF]⟩,
    ⟨.WORD, .CITY, [.CITY, .NUMBER]⟩, ⟨.PROV, .PROV, [.CITY, .NATION, .MIXED]⟩],
  [⟨.NUMBER, .HOUSE, [.MIXED]⟩, ⟨.WORD, .STREET, [.DOUBLE, .SINGLE, .TYPE, .ROAD, .DIRECT, .PROV, .QUALIF, .ORD, .NUMBER, .MIXED]⟩,
    ⟨.TYPE, .SUFTYP, [.WORD, .DIRECT, .CITY, .QUALIF, .NUMBER, .MIXED, .AMPERS]⟩, ⟨.WORD, .CITY, [.DIRECT, .CITY, .QUALIF]⟩,
    ⟨.PROV, .PROV, [.CITY]⟩, ⟨.NATION, .NATION, []⟩],
  [⟨.NUMBER, .HOUSE, [.MIXED]⟩, ⟨.DIRECT, .PREDIR, [.SINGLE, .WORD, .TYPE, .QUALIF, .ORD, .NUMBER, .MIXED]⟩,
    ⟨.WORD, .STREET, [.DOUBLE, .SINGLE, .TYPE, .ROAD, .CITY, .QUALIF, .ORD, .NUMBER, .MIXED]⟩,
    ⟨.TYPE, .SUFTYP, [.WORD, .DIRECT, .CITY, .QUALIF, .NUMBER, .AMPERS]⟩,
    ⟨.WORD, .CITY, [.DIRECT, .CITY, .QUALIF, .ORD, .NUMBER, .MIXED]⟩, ⟨.PROV, .PROV, [.CITY, .NATION]⟩],
  [⟨.NUMBER, .HOUSE, [.MIXED]⟩, ⟨.ORD, .STREET, [.SINGLE, .TYPE, .ROAD, .DIRECT, .QUALIF, .NUMBER, .MIXED]⟩,
    ⟨.TYPE, .SUFTYP, [.WORD, .DIRECT, .CITY, .QUALIF, .NUMBER, .MIXED, .AMPERS]⟩,
    ⟨.WORD, .CITY, [.DIRECT, .CITY, .QUALIF, .NUMBER, .MIXED]⟩, ⟨.PROV, .PROV, [.CITY, .NATION, .NUMBER, .MIXED]⟩],
  [⟨.BOXH, .BOXH, [.NUMBER, .MIXED]⟩, ⟨.NUMBER, .BOXT, []⟩, ⟨.WORD, .CITY, [.DIRECT, .CITY]⟩, ⟨.PROV, .PROV, [.CITY, .NATION]⟩],
  [⟨.NUMBER, .HOUSE, [.MIXED]⟩, ⟨.WORD, .STREET, [.DOUBLE, .SINGLE, .TYPE, .ROAD, .DIRECT, .QUALIF, .ORD, .NUMBER, .MIXED]⟩,
    ⟨.WORD, .CITY, [.CITY, .QUALIF]⟩, ⟨.PROV, .PROV, [.CITY, .NATION]⟩],
  [⟨.NUMBER, .HOUSE, [.MIXED]⟩, ⟨.WORD, .STREET, [.SINGLE, .TYPE, .ROAD, .DIRECT, .PROV, .QUALIF, .ORD, .NUMBER, .MIXED]⟩,
    ⟨.WORD, .STREET, [.TYPE, .DIRECT, .CITY, .QUALIF, .NUMBER, .MIXED]⟩, ⟨.TYPE, .SUFTYP, [.WORD, .DIRECT, .CITY, .QUALIF, .NUMBER]⟩,
    ⟨.WORD, .CITY, [.CITY, .QUALIF, .MIXED]⟩, ⟨.PROV, .PROV, [.CITY, .NATION]⟩],
  [⟨.NUMBER, .HOUSE, [.ORD, .MIXED]⟩, ⟨.TYPE, .PRETYP, [.SINGLE, .ROAD, .DIRECT, .PROV, .QUALIF, .UNITT, .ORD, .NUMBER, .MIXED]⟩,
    ⟨.WORD, .STREET, [.DOUBLE, .SINGLE, .TYPE, .DIRECT, .CITY, .QUALIF, .ORD, .NUMBER, .MIXED, .AMPERS]⟩,
    ⟨.WORD, .CITY, [.TYPE, .DIRECT, .PROV, .CITY, .NATION, .QUALIF, .NUMBER, .MIXED]⟩,
    ⟨.PROV, .PROV, [.WORD, .CITY, .NATION, .NUMBER, .MIXED]⟩],
  [⟨.NUMBER, .HOUSE, [.UNITT, .ORD, .MIXED]⟩,
    ⟨.WORD, .STREET, [.DOUBLE, .SINGLE, .TYPE, .ROAD, .DIRECT, .PROV, .QUALIF, .UNITT, .ORD, .NUMBER, .MIXED, .DASH]⟩,
    ⟨.TYPE, .SUFTYP, [.WORD, .DIRECT, .CITY, .QUALIF, .AMPERS]⟩, ⟨.WORD, .CITY, [.DIRECT, .CITY, .QUALIF]⟩,
    ⟨.PROV, .PROV, [.CITY, .NUMBER, .MIXED]⟩, ⟨.MIXED, .POSTAL, [.PROV, .CITY, .NUMBER]⟩,
    ⟨.MIXED, .POSTAL, [.WORD, .PROV, .CITY, .NATION, .NUMBER]⟩],
  [⟨.NUMBER, .HOUSE, [.MIXED]⟩, ⟨.WORD, .STREET, [.DOUBLE, .SINGLE, .TYPE, .ROAD, .DIRECT, .PROV, .QUALIF, .ORD, .NUMBER, .MIXED]⟩,
    ⟨.TYPE, .SUFTYP, [.WORD, .DIRECT, .CITY, .QUALIF, .NUMBER, .MIXED, .AMPERS]⟩, ⟨.CITY, .CITY, [.DIRECT, .QUALIF]⟩,
    ⟨.PROV, .PROV, [.CITY, .NUMBER, .MIXED]⟩, ⟨.MIXED, .POSTAL, [.WORD, .DIRECT, .PROV, .CITY, .NATION, .NUMBER]⟩,
    ⟨.MIXED, .POSTAL, [.NATION]⟩],
  [⟨.NUMBER, .HOUSE, [.MIXED]⟩, ⟨.WORD, .STREET, [.DOUBLE, .SINGLE, .TYPE, .ROAD, .DIRECT, .PROV, .QUALIF, .ORD, .NUMBER, .MIXED]⟩,
    ⟨.TYPE, .SUFTYP, [.WORD, .DIRECT, .CITY, .QUALIF, .NUMBER, .MIXED, .AMPERS]⟩, ⟨.WORD, .CITY, [.DIRECT, .CITY, .QUALIF]⟩,
    ⟨.WORD, .CITY, [.CITY]⟩, ⟨.PROV, .PROV, [.WORD, .DIRECT, .CITY, .NUMBER, .MIXED]⟩, ⟨.MIXED, .POSTAL, []⟩,
    ⟨.MIXED, .POSTAL, [.NATION]⟩],
  [⟨.NUMBER, .HOUSE, [.MIXED]⟩, ⟨.WORD, .STREET, [.DOUBLE, .SINGLE, .TYPE, .ROAD, .DIRECT, .PROV, .QUALIF, .ORD, .NUMBER, .MIXED]⟩,
    ⟨.TYPE, .SUFTYP, [.WORD, .DIRECT, .CITY, .QUALIF, .NUMBER, .MIXED, .AMPERS]⟩, ⟨.WORD, .CITY, [.DIRECT, .CITY, .QUALIF]⟩,
    ⟨.PROV, .PROV, [.CITY, .NUMBER]⟩, ⟨.MIXED, .POSTAL, [.WORD, .DIRECT, .CITY, .NUMBER]⟩, ⟨.MIXED, .POSTAL, []⟩,
    ⟨.NATION, .NATION, []⟩],
  [⟨.NUMBER, .HOUSE, [.UNITT, .ORD, .MIXED]⟩, ⟨.DIRECT, .PREDIR, [.SINGLE, .WORD, .TYPE, .QUALIF, .UNITT, .ORD, .NUMBER, .MIXED]⟩,
    ⟨.WORD, .STREET, [.DOUBLE, .SINGLE, .TYPE, .ROAD, .DIRECT, .PROV, .CITY, .QUALIF, .ORD, .NUMBER, .MIXED]⟩,
    ⟨.TYPE, .SUFTYP, [.WORD, .DIRECT, .PROV, .CITY, .NATION, .QUALIF, .NUMBER, .MIXED, .AMPERS]⟩, ⟨.WORD, .CITY, [.CITY, .QUALIF]⟩,
    ⟨.PROV, .PROV, [.WORD, .DIRECT, .CITY, .NATION, .QUALIF, .NUMBER, .MIXED]⟩, ⟨.MIXED, .POSTAL, [.NATION]⟩,
    ⟨.MIXED, .POSTAL, [.NATION]⟩],
  [⟨.NUMBER, .HOUSE, [.MIXED]⟩, ⟨.ORD, .STREET, [.SINGLE, .WORD, .TYPE, .ROAD, .DIRECT, .PROV, .QUALIF, .NUMBER, .MIXED]⟩,
    ⟨.TYPE, .SUFTYP, [.WORD, .DIRECT, .CITY, .QUALIF, .NUMBER, .MIXED]⟩, ⟨.WORD, .CITY, [.DIRECT, .CITY, .QUALIF]⟩,
    ⟨.PROV, .PROV, [.WORD, .DIRECT, .CITY, .NUMBER]⟩, ⟨.MIXED, .POSTAL, []⟩, ⟨.MIXED, .POSTAL, [.NATION]⟩],
  [⟨.BOXH, .BOXH, [.ORD, .NUMBER, .MIXED]⟩, ⟨.NUMBER, .BOXT, []⟩, ⟨.WORD, .CITY, [.DIRECT, .CITY, .NUMBER, .MIXED]⟩,
    ⟨.PROV, .PROV, [.DIRECT, .CITY, .NUMBER, .MIXED]⟩, ⟨.MIXED, .POSTAL, [.CITY, .NATION, .NUMBER]⟩,
    ⟨.MIXED, .POSTAL, [.PROV, .CITY, .NATION, .NUMBER]⟩],
  [⟨.NUMBER, .HOUSE, [.MIXED]⟩, ⟨.WORD, .STREET, [.DOUBLE, .SINGLE, .TYPE, .ROAD, .DIRECT, .PROV, .QUALIF, .ORD, .NUMBER, .MIXED]⟩,
    ⟨.WORD, .CITY, [.TYPE, .DIRECT, .CITY, .QUALIF, .NUMBER, .MIXED, .AMPERS]⟩,
    ⟨.PROV, .PROV, [.DIRECT, .CITY, .QUALIF, .NUMBER, .MIXED]⟩,
    ⟨.MIXED, .POSTAL, [.WORD, .TYPE, .DIRECT, .PROV, .CITY, .QUALIF, .NUMBER]⟩, ⟨.MIXED, .POSTAL, [.NATION]⟩],
  [⟨.NUMBER, .HOUSE, [.ORD, .MIXED]⟩,
    ⟨.WORD, .STREET, [.DOUBLE, .SINGLE, .TYPE, .ROAD, .DIRECT, .PROV, .QUALIF, .UNITT, .ORD, .NUMBER, .MIXED]⟩,
    ⟨.WORD, .STREET, [.TYPE, .DIRECT, .CITY, .QUALIF, .NUMBER, .MIXED]⟩,
    ⟨.TYPE, .SUFTYP, [.WORD, .DIRECT, .PROV, .CITY, .QUALIF, .NUMBER, .MIXED]⟩, ⟨.WORD, .CITY, [.DIRECT, .CITY, .QUALIF]⟩,
    ⟨.PROV, .PROV, [.CITY, .NUMBER, .MIXED]⟩, ⟨.MIXED, .POSTAL, [.WORD, .DIRECT, .PROV, .CITY, .NATION, .NUMBER]⟩,
    ⟨.MIXED, .POSTAL, [.NATION]⟩],
  [⟨.NUMBER, .HOUSE, [.MIXED]⟩, ⟨.TYPE, .PRETYP, [.DOUBLE, .SINGLE, .WORD, .ROAD, .DIRECT, .PROV, .QUALIF, .ORD, .NUMBER, .MIXED]⟩,
    ⟨.WORD, .STREET, [.DOUBLE, .SINGLE, .ORD, .NUMBER, .MIXED]⟩, ⟨.WORD, .CITY, [.TYPE, .DIRECT, .CITY, .QUALIF, .AMPERS]⟩,
    ⟨.PROV, .PROV, [.DIRECT, .CITY, .QUALIF, .NUMBER, .MIXED]⟩,
    ⟨.MIXED, .POSTAL, [.WORD, .TYPE, .DIRECT, .PROV, .CITY, .QUALIF, .NUMBER]⟩, ⟨.MIXED, .POSTAL, [.NATION]⟩],
  [⟨.NUMBER, .HOUSE, [.MIXED]⟩, ⟨.WORD, .STREET, [.DOUBLE, .SINGLE, .TYPE, .ROAD, .DIRECT, .PROV, .QUALIF, .ORD, .NUMBER, .MIXED]⟩,
    ⟨.TYPE, .SUFTYP, [.WORD, .DIRECT, .CITY, .QUALIF, .NUMBER, .MIXED, .AMPERS]⟩, ⟨.WORD, .CITY, [.DIRECT, .CITY, .QUALIF]⟩,
    ⟨.MIXED, .POSTAL, [.PROV, .CITY]⟩, ⟨.MIXED, .POSTAL, [.PROV, .CITY, .NATION]⟩],
  [⟨.NUMBER, .HOUSE, [.UNITT, .ORD, .MIXED]⟩,
    ⟨.WORD, .STREET, [.DOUBLE, .SINGLE, .TYPE, .ROAD, .DIRECT, .PROV, .QUALIF, .UNITT, .ORD, .NUMBER, .MIXED, .DASH]⟩,
    ⟨.TYPE, .SUFTYP, [.DIRECT, .CITY, .QUALIF]⟩, ⟨.CITY, .CITY, [.WORD, .TYPE, .DIRECT, .NATION, .QUALIF, .NUMBER, .MIXED]⟩,
    ⟨.MIXED, .POSTAL, [.PROV, .CITY, .NATION, .NUMBER]⟩, ⟨.MIXED, .POSTAL, [.WORD, .CITY, .NATION, .NUMBER]⟩],
  [⟨.NUMBER, .HOUSE, [.MIXED]⟩, ⟨.WORD, .STREET, [.DOUBLE, .SINGLE, .TYPE, .ROAD, .DIRECT, .PROV, .QUALIF, .ORD, .NUMBER, .MIXED]⟩,
    ⟨.TYPE, .SUFTYP, [.WORD, .DIRECT, .CITY, .QUALIF, .NUMBER, .MIXED, .AMPERS]⟩, ⟨.WORD, .CITY, [.DIRECT, .CITY, .QUALIF]⟩,
    ⟨.WORD, .CITY, [.PROV, .CITY, .NUMBER, .MIXED]⟩, ⟨.MIXED, .POSTAL, [.PROV, .CITY, .NUMBER]⟩,
    ⟨.MIXED, .POSTAL, [.WORD, .PROV, .CITY, .NATION]⟩],
  [⟨.NUMBER, .HOUSE, [.UNITT, .ORD, .MIXED]⟩,
    ⟨.WORD, .STREET, [.DOUBLE, .SINGLE, .TYPE, .ROAD, .DIRECT, .PROV, .QUALIF, .UNITT, .ORD, .NUMBER, .MIXED, .DASH]⟩,
    ⟨.TYPE, .SUFTYP, [.WORD, .DIRECT, .CITY, .QUALIF, .AMPERS]⟩, ⟨.WORD, .CITY, [.DIRECT, .CITY, .QUALIF]⟩,
    ⟨.MIXED, .POSTAL, [.PROV, .CITY, .NUMBER]⟩, ⟨.MIXED, .POSTAL, [.PROV, .CITY, .NUMBER]⟩,
    ⟨.NATION, .NATION, [.WORD, .CITY, .NUMBER, .MIXED]⟩],
  [⟨.NUMBER, .HOUSE, [.UNITT, .ORD, .MIXED]⟩, ⟨.DIRECT, .PREDIR, [.SINGLE, .WORD, .TYPE, .QUALIF, .UNITT, .ORD, .NUMBER, .MIXED]⟩,
    ⟨.WORD, .STREET, [.DOUBLE, .SINGLE, .TYPE, .ROAD, .DIRECT, .PROV, .CITY, .QUALIF, .ORD, .NUMBER, .MIXED]⟩,
    ⟨.TYPE, .SUFTYP, [.WORD, .DIRECT, .PROV, .CITY, .QUALIF, .NUMBER, .MIXED, .AMPERS]⟩, ⟨.WORD, .CITY, [.DIRECT, .CITY, .QUALIF]⟩,
    ⟨.MIXED, .POSTAL, [.DIRECT, .PROV, .CITY, .NATION, .NUMBER]⟩, ⟨.MIXED, .POSTAL, [.PROV, .CITY, .NATION, .NUMBER]⟩],
  [⟨.NUMBER, .HOUSE, [.MIXED]⟩, ⟨.ORD, .STREET, [.SINGLE, .WORD, .TYPE, .ROAD, .DIRECT, .PROV, .QUALIF, .NUMBER, .MIXED]⟩,
    ⟨.TYPE, .SUFTYP, [.WORD, .DIRECT, .CITY, .QUALIF, .NUMBER, .MIXED]⟩, ⟨.WORD, .CITY, [.DIRECT, .CITY, .QUALIF]⟩,
    ⟨.MIXED, .POSTAL, [.PROV, .CITY]⟩, ⟨.MIXED, .POSTAL, [.WORD, .PROV, .CITY, .NATION, .NUMBER]⟩],
  [⟨.BOXH, .BOXH, [.NUMBER, .MIXED]⟩, ⟨.NUMBER, .BOXT, []⟩, ⟨.WORD, .CITY, [.DIRECT, .CITY, .NUMBER, .MIXED]⟩,
    ⟨.MIXED, .POSTAL, [.PROV, .CITY]⟩, ⟨.MIXED, .POSTAL, [.PROV, .CITY, .NATION]⟩],
  [⟨.NUMBER, .HOUSE, [.MIXED]⟩, ⟨.WORD, .STREET, [.DOUBLE, .SINGLE, .TYPE, .ROAD, .DIRECT, .PROV, .QUALIF, .ORD, .NUMBER, .MIXED]⟩,
    ⟨.WORD, .CITY, [.TYPE, .DIRECT, .CITY, .QUALIF, .NUMBER, .MIXED]⟩, ⟨.MIXED, .POSTAL, [.PROV, .CITY]⟩,
    ⟨.MIXED, .POSTAL, [.PROV, .CITY, .NATION]⟩],
  [⟨.NUMBER, .HOUSE, [.ORD, .MIXED]⟩,
    ⟨.WORD, .STREET, [.SINGLE, .TYPE, .ROAD, .DIRECT, .PROV, .QUALIF, .UNITT, .ORD, .NUMBER, .MIXED]⟩,
    ⟨.WORD, .STREET, [.TYPE, .DIRECT, .CITY, .QUALIF, .NUMBER, .MIXED]⟩,
    ⟨.TYPE, .SUFTYP, [.WORD, .DIRECT, .PROV, .CITY, .QUALIF, .NUMBER, .MIXED]⟩, ⟨.WORD, .CITY, [.DIRECT, .CITY, .QUALIF]⟩,
    ⟨.MIXED, .POSTAL, [.WORD, .PROV, .CITY, .NUMBER]⟩, ⟨.MIXED, .POSTAL, [.CITY, .NATION]⟩],
  [⟨.NUMBER, .HOUSE, [.ORD, .MIXED]⟩, ⟨.TYPE, .PRETYP, [.SINGLE, .WORD, .ROAD, .DIRECT, .PROV, .QUALIF, .ORD, .NUMBER, .MIXED]⟩,
    ⟨.WORD, .STREET, [.DOUBLE, .SINGLE, .TYPE, .DIRECT, .CITY, .QUALIF, .ORD, .NUMBER, .MIXED]⟩,
    ⟨.WORD, .CITY, [.DIRECT, .PROV, .CITY, .QUALIF, .NUMBER, .MIXED]⟩,
    ⟨.MIXED, .POSTAL, [.WORD, .DIRECT, .PROV, .CITY, .NATION, .QUALIF, .NUMBER]⟩, ⟨.MIXED, .POSTAL, [.CITY, .NATION]⟩]]

def italy : List Form := [
  [⟨.WORD, .STREET, [.BOXH]⟩, ⟨.NUMBER, .HOUSE, []⟩, ⟨.QUINT, .POSTAL, []⟩, ⟨.WORD, .CITY, [.CITY]⟩],
  [⟨.WORD, .STREET, [.BOXH]⟩, ⟨.NUMBER, .HOUSE, []⟩, ⟨.QUINT, .POSTAL, []⟩, ⟨.CITY, .CITY, []⟩],
  [⟨.WORD, .STREET, [.TYPE, .BOXH]⟩, ⟨.NUMBER, .HOUSE, [.RR]⟩, ⟨.QUINT, .POSTAL, [.DOUBLE, .SINGLE]⟩, ⟨.WORD, .CITY, [.CITY]⟩,
    ⟨.WORD, .CITY, [.PROV, .CITY, .NATION]⟩],
  [⟨.WORD, .STREET, [.TYPE, .BOXH]⟩, ⟨.NUMBER, .HOUSE, [.RR]⟩, ⟨.QUINT, .POSTAL, []⟩, ⟨.WORD, .CITY, [.CITY]⟩,
    ⟨.NATION, .NATION, [.PROV, .CITY]⟩],
  [⟨.TYPE, .PRETYP, []⟩, ⟨.WORD, .STREET, [.RR, .NUMBER]⟩, ⟨.NUMBER, .HOUSE, []⟩, ⟨.QUINT, .POSTAL, []⟩, ⟨.WORD, .CITY, [.CITY]⟩],
  [⟨.TYPE, .PRETYP, []⟩, ⟨.WORD, .STREET, [.RR, .NUMBER]⟩, ⟨.NUMBER, .HOUSE, []⟩, ⟨.QUINT, .POSTAL, []⟩, ⟨.CITY, .CITY, []⟩],
  [⟨.TYPE, .PRETYP, []⟩, ⟨.WORD, .STREET, [.RR, .NUMBER]⟩, ⟨.NUMBER, .HOUSE, [.RR]⟩, ⟨.QUINT, .POSTAL, [.DOUBLE, .SINGLE]⟩,
    ⟨.WORD, .CITY, [.CITY]⟩, ⟨.WORD, .CITY, [.PROV, .CITY, .NATION]⟩],
  [⟨.TYPE, .PRETYP, []⟩, ⟨.WORD, .STREET, [.RR, .NUMBER]⟩, ⟨.NUMBER, .HOUSE, [.RR]⟩, ⟨.QUINT, .POSTAL, [.DASH, .SLASH]⟩,
    ⟨.WORD, .CITY, [.CITY]⟩, ⟨.NATION, .NATION, [.PROV, .CITY, .NUMBER]⟩],
  [⟨.BOXH, .BOXH, []⟩, ⟨.NUMBER, .BOXT, []⟩, ⟨.QUINT, .POSTAL, []⟩, ⟨.WORD, .CITY, [.CITY]⟩],
  [⟨.WORD, .STREET, [.TYPE]⟩, ⟨.WORD, .STREET, [.RR, .NUMBER]⟩, ⟨.NUMBER, .HOUSE, []⟩, ⟨.QUINT, .POSTAL, []⟩,
    ⟨.WORD, .CITY, [.CITY]⟩],
  [⟨.TYPE, .PRETYP, []⟩, ⟨.WORD, .STREET, [.NUMBER]⟩, ⟨.WORD, .STREET, [.RR, .NUMBER]⟩, ⟨.NUMBER, .HOUSE, []⟩, ⟨.QUINT, .POSTAL, []⟩,
    ⟨.WORD, .CITY, [.CITY]⟩]]

def liechtenstein : List Form := [
  [⟨.WORD, .STREET, [.BOXH]⟩, ⟨.NUMBER, .HOUSE, []⟩, ⟨.QUAD, .POSTAL, []⟩, ⟨.WORD, .CITY, [.CITY]⟩],
  [⟨.WORD, .STREET, [.BOXH]⟩, ⟨.NUMBER, .HOUSE, []⟩, ⟨.QUAD, .POSTAL, []⟩, ⟨.CITY, .CITY, []⟩],
  [⟨.WORD, .STREET, [.BOXH]⟩, ⟨.NUMBER, .HOUSE, [.TYPE]⟩, ⟨.QUAD, .POSTAL, [.DOUBLE, .SINGLE]⟩, ⟨.WORD, .CITY, [.CITY]⟩,
    ⟨.WORD, .CITY, [.CITY, .NATION]⟩],
  [⟨.WORD, .STREET, [.BOXH]⟩, ⟨.NUMBER, .HOUSE, [.TYPE]⟩, ⟨.QUAD, .POSTAL, []⟩, ⟨.WORD, .CITY, [.CITY]⟩, ⟨.NATION, .NATION, [.CITY]⟩],
  [⟨.WORD, .STREET, []⟩, ⟨.TYPE, .SUFTYP, [.NUMBER]⟩, ⟨.NUMBER, .HOUSE, []⟩, ⟨.QUAD, .POSTAL, []⟩, ⟨.WORD, .CITY, [.CITY]⟩],
  [⟨.WORD, .STREET, []⟩, ⟨.TYPE, .SUFTYP, [.NUMBER]⟩, ⟨.NUMBER, .HOUSE, []⟩, ⟨.QUAD, .POSTAL, []⟩, ⟨.CITY, .CITY, []⟩],
  [⟨.WORD, .STREET, []⟩, ⟨.TYPE, .SUFTYP, [.NUMBER]⟩, ⟨.NUMBER, .HOUSE, []⟩, ⟨.QUAD, .POSTAL, [.DOUBLE, .SINGLE]⟩,
    ⟨.WORD, .CITY, [.CITY]⟩, ⟨.WORD, .CITY, [.CITY, .NATION]⟩],
  [⟨.WORD, .STREET, []⟩, ⟨.TYPE, .SUFTYP, [.NUMBER]⟩, ⟨.NUMBER, .HOUSE, []⟩, ⟨.QUAD, .POSTAL, []⟩, ⟨.WORD, .CITY, [.CITY]⟩,
    ⟨.NATION, .NATION, [.CITY]⟩],
  [⟨.BOXH, .BOXH, []⟩, ⟨.NUMBER, .BOXT, []⟩, ⟨.QUAD, .POSTAL, []⟩, ⟨.WORD, .CITY, [.CITY]⟩],
  [⟨.WORD, .STREET, []⟩, ⟨.WORD, .STREET, [.TYPE, .NUMBER]⟩, ⟨.NUMBER, .HOUSE, []⟩, ⟨.QUAD, .POSTAL, []⟩, ⟨.WORD, .CITY, [.CITY]⟩],
  [⟨.WORD, .STREET, [.BOXH]⟩, ⟨.NUMBER, .HOUSE, []⟩, ⟨.UNITH, .UNITH, [.TYPE, .NUMBER]⟩, ⟨.NUMBER, .UNITT, [.WORD, .CITY]⟩,
    ⟨.QUAD, .POSTAL, [.CITY]⟩, ⟨.WORD, .CITY, [.CITY, .NATION]⟩],
  [⟨.WORD, .STREET, []⟩, ⟨.WORD, .STREET, [.NUMBER]⟩, ⟨.TYPE, .SUFTYP, [.NUMBER]⟩, ⟨.NUMBER, .HOUSE, []⟩, ⟨.QUAD, .POSTAL, []⟩,
    ⟨.WORD, .CITY, [.CITY]⟩]]

def luxembourg : List Form := [
  [⟨.NUMBER, .HOUSE, [.FRACT]⟩, ⟨.TYPE, .PRETYP, [.NUMBER, .SLASH]⟩, ⟨.WORD, .STREET, [.TYPE]⟩, ⟨.QUAD, .POSTAL, [.CITY]⟩,
    ⟨.WORD, .CITY, [.CITY, .NATION]⟩],
  [⟨.NUMBER, .HOUSE, [.MIXED, .FRACT]⟩, ⟨.TYPE, .PRETYP, [.NUMBER]⟩, ⟨.WORD, .STREET, [.TYPE]⟩, ⟨.QUAD, .POSTAL, []⟩,
    ⟨.CITY, .CITY, []⟩],
  [⟨.NUMBER, .HOUSE, [.MIXED, .FRACT]⟩, ⟨.TYPE, .PRETYP, [.NUMBER, .SLASH]⟩, ⟨.WORD, .STREET, [.TYPE, .NUMBER]⟩,
    ⟨.QUAD, .POSTAL, [.SINGLE, .TYPE, .CITY, .UNITH, .UNITT, .MIXED, .DASH]⟩, ⟨.WORD, .CITY, [.CITY, .NUMBER]⟩,
    ⟨.WORD, .CITY, [.CITY, .NATION, .UNITT, .NUMBER, .MIXED]⟩],
  [⟨.NUMBER, .HOUSE, [.MIXED, .FRACT]⟩, ⟨.TYPE, .PRETYP, [.NUMBER, .SLASH]⟩, ⟨.WORD, .STREET, [.TYPE, .UNITH, .NUMBER]⟩,
    ⟨.QUAD, .POSTAL, [.TYPE, .CITY, .UNITH, .DASH]⟩, ⟨.WORD, .CITY, [.CITY, .NUMBER, .DASH]⟩,
    ⟨.NATION, .NATION, [.TYPE, .CITY, .UNITT, .NUMBER, .MIXED]⟩],
  [⟨.BOXH, .BOXH, []⟩, ⟨.NUMBER, .BOXT, []⟩, ⟨.QUAD, .POSTAL, []⟩, ⟨.WORD, .CITY, [.CITY]⟩],
  [⟨.NUMBER, .HOUSE, [.MIXED, .FRACT]⟩, ⟨.TYPE, .PRETYP, [.SINGLE, .SLASH]⟩, ⟨.WORD, .STREET, [.TYPE]⟩,
    ⟨.WORD, .STREET, [.SINGLE, .TYPE, .UNITT, .MIXED, .DASH]⟩, ⟨.QUAD, .POSTAL, [.WORD, .CITY]⟩, ⟨.WORD, .CITY, [.CITY]⟩]]

def monaco : List Form := [
  [⟨.NUMBER, .HOUSE, []⟩, ⟨.TYPE, .PRETYP, [.NUMBER]⟩, ⟨.WORD, .STREET, []⟩, ⟨.QUINT, .POSTAL, [.CITY]⟩,
    ⟨.WORD, .CITY, [.CITY, .NATION]⟩],
  [⟨.NUMBER, .HOUSE, []⟩, ⟨.TYPE, .PRETYP, [.NUMBER]⟩, ⟨.WORD, .STREET, []⟩, ⟨.QUINT, .POSTAL, []⟩, ⟨.CITY, .CITY, []⟩],
  [⟨.NUMBER, .HOUSE, []⟩, ⟨.TYPE, .PRETYP, [.NUMBER, .DASH, .SLASH]⟩, ⟨.WORD, .STREET, []⟩,
    ⟨.QUINT, .POSTAL, [.CITY, .NATION, .UNITT]⟩, ⟨.WORD, .CITY, [.CITY]⟩, ⟨.WORD, .CITY, [.CITY, .NATION, .BOXH]⟩],
  [⟨.NUMBER, .HOUSE, []⟩, ⟨.TYPE, .PRETYP, [.NUMBER, .DASH, .SLASH]⟩, ⟨.WORD, .STREET, []⟩, ⟨.QUINT, .POSTAL, [.MIXED, .DASH]⟩,
    ⟨.WORD, .CITY, [.CITY, .BOXH, .NUMBER, .MIXED, .DASH]⟩, ⟨.NATION, .NATION, [.CITY]⟩],
  [⟨.BOXH, .BOXH, []⟩, ⟨.NUMBER, .BOXT, []⟩, ⟨.QUINT, .POSTAL, []⟩, ⟨.WORD, .CITY, [.CITY]⟩],
  [⟨.NUMBER, .HOUSE, []⟩, ⟨.TYPE, .PRETYP, [.DASH, .SLASH]⟩, ⟨.WORD, .STREET, []⟩,
    ⟨.WORD, .STREET, [.NATION, .UNITT, .NUMBER, .DASH]⟩, ⟨.QUINT, .POSTAL, [.WORD, .CITY, .BOXH]⟩, ⟨.WORD, .CITY, [.CITY]⟩]]

def netherlands : List Form := [
  [⟨.WORD, .STREET, [.BOXH]⟩, ⟨.NUMBER, .HOUSE, [.FRACT]⟩, ⟨.QUAD, .POSTAL, []⟩, ⟨.WORD, .CITY, [.CITY]⟩],
  [⟨.WORD, .STREET, [.BOXH]⟩, ⟨.NUMBER, .HOUSE, [.TYPE, .FRACT]⟩, ⟨.QUAD, .POSTAL, [.DOUBLE, .SINGLE, .NATION, .FRACT, .SLASH]⟩,
    ⟨.WORD, .CITY, [.DOUBLE, .CITY, .FRACT, .SLASH]⟩, ⟨.WORD, .CITY, [.PROV, .CITY, .NATION]⟩],
  [⟨.WORD, .STREET, [.NUMBER]⟩, ⟨.TYPE, .SUFTYP, [.NUMBER, .FRACT]⟩, ⟨.NUMBER, .HOUSE, [.FRACT]⟩, ⟨.QUAD, .POSTAL, []⟩,
    ⟨.WORD, .CITY, [.CITY]⟩],
  [⟨.WORD, .STREET, [.NUMBER]⟩, ⟨.TYPE, .SUFTYP, [.NUMBER, .FRACT]⟩, ⟨.NUMBER, .HOUSE, [.FRACT]⟩, ⟨.QUAD, .POSTAL, []⟩,
    ⟨.CITY, .CITY, []⟩],
  [⟨.WORD, .STREET, [.NUMBER]⟩, ⟨.TYPE, .SUFTYP, [.NUMBER, .FRACT]⟩, ⟨.NUMBER, .HOUSE, [.FRACT]⟩,
    ⟨.QUAD, .POSTAL, [.DOUBLE, .SINGLE, .NATION, .FRACT]⟩, ⟨.WORD, .CITY, [.DOUBLE, .CITY, .SLASH]⟩,
    ⟨.WORD, .CITY, [.PROV, .CITY, .NATION]⟩],
  [⟨.WORD, .STREET, [.NUMBER]⟩, ⟨.TYPE, .SUFTYP, [.NUMBER, .FRACT]⟩, ⟨.NUMBER, .HOUSE, [.FRACT]⟩,
    ⟨.QUAD, .POSTAL, [.FRACT, .DASH, .SLASH]⟩, ⟨.WORD, .CITY, [.CITY, .NUMBER, .MIXED, .FRACT, .DASH, .SLASH]⟩,
    ⟨.NATION, .NATION, [.PROV, .CITY]⟩],
  [⟨.BOXH, .BOXH, []⟩, ⟨.NUMBER, .BOXT, []⟩, ⟨.QUAD, .POSTAL, []⟩, ⟨.WORD, .CITY, [.CITY]⟩],
  [⟨.WORD, .STREET, [.NUMBER]⟩, ⟨.WORD, .STREET, [.TYPE, .NUMBER, .FRACT]⟩, ⟨.NUMBER, .HOUSE, [.FRACT]⟩, ⟨.QUAD, .POSTAL, []⟩,
    ⟨.WORD, .CITY, [.CITY]⟩],
  [⟨.WORD, .STREET, [.BOXH, .NUMBER]⟩, ⟨.NUMBER, .HOUSE, [.FRACT]⟩,
    ⟨.UNITH, .UNITH, [.TYPE, .NATION, .NUMBER, .FRACT, .DASH, .SLASH]⟩,
    ⟨.NUMBER, .UNITT, [.SINGLE, .WORD, .CITY, .UNITT, .MIXED, .FRACT]⟩, ⟨.QUAD, .POSTAL, [.CITY, .MIXED, .FRACT, .DASH, .SLASH]⟩,
    ⟨.WORD, .CITY, [.PROV, .CITY, .NATION, .NUMBER]⟩],
  [⟨.WORD, .STREET, [.NUMBER]⟩, ⟨.WORD, .STREET, [.NUMBER, .FRACT]⟩, ⟨.TYPE, .SUFTYP, [.NUMBER, .FRACT]⟩,
    ⟨.NUMBER, .HOUSE, [.FRACT]⟩, ⟨.QUAD, .POSTAL, []⟩, ⟨.WORD, .CITY, [.CITY]⟩],
  [⟨.WORD, .STREET, [.BOXH]⟩, ⟨.NUMBER, .HOUSE, [.TYPE, .FRACT]⟩,
    ⟨.QUAD, .POSTAL, [.DOUBLE, .SINGLE, .NATION, .FRACT, .DASH, .SLASH]⟩, ⟨.DOUBLE, .POSTAL, [.CITY, .MIXED, .FRACT, .DASH, .SLASH]⟩,
    ⟨.WORD, .CITY, [.PROV, .CITY, .NATION]⟩],
  [⟨.WORD, .STREET, [.BOXH]⟩, ⟨.NUMBER, .HOUSE, [.WORD, .TYPE, .FRACT]⟩,
    ⟨.QUAD, .POSTAL, [.DOUBLE, .SINGLE, .NATION, .UNITH, .DASH, .SLASH]⟩, ⟨.DOUBLE, .POSTAL, [.CITY, .FRACT]⟩,
    ⟨.WORD, .CITY, [.CITY]⟩, ⟨.WORD, .CITY, [.PROV, .CITY, .NATION]⟩],
  [⟨.WORD, .STREET, [.NUMBER]⟩, ⟨.TYPE, .SUFTYP, [.NUMBER, .FRACT]⟩, ⟨.NUMBER, .HOUSE, [.FRACT]⟩,
    ⟨.QUAD, .POSTAL, [.DOUBLE, .SINGLE, .NATION, .FRACT, .SLASH]⟩, ⟨.DOUBLE, .POSTAL, [.CITY]⟩,
    ⟨.WORD, .CITY, [.PROV, .CITY, .NATION]⟩],
  [⟨.WORD, .STREET, [.NUMBER]⟩, ⟨.TYPE, .SUFTYP, [.NUMBER, .FRACT]⟩, ⟨.NUMBER, .HOUSE, [.FRACT]⟩,
    ⟨.QUAD, .POSTAL, [.DOUBLE, .SINGLE, .NATION, .FRACT, .DASH, .SLASH]⟩, ⟨.DOUBLE, .POSTAL, [.CITY]⟩, ⟨.CITY, .CITY, []⟩],
  [⟨.WORD, .STREET, [.NUMBER]⟩, ⟨.TYPE, .SUFTYP, [.NUMBER, .FRACT]⟩, ⟨.NUMBER, .HOUSE, [.TYPE, .FRACT]⟩,
    ⟨.QUAD, .POSTAL, [.DOUBLE, .SINGLE, .NATION, .UNITH, .FRACT, .DASH, .SLASH]⟩,
    ⟨.DOUBLE, .POSTAL, [.CITY, .NUMBER, .FRACT, .DASH, .SLASH]⟩, ⟨.WORD, .CITY, [.CITY, .NUMBER, .MIXED, .FRACT, .DASH]⟩,
    ⟨.WORD, .CITY, [.PROV, .CITY, .NATION]⟩],
  [⟨.WORD, .STREET, [.NUMBER]⟩, ⟨.TYPE, .SUFTYP, [.NUMBER, .FRACT]⟩, ⟨.NUMBER, .HOUSE, [.TYPE, .FRACT]⟩,
    ⟨.QUAD, .POSTAL, [.DOUBLE, .SINGLE, .NATION, .UNITH, .FRACT, .DASH, .SLASH]⟩,
    ⟨.DOUBLE, .POSTAL, [.CITY, .NUMBER, .FRACT, .DASH, .SLASH]⟩, ⟨.WORD, .CITY, [.PROV, .CITY, .NUMBER, .FRACT, .DASH]⟩,
    ⟨.NATION, .NATION, [.PROV, .CITY, .MIXED]⟩],
  [⟨.BOXH, .BOXH, [.NUMBER]⟩, ⟨.NUMBER, .BOXT, [.FRACT]⟩, ⟨.QUAD, .POSTAL, [.NATION, .FRACT, .DASH, .SLASH]⟩,
    ⟨.DOUBLE, .POSTAL, [.CITY, .FRACT, .DASH, .SLASH]⟩, ⟨.WORD, .CITY, [.PROV, .CITY, .NATION, .NUMBER, .MIXED]⟩],
  [⟨.WORD, .STREET, [.BOXH, .NUMBER]⟩, ⟨.NUMBER, .HOUSE, [.FRACT]⟩,
    ⟨.UNITH, .UNITH, [.TYPE, .NATION, .NUMBER, .FRACT, .DASH, .SLASH]⟩,
    ⟨.NUMBER, .UNITT, [.SINGLE, .WORD, .TYPE, .CITY, .NATION, .UNITH, .UNITT, .MIXED, .FRACT]⟩,
    ⟨.QUAD, .POSTAL, [.WORD, .CITY, .NATION, .UNITH, .DASH, .SLASH]⟩, ⟨.DOUBLE, .POSTAL, [.CITY, .UNITH, .NUMBER]⟩,
    ⟨.WORD, .CITY, [.PROV, .CITY, .NATION, .NUMBER]⟩],
  [⟨.WORD, .STREET, [.NUMBER]⟩, ⟨.WORD, .STREET, [.NUMBER, .FRACT]⟩, ⟨.TYPE, .SUFTYP, [.NUMBER, .FRACT]⟩,
    ⟨.NUMBER, .HOUSE, [.FRACT]⟩, ⟨.QUAD, .POSTAL, [.DOUBLE, .SINGLE, .NATION, .FRACT, .SLASH]⟩, ⟨.DOUBLE, .POSTAL, [.CITY]⟩,
    ⟨.WORD, .CITY, [.PROV, .CITY, .NATION]⟩]]

def newzealand : List Form := [
  [⟨.NUMBER, .HOUSE, []⟩, ⟨.WORD, .STREET, [.TYPE, .DIRECT, .QUALIF, .NUMBER]⟩, ⟨.TYPE, .SUFTYP, [.DIRECT, .CITY, .QUALIF]⟩,
    ⟨.WORD, .CITY, [.DIRECT, .PROV, .CITY]⟩, ⟨.PROV, .PROV, []⟩],
  [⟨.NUMBER, .HOUSE, []⟩, ⟨.WORD, .STREET, [.SINGLE, .TYPE, .DIRECT, .QUALIF, .NUMBER]⟩, ⟨.TYPE, .SUFTYP, [.DIRECT, .CITY, .QUALIF]⟩,
    ⟨.CITY, .CITY, []⟩, ⟨.PROV, .PROV, []⟩],
  [⟨.NUMBER, .HOUSE, []⟩, ⟨.WORD, .STREET, [.SINGLE, .TYPE, .DIRECT, .QUALIF, .NUMBER, .DASH, .SLASH]⟩,
    ⟨.TYPE, .SUFTYP, [.DIRECT, .CITY, .QUALIF]⟩, ⟨.WORD, .CITY, [.DIRECT, .CITY, .QUALIF, .NUMBER, .SLASH]⟩,
    ⟨.WORD, .CITY, [.DIRECT, .PROV, .CITY]⟩, ⟨.PROV, .PROV, [.NATION, .NUMBER]⟩],
  [⟨.NUMBER, .HOUSE, []⟩, ⟨.WORD, .STREET, [.TYPE, .DIRECT, .QUALIF, .NUMBER]⟩, ⟨.TYPE, .SUFTYP, [.DIRECT, .CITY, .QUALIF, .NUMBER]⟩,
    ⟨.WORD, .CITY, [.DIRECT, .PROV, .CITY, .QUALIF, .NUMBER]⟩, ⟨.PROV, .PROV, [.WORD, .DIRECT, .CITY, .QUALIF, .NUMBER]⟩,
    ⟨.NATION, .NATION, [.NUMBER]⟩],
  [⟨.NUMBER, .HOUSE, []⟩, ⟨.DIRECT, .PREDIR, [.TYPE, .QUALIF, .NUMBER]⟩, ⟨.WORD, .STREET, [.QUALIF, .NUMBER]⟩,
    ⟨.TYPE, .SUFTYP, [.WORD, .DIRECT, .CITY, .QUALIF, .NUMBER]⟩, ⟨.WORD, .CITY, [.DIRECT, .CITY, .QUALIF, .NUMBER]⟩,
    ⟨.PROV, .PROV, [.NATION]⟩],
  [⟨.BOXH, .BOXH, []⟩, ⟨.NUMBER, .BOXT, []⟩, ⟨.WORD, .CITY, [.DIRECT, .CITY]⟩, ⟨.PROV, .PROV, []⟩],
  [⟨.NUMBER, .HOUSE, []⟩, ⟨.WORD, .STREET, [.NUMBER]⟩, ⟨.WORD, .CITY, [.DIRECT, .CITY]⟩, ⟨.PROV, .PROV, []⟩],
  [⟨.NUMBER, .HOUSE, []⟩, ⟨.WORD, .STREET, [.SINGLE, .TYPE, .DIRECT, .QUALIF, .NUMBER, .DASH, .SLASH]⟩,
    ⟨.WORD, .STREET, [.TYPE, .DIRECT, .CITY, .QUALIF]⟩, ⟨.TYPE, .SUFTYP, [.DIRECT, .CITY, .QUALIF, .NUMBER]⟩,
    ⟨.WORD, .CITY, [.DIRECT, .PROV, .CITY]⟩, ⟨.PROV, .PROV, [.NATION]⟩],
  [⟨.UNITH, .UNITH, [.BOXH]⟩, ⟨.NUMBER, .UNITT, [.WORD, .DASH, .SLASH]⟩,
    ⟨.NUMBER, .HOUSE, [.SINGLE, .WORD, .TYPE, .DIRECT, .QUALIF, .DASH, .SLASH]⟩, ⟨.WORD, .STREET, [.TYPE, .DIRECT, .QUALIF]⟩,
    ⟨.TYPE, .SUFTYP, [.DIRECT, .CITY, .QUALIF]⟩, ⟨.WORD, .CITY, [.DIRECT, .PROV, .CITY]⟩, ⟨.PROV, .PROV, []⟩],
  [⟨.NUMBER, .HOUSE, []⟩, ⟨.TYPE, .PRETYP, [.DIRECT, .QUALIF, .NUMBER]⟩, ⟨.WORD, .STREET, [.TYPE, .DIRECT, .CITY, .QUALIF]⟩,
    ⟨.WORD, .CITY, [.DIRECT, .PROV, .CITY]⟩, ⟨.PROV, .PROV, []⟩],
  [⟨.NUMBER, .HOUSE, []⟩, ⟨.WORD, .STREET, [.TYPE, .DIRECT, .QUALIF, .NUMBER]⟩, ⟨.TYPE, .SUFTYP, [.DIRECT, .CITY, .QUALIF, .NUMBER]⟩,
    ⟨.WORD, .CITY, [.DIRECT, .CITY, .QUALIF, .NUMBER]⟩, ⟨.PROV, .PROV, [.WORD, .DIRECT, .CITY, .QUALIF, .BOXH, .NUMBER]⟩,
    ⟨.QUAD, .POSTAL, [.NATION]⟩],
  [⟨.NUMBER, .HOUSE, [.UNITH]⟩, ⟨.WORD, .STREET, [.SINGLE, .TYPE, .DIRECT, .QUALIF, .NUMBER, .DASH]⟩,
    ⟨.TYPE, .SUFTYP, [.DIRECT, .CITY, .QUALIF, .NUMBER]⟩, ⟨.CITY, .CITY, [.DIRECT, .QUALIF, .NUMBER]⟩,
    ⟨.PROV, .PROV, [.CITY, .NATION, .QUALIF, .BOXH, .NUMBER]⟩, ⟨.QUAD, .POSTAL, [.NATION, .QUALIF]⟩],
  [⟨.NUMBER, .HOUSE, [.UNITH]⟩, ⟨.WORD, .STREET, [.SINGLE, .TYPE, .DIRECT, .QUALIF, .NUMBER, .DASH]⟩,
    ⟨.TYPE, .SUFTYP, [.DIRECT, .CITY, .QUALIF, .NUMBER]⟩, ⟨.WORD, .CITY, [.TYPE, .DIRECT, .CITY, .QUALIF, .NUMBER]⟩,
    ⟨.WORD, .CITY, [.DIRECT, .PROV, .CITY, .QUALIF, .NUMBER]⟩, ⟨.PROV, .PROV, [.DIRECT, .CITY, .NATION, .QUALIF, .BOXH, .NUMBER]⟩,
    ⟨.QUAD, .POSTAL, [.PROV, .NATION]⟩],
  [⟨.NUMBER, .HOUSE, [.UNITH]⟩, ⟨.WORD, .STREET, [.SINGLE, .TYPE, .DIRECT, .QUALIF, .NUMBER, .DASH, .SLASH]⟩,
    ⟨.TYPE, .SUFTYP, [.DIRECT, .CITY, .QUALIF]⟩, ⟨.WORD, .CITY, [.TYPE, .DIRECT, .PROV, .CITY, .QUALIF, .NUMBER]⟩,
    ⟨.PROV, .PROV, [.TYPE, .DIRECT, .CITY, .QUALIF, .BOXH, .NUMBER]⟩,
    ⟨.QUAD, .POSTAL, [.TYPE, .DIRECT, .PROV, .CITY, .NATION, .QUALIF]⟩, ⟨.NATION, .NATION, [.PROV, .NUMBER]⟩],
  [⟨.NUMBER, .HOUSE, [.UNITH]⟩, ⟨.DIRECT, .PREDIR, [.TYPE, .QUALIF, .NUMBER, .DASH]⟩,
    ⟨.WORD, .STREET, [.DIRECT, .CITY, .QUALIF, .NUMBER]⟩, ⟨.TYPE, .SUFTYP, [.WORD, .DIRECT, .PROV, .CITY, .QUALIF, .NUMBER]⟩,
    ⟨.WORD, .CITY, [.DIRECT, .CITY, .QUALIF, .NUMBER]⟩, ⟨.PROV, .PROV, [.DIRECT, .CITY, .NUMBER]⟩, ⟨.QUAD, .POSTAL, [.NATION]⟩],
  [⟨.BOXH, .BOXH, [.NUMBER]⟩, ⟨.NUMBER, .BOXT, []⟩, ⟨.WORD, .CITY, [.DIRECT, .CITY, .NUMBER]⟩, ⟨.PROV, .PROV, [.CITY]⟩,
    ⟨.QUAD, .POSTAL, [.NATION]⟩],
  [⟨.NUMBER, .HOUSE, []⟩, ⟨.WORD, .STREET, [.QUALIF, .NUMBER, .DASH]⟩, ⟨.WORD, .CITY, [.DIRECT, .CITY, .QUALIF, .NUMBER]⟩,
    ⟨.PROV, .PROV, [.CITY, .QUALIF]⟩, ⟨.QUAD, .POSTAL, [.PROV, .NATION]⟩],
  [⟨.NUMBER, .HOUSE, [.UNITH]⟩, ⟨.WORD, .STREET, [.SINGLE, .TYPE, .DIRECT, .QUALIF, .NUMBER, .DASH]⟩,
    ⟨.WORD, .STREET, [.TYPE, .DIRECT, .CITY, .QUALIF, .NUMBER]⟩, ⟨.TYPE, .SUFTYP, [.DIRECT, .CITY, .QUALIF, .NUMBER]⟩,
    ⟨.WORD, .CITY, [.DIRECT, .PROV, .CITY, .NATION, .QUALIF, .NUMBER]⟩, ⟨.PROV, .PROV, [.CITY, .NATION, .QUALIF, .BOXH, .NUMBER]⟩,
    ⟨.QUAD, .POSTAL, [.PROV, .NATION, .QUALIF]⟩],
  [⟨.UNITH, .UNITH, [.BOXH, .NUMBER]⟩, ⟨.NUMBER, .UNITT, [.WORD]⟩,
    ⟨.NUMBER, .HOUSE, [.SINGLE, .WORD, .TYPE, .DIRECT, .QUALIF, .DASH, .SLASH]⟩, ⟨.WORD, .STREET, [.TYPE, .DIRECT, .QUALIF]⟩,
    ⟨.TYPE, .SUFTYP, [.DIRECT, .CITY, .QUALIF, .NUMBER]⟩, ⟨.WORD, .CITY, [.DIRECT, .CITY, .QUALIF, .NUMBER]⟩,
    ⟨.PROV, .PROV, [.WORD, .DIRECT, .CITY, .QUALIF, .BOXH, .NUMBER]⟩, ⟨.QUAD, .POSTAL, [.NATION]⟩],
  [⟨.NUMBER, .HOUSE, [.UNITH]⟩, ⟨.TYPE, .PRETYP, [.DIRECT, .QUALIF, .NUMBER, .DASH, .SLASH]⟩,
    ⟨.WORD, .STREET, [.TYPE, .DIRECT, .CITY, .QUALIF]⟩, ⟨.WORD, .CITY, [.TYPE, .DIRECT, .CITY, .QUALIF, .NUMBER]⟩,
    ⟨.PROV, .PROV, [.TYPE, .DIRECT, .CITY, .QUALIF, .NUMBER]⟩, ⟨.QUAD, .POSTAL, [.WORD, .PROV, .NATION]⟩]]

def norway : List Form := [
  [⟨.WORD, .STREET, [.BOXH]⟩, ⟨.NUMBER, .HOUSE, []⟩, ⟨.QUAD, .POSTAL, []⟩, ⟨.WORD, .CITY, [.DIRECT, .CITY]⟩],
  [⟨.WORD, .STREET, [.BOXH]⟩, ⟨.NUMBER, .HOUSE, []⟩, ⟨.QUAD, .POSTAL, []⟩, ⟨.CITY, .CITY, []⟩],
  [⟨.WORD, .STREET, [.BOXH]⟩, ⟨.NUMBER, .HOUSE, [.TYPE]⟩, ⟨.QUAD, .POSTAL, [.DOUBLE, .SINGLE, .NATION]⟩,
    ⟨.WORD, .CITY, [.DIRECT, .CITY]⟩, ⟨.WORD, .CITY, [.DIRECT, .CITY, .NATION]⟩],
  [⟨.WORD, .STREET, [.BOXH]⟩, ⟨.NUMBER, .HOUSE, [.TYPE]⟩, ⟨.QUAD, .POSTAL, []⟩, ⟨.WORD, .CITY, [.DIRECT, .CITY]⟩,
    ⟨.NATION, .NATION, [.CITY]⟩],
  [⟨.WORD, .STREET, []⟩, ⟨.TYPE, .SUFTYP, [.NUMBER]⟩, ⟨.NUMBER, .HOUSE, []⟩, ⟨.QUAD, .POSTAL, []⟩, ⟨.WORD, .CITY, [.DIRECT, .CITY]⟩],
  [⟨.WORD, .STREET, []⟩, ⟨.TYPE, .SUFTYP, [.NUMBER]⟩, ⟨.NUMBER, .HOUSE, []⟩, ⟨.QUAD, .POSTAL, []⟩, ⟨.CITY, .CITY, []⟩],
  [⟨.WORD, .STREET, []⟩, ⟨.TYPE, .SUFTYP, [.NUMBER]⟩, ⟨.NUMBER, .HOUSE, []⟩, ⟨.QUAD, .POSTAL, [.DOUBLE, .SINGLE, .NATION]⟩,
    ⟨.WORD, .CITY, [.DIRECT, .CITY]⟩, ⟨.WORD, .CITY, [.DIRECT, .CITY, .NATION]⟩],
  [⟨.WORD, .STREET, []⟩, ⟨.TYPE, .SUFTYP, [.NUMBER]⟩, ⟨.NUMBER, .HOUSE, []⟩, ⟨.QUAD, .POSTAL, [.DASH, .SLASH]⟩,
    ⟨.WORD, .CITY, [.DIRECT, .CITY, .DASH]⟩, ⟨.NATION, .NATION, [.CITY]⟩],
  [⟨.BOXH, .BOXH, []⟩, ⟨.NUMBER, .BOXT, []⟩, ⟨.QUAD, .POSTAL, []⟩, ⟨.WORD, .CITY, [.DIRECT, .CITY]⟩],
  [⟨.WORD, .STREET, []⟩, ⟨.WORD, .STREET, [.TYPE, .NUMBER]⟩, ⟨.NUMBER, .HOUSE, []⟩, ⟨.QUAD, .POSTAL, []⟩,
    ⟨.WORD, .CITY, [.DIRECT, .CITY]⟩],
  [⟨.WORD, .STREET, [.BOXH]⟩, ⟨.NUMBER, .HOUSE, []⟩, ⟨.UNITH, .UNITH, [.TYPE, .NUMBER, .DASH, .SLASH]⟩,
    ⟨.NUMBER, .UNITT, [.SINGLE, .WORD, .CITY, .UNITT, .MIXED]⟩, ⟨.QUAD, .POSTAL, [.CITY]⟩, ⟨.WORD, .CITY, [.DIRECT, .CITY, .NATION]⟩],
  [⟨.WORD, .STREET, []⟩, ⟨.WORD, .STREET, [.NUMBER]⟩, ⟨.TYPE, .SUFTYP, [.NUMBER]⟩, ⟨.NUMBER, .HOUSE, []⟩, ⟨.QUAD, .POSTAL, []⟩,
    ⟨.WORD, .CITY, [.DIRECT, .CITY]⟩]]

def portugal : List Form := [
  [⟨.WORD, .STREET, [.BOXH]⟩, ⟨.NUMBER, .HOUSE, []⟩, ⟨.QUAD, .POSTAL, []⟩, ⟨.WORD, .CITY, [.CITY]⟩],
  [⟨.WORD, .STREET, [.BOXH]⟩, ⟨.NUMBER, .HOUSE, []⟩, ⟨.QUAD, .POSTAL, []⟩, ⟨.CITY, .CITY, []⟩],
  [⟨.WORD, .STREET, [.TYPE, .BOXH]⟩, ⟨.NUMBER, .HOUSE, []⟩, ⟨.QUAD, .POSTAL, [.DOUBLE, .SINGLE]⟩, ⟨.WORD, .CITY, [.CITY]⟩,
    ⟨.WORD, .CITY, [.PROV, .CITY, .NATION]⟩],
  [⟨.WORD, .STREET, [.TYPE, .BOXH]⟩, ⟨.NUMBER, .HOUSE, []⟩, ⟨.QUAD, .POSTAL, []⟩, ⟨.WORD, .CITY, [.CITY]⟩,
    ⟨.NATION, .NATION, [.PROV, .CITY]⟩],
  [⟨.TYPE, .PRETYP, []⟩, ⟨.WORD, .STREET, [.NUMBER]⟩, ⟨.NUMBER, .HOUSE, []⟩, ⟨.QUAD, .POSTAL, []⟩, ⟨.WORD, .CITY, [.CITY]⟩],
  [⟨.TYPE, .PRETYP, []⟩, ⟨.WORD, .STREET, [.NUMBER]⟩, ⟨.NUMBER, .HOUSE, []⟩, ⟨.QUAD, .POSTAL, []⟩, ⟨.CITY, .CITY, []⟩],
  [⟨.TYPE, .PRETYP, []⟩, ⟨.WORD, .STREET, [.NUMBER]⟩, ⟨.NUMBER, .HOUSE, []⟩, ⟨.QUAD, .POSTAL, [.DOUBLE, .SINGLE, .DASH, .SLASH]⟩,
    ⟨.WORD, .CITY, [.CITY, .DASH]⟩, ⟨.WORD, .CITY, [.PROV, .CITY, .NATION]⟩],
  [⟨.TYPE, .PRETYP, []⟩, ⟨.WORD, .STREET, [.NUMBER]⟩, ⟨.NUMBER, .HOUSE, []⟩, ⟨.QUAD, .POSTAL, [.DASH, .SLASH]⟩,
    ⟨.WORD, .CITY, [.CITY, .NUMBER, .DASH, .SLASH]⟩, ⟨.NATION, .NATION, [.PROV, .CITY]⟩],
  [⟨.BOXH, .BOXH, []⟩, ⟨.NUMBER, .BOXT, []⟩, ⟨.QUAD, .POSTAL, []⟩, ⟨.WORD, .CITY, [.CITY]⟩],
  [⟨.WORD, .STREET, [.TYPE]⟩, ⟨.WORD, .STREET, [.NUMBER]⟩, ⟨.NUMBER, .HOUSE, []⟩, ⟨.QUAD, .POSTAL, []⟩, ⟨.WORD, .CITY, [.CITY]⟩],
  [⟨.TYPE, .PRETYP, []⟩, ⟨.WORD, .STREET, [.NUMBER]⟩, ⟨.WORD, .STREET, [.NUMBER]⟩, ⟨.NUMBER, .HOUSE, []⟩, ⟨.QUAD, .POSTAL, []⟩,
    ⟨.WORD, .CITY, [.CITY]⟩]]

def sanMarino : List Form := [
  [⟨.WORD, .STREET, [.BOXH]⟩, ⟨.NUMBER, .HOUSE, []⟩, ⟨.QUINT, .POSTAL, []⟩, ⟨.WORD, .CITY, [.CITY]⟩],
  [⟨.WORD, .STREET, [.BOXH]⟩, ⟨.NUMBER, .HOUSE, []⟩, ⟨.QUINT, .POSTAL, []⟩, ⟨.CITY, .CITY, []⟩],
  [⟨.WORD, .STREET, [.BOXH]⟩, ⟨.NUMBER, .HOUSE, []⟩, ⟨.QUINT, .POSTAL, []⟩, ⟨.WORD, .CITY, [.QUINT, .CITY, .NUMBER]⟩,
    ⟨.WORD, .CITY, [.CITY, .NATION]⟩],
  [⟨.WORD, .STREET, [.TYPE, .BOXH]⟩, ⟨.NUMBER, .HOUSE, [.TYPE]⟩, ⟨.QUINT, .POSTAL, []⟩, ⟨.WORD, .CITY, [.CITY]⟩,
    ⟨.NATION, .NATION, [.CITY]⟩],
  [⟨.WORD, .STREET, [.TYPE]⟩, ⟨.TYPE, .SUFTYP, [.NUMBER]⟩, ⟨.NUMBER, .HOUSE, []⟩, ⟨.QUINT, .POSTAL, []⟩, ⟨.WORD, .CITY, [.CITY]⟩],
  [⟨.WORD, .STREET, [.TYPE]⟩, ⟨.TYPE, .SUFTYP, [.NUMBER]⟩, ⟨.NUMBER, .HOUSE, []⟩, ⟨.QUINT, .POSTAL, []⟩, ⟨.CITY, .CITY, []⟩],
  [⟨.WORD, .STREET, [.TYPE]⟩, ⟨.TYPE, .SUFTYP, [.NUMBER]⟩, ⟨.NUMBER, .HOUSE, []⟩, ⟨.QUINT, .POSTAL, []⟩,
    ⟨.WORD, .CITY, [.QUINT, .CITY]⟩, ⟨.WORD, .CITY, [.CITY, .NATION]⟩],
  [⟨.WORD, .STREET, [.TYPE]⟩, ⟨.TYPE, .SUFTYP, [.NUMBER]⟩, ⟨.NUMBER, .HOUSE, []⟩, ⟨.QUINT, .POSTAL, []⟩, ⟨.WORD, .CITY, [.CITY]⟩,
    ⟨.NATION, .NATION, [.CITY]⟩],
  [⟨.TYPE, .PRETYP, []⟩, ⟨.WORD, .STREET, [.TYPE, .NUMBER]⟩, ⟨.NUMBER, .HOUSE, []⟩, ⟨.QUINT, .POSTAL, []⟩, ⟨.WORD, .CITY, [.CITY]⟩],
  [⟨.TYPE, .PRETYP, []⟩, ⟨.WORD, .STREET, [.TYPE, .NUMBER]⟩, ⟨.NUMBER, .HOUSE, []⟩, ⟨.QUINT, .POSTAL, []⟩, ⟨.CITY, .CITY, []⟩],
  [⟨.TYPE, .PRETYP, []⟩, ⟨.WORD, .STREET, [.TYPE, .NUMBER]⟩, ⟨.NUMBER, .HOUSE, []⟩, ⟨.QUINT, .POSTAL, []⟩,
    ⟨.WORD, .CITY, [.QUINT, .CITY]⟩, ⟨.WORD, .CITY, [.CITY, .NATION]⟩],
  [⟨.TYPE, .PRETYP, []⟩, ⟨.WORD, .STREET, [.TYPE, .NUMBER]⟩, ⟨.NUMBER, .HOUSE, []⟩, ⟨.QUINT, .POSTAL, []⟩, ⟨.WORD, .CITY, [.CITY]⟩,
    ⟨.NATION, .NATION, [.CITY]⟩],
  [⟨.BOXH, .BOXH, []⟩, ⟨.NUMBER, .BOXT, []⟩, ⟨.QUINT, .POSTAL, []⟩, ⟨.WORD, .CITY, [.CITY]⟩],
  [⟨.WORD, .STREET, [.TYPE]⟩, ⟨.WORD, .STREET, [.TYPE, .NUMBER]⟩, ⟨.NUMBER, .HOUSE, []⟩, ⟨.QUINT, .POSTAL, []⟩,
    ⟨.WORD, .CITY, [.CITY]⟩],
  [⟨.TYPE, .PRETYP, []⟩, ⟨.WORD, .STREET, [.NUMBER]⟩, ⟨.WORD, .STREET, [.TYPE, .NUMBER]⟩, ⟨.NUMBER, .HOUSE, []⟩,
    ⟨.QUINT, .POSTAL, []⟩, ⟨.WORD, .CITY, [.CITY]⟩],
  [⟨.WORD, .STREET, [.TYPE]⟩, ⟨.WORD, .STREET, [.NUMBER]⟩, ⟨.TYPE, .SUFTYP, [.NUMBER]⟩, ⟨.NUMBER, .HOUSE, []⟩, ⟨.QUINT, .POSTAL, []⟩,
    ⟨.WORD, .CITY, [.CITY]⟩]]

def spain : List Form := [
  [⟨.WORD, .STREET, [.BOXH]⟩, ⟨.NUMBER, .HOUSE, []⟩, ⟨.QUINT, .POSTAL, []⟩, ⟨.WORD, .CITY, [.PROV, .CITY, .NATION]⟩],
  [⟨.WORD, .STREET, [.BOXH]⟩, ⟨.NUMBER, .HOUSE, [.SINGLE]⟩, ⟨.QUINT, .POSTAL, []⟩, ⟨.CITY, .CITY, [.PROV, .NATION]⟩],
  [⟨.WORD, .STREET, [.TYPE, .BOXH]⟩, ⟨.NUMBER, .HOUSE, [.BOXH]⟩, ⟨.QUINT, .POSTAL, [.SINGLE, .WORD, .DASH]⟩,
    ⟨.WORD, .CITY, [.UNITH, .NUMBER, .DASH]⟩, ⟨.WORD, .CITY, [.PROV, .CITY, .NATION]⟩],
  [⟨.WORD, .STREET, [.TYPE, .BOXH]⟩, ⟨.NUMBER, .HOUSE, [.SINGLE]⟩, ⟨.QUINT, .POSTAL, [.WORD, .CITY]⟩,
    ⟨.WORD, .CITY, [.CITY, .NUMBER, .DASH]⟩, ⟨.NATION, .NATION, [.PROV, .CITY]⟩],
  [⟨.TYPE, .PRETYP, []⟩, ⟨.WORD, .STREET, [.NUMBER]⟩, ⟨.NUMBER, .HOUSE, [.WORD, .BOXH, .DASH]⟩, ⟨.QUINT, .POSTAL, [.DASH]⟩,
    ⟨.WORD, .CITY, [.PROV, .CITY, .NATION, .NUMBER]⟩],
  [⟨.TYPE, .PRETYP, []⟩, ⟨.WORD, .STREET, [.NUMBER]⟩, ⟨.NUMBER, .HOUSE, [.WORD, .BOXH, .DASH]⟩, ⟨.QUINT, .POSTAL, [.CITY, .DASH]⟩,
    ⟨.CITY, .CITY, [.NATION, .NUMBER]⟩],
  [⟨.TYPE, .PRETYP, [.WORD]⟩, ⟨.WORD, .STREET, [.NUMBER]⟩, ⟨.NUMBER, .HOUSE, []⟩, ⟨.QUINT, .POSTAL, [.SINGLE]⟩, ⟨.WORD, .CITY, []⟩,
    ⟨.WORD, .CITY, [.PROV, .CITY, .NATION]⟩],
  [⟨.TYPE, .PRETYP, [.WORD]⟩, ⟨.WORD, .STREET, [.NUMBER]⟩, ⟨.NUMBER, .HOUSE, []⟩, ⟨.QUINT, .POSTAL, []⟩, ⟨.WORD, .CITY, [.CITY]⟩,
    ⟨.NATION, .NATION, [.PROV, .CITY]⟩],
  [⟨.BOXH, .BOXH, []⟩, ⟨.NUMBER, .BOXT, []⟩, ⟨.QUINT, .POSTAL, [.CITY]⟩, ⟨.WORD, .CITY, [.CITY]⟩],
  [⟨.WORD, .STREET, [.TYPE]⟩, ⟨.WORD, .STREET, [.BOXH, .NUMBER]⟩, ⟨.NUMBER, .HOUSE, [.DASH]⟩,
    ⟨.QUINT, .POSTAL, [.WORD, .CITY, .DASH]⟩, ⟨.WORD, .CITY, [.CITY, .NATION, .NUMBER]⟩],
  [⟨.WORD, .STREET, [.BOXH]⟩, ⟨.NUMBER, .HOUSE, []⟩, ⟨.UNITH, .UNITH, [.WORD, .CITY, .BOXH, .NUMBER, .DASH]⟩,
    ⟨.NUMBER, .UNITT, [.CITY, .DASH]⟩, ⟨.QUINT, .POSTAL, [.WORD, .CITY, .NATION]⟩, ⟨.WORD, .CITY, [.CITY, .NATION, .UNITH, .NUMBER]⟩],
  [⟨.TYPE, .PRETYP, [.WORD]⟩, ⟨.WORD, .STREET, [.NUMBER]⟩, ⟨.WORD, .STREET, [.NUMBER]⟩, ⟨.NUMBER, .HOUSE, []⟩, ⟨.QUINT, .POSTAL, []⟩,
    ⟨.WORD, .CITY, [.CITY]⟩]]

def sweden : List Form := [
  [⟨.WORD, .STREET, [.BOXH]⟩, ⟨.NUMBER, .HOUSE, []⟩, ⟨.QUINT, .POSTAL, []⟩, ⟨.WORD, .CITY, [.CITY]⟩],
  [⟨.WORD, .STREET, [.BOXH]⟩, ⟨.NUMBER, .HOUSE, []⟩, ⟨.QUINT, .POSTAL, []⟩, ⟨.CITY, .CITY, []⟩],
  [⟨.WORD, .STREET, [.BOXH]⟩, ⟨.NUMBER, .HOUSE, [.TYPE]⟩, ⟨.QUINT, .POSTAL, []⟩, ⟨.WORD, .CITY, [.CITY]⟩,
    ⟨.WORD, .CITY, [.CITY, .NATION]⟩],
  [⟨.WORD, .STREET, [.BOXH]⟩, ⟨.NUMBER, .HOUSE, [.TYPE]⟩, ⟨.QUINT, .POSTAL, []⟩, ⟨.WORD, .CITY, [.CITY]⟩,
    ⟨.NATION, .NATION, [.CITY]⟩],
  [⟨.WORD, .STREET, []⟩, ⟨.TYPE, .SUFTYP, [.NUMBER]⟩, ⟨.NUMBER, .HOUSE, []⟩, ⟨.QUINT, .POSTAL, []⟩, ⟨.WORD, .CITY, [.CITY]⟩],
  [⟨.WORD, .STREET, []⟩, ⟨.TYPE, .SUFTYP, [.NUMBER]⟩, ⟨.NUMBER, .HOUSE, []⟩, ⟨.QUINT, .POSTAL, []⟩, ⟨.CITY, .CITY, []⟩],
  [⟨.WORD, .STREET, []⟩, ⟨.TYPE, .SUFTYP, [.NUMBER]⟩, ⟨.NUMBER, .HOUSE, []⟩, ⟨.QUINT, .POSTAL, []⟩, ⟨.WORD, .CITY, [.CITY]⟩,
    ⟨.WORD, .CITY, [.CITY, .NATION]⟩],
  [⟨.WORD, .STREET, []⟩, ⟨.TYPE, .SUFTYP, [.NUMBER]⟩, ⟨.NUMBER, .HOUSE, []⟩, ⟨.QUINT, .POSTAL, []⟩, ⟨.WORD, .CITY, [.CITY]⟩,
    ⟨.NATION, .NATION, [.CITY]⟩],
  [⟨.BOXH, .BOXH, []⟩, ⟨.NUMBER, .BOXT, []⟩, ⟨.QUINT, .POSTAL, []⟩, ⟨.WORD, .CITY, [.CITY]⟩],
  [⟨.WORD, .STREET, []⟩, ⟨.WORD, .STREET, [.TYPE, .NUMBER]⟩, ⟨.NUMBER, .HOUSE, []⟩, ⟨.QUINT, .POSTAL, []⟩, ⟨.WORD, .CITY, [.CITY]⟩],
  [⟨.WORD, .STREET, []⟩, ⟨.NUMBER, .HOUSE, []⟩, ⟨.UNITH, .UNITH, [.TYPE, .NUMBER]⟩,
    ⟨.NUMBER, .UNITT, [.WORD, .CITY, .UNITT, .MIXED, .DASH]⟩, ⟨.QUINT, .POSTAL, []⟩, ⟨.WORD, .CITY, [.CITY]⟩],
  [⟨.WORD, .STREET, []⟩, ⟨.WORD, .STREET, [.NUMBER]⟩, ⟨.TYPE, .SUFTYP, [.NUMBER]⟩, ⟨.NUMBER, .HOUSE, []⟩, ⟨.QUINT, .POSTAL, []⟩,
    ⟨.WORD, .CITY, [.CITY]⟩]]

def switzerland : List Form := [
  [⟨.WORD, .STREET, [.BOXH]⟩, ⟨.NUMBER, .HOUSE, []⟩, ⟨.QUAD, .POSTAL, []⟩, ⟨.WORD, .CITY, [.DIRECT, .CITY]⟩],
  [⟨.WORD, .STREET, [.BOXH]⟩, ⟨.NUMBER, .HOUSE, []⟩, ⟨.QUAD, .POSTAL, []⟩, ⟨.CITY, .CITY, []⟩],
  [⟨.WORD, .STREET, [.TYPE, .BOXH]⟩, ⟨.NUMBER, .HOUSE, [.TYPE]⟩, ⟨.QUAD, .POSTAL, [.DOUBLE, .SINGLE]⟩,
    ⟨.WORD, .CITY, [.DIRECT, .CITY]⟩, ⟨.WORD, .CITY, [.DIRECT, .PROV, .CITY, .NATION]⟩],
  [⟨.WORD, .STREET, [.TYPE, .BOXH]⟩, ⟨.NUMBER, .HOUSE, [.TYPE]⟩, ⟨.QUAD, .POSTAL, []⟩, ⟨.WORD, .CITY, [.DIRECT, .CITY]⟩,
    ⟨.NATION, .NATION, [.PROV, .CITY]⟩],
  [⟨.WORD, .STREET, [.TYPE]⟩, ⟨.TYPE, .SUFTYP, [.NUMBER]⟩, ⟨.NUMBER, .HOUSE, []⟩, ⟨.QUAD, .POSTAL, []⟩,
    ⟨.WORD, .CITY, [.DIRECT, .CITY]⟩],
  [⟨.WORD, .STREET, [.TYPE]⟩, ⟨.TYPE, .SUFTYP, [.NUMBER]⟩, ⟨.NUMBER, .HOUSE, []⟩, ⟨.QUAD, .POSTAL, []⟩, ⟨.CITY, .CITY, []⟩],
  [⟨.WORD, .STREET, [.TYPE]⟩, ⟨.TYPE, .SUFTYP, [.NUMBER]⟩, ⟨.NUMBER, .HOUSE, []⟩, ⟨.QUAD, .POSTAL, [.DOUBLE, .SINGLE]⟩,
    ⟨.WORD, .CITY, [.DIRECT, .CITY]⟩, ⟨.WORD, .CITY, [.DIRECT, .PROV, .CITY, .NATION]⟩],
  [⟨.WORD, .STREET, [.TYPE]⟩, ⟨.TYPE, .SUFTYP, [.NUMBER]⟩, ⟨.NUMBER, .HOUSE, []⟩, ⟨.QUAD, .POSTAL, []⟩,
    ⟨.WORD, .CITY, [.DIRECT, .CITY, .NUMBER, .MIXED]⟩, ⟨.NATION, .NATION, [.PROV, .CITY]⟩],
  [⟨.TYPE, .PRETYP, []⟩, ⟨.WORD, .STREET, [.TYPE, .NUMBER]⟩, ⟨.NUMBER, .HOUSE, []⟩, ⟨.QUAD, .POSTAL, []⟩,
    ⟨.WORD, .CITY, [.DIRECT, .CITY]⟩],
  [⟨.TYPE, .PRETYP, []⟩, ⟨.WORD, .STREET, [.TYPE, .NUMBER]⟩, ⟨.NUMBER, .HOUSE, []⟩, ⟨.QUAD, .POSTAL, []⟩, ⟨.CITY, .CITY, []⟩],
  [⟨.TYPE, .PRETYP, []⟩, ⟨.WORD, .STREET, [.TYPE, .NUMBER]⟩, ⟨.NUMBER, .HOUSE, []⟩, ⟨.QUAD, .POSTAL, [.DOUBLE, .SINGLE]⟩,
    ⟨.WORD, .CITY, [.DIRECT, .CITY, .MIXED]⟩, ⟨.WORD, .CITY, [.DIRECT, .PROV, .CITY, .NATION, .NUMBER, .MIXED]⟩],
  [⟨.TYPE, .PRETYP, []⟩, ⟨.WORD, .STREET, [.TYPE, .NUMBER]⟩, ⟨.NUMBER, .HOUSE, []⟩, ⟨.QUAD, .POSTAL, []⟩,
    ⟨.WORD, .CITY, [.DIRECT, .CITY, .UNITT, .NUMBER, .MIXED]⟩, ⟨.NATION, .NATION, [.PROV, .CITY, .UNITT, .NUMBER, .MIXED]⟩],
  [⟨.BOXH, .BOXH, []⟩, ⟨.NUMBER, .BOXT, []⟩, ⟨.QUAD, .POSTAL, []⟩, ⟨.WORD, .CITY, [.DIRECT, .CITY]⟩],
  [⟨.WORD, .STREET, [.TYPE]⟩, ⟨.WORD, .STREET, [.TYPE, .NUMBER]⟩, ⟨.NUMBER, .HOUSE, []⟩, ⟨.QUAD, .POSTAL, []⟩,
    ⟨.WORD, .CITY, [.DIRECT, .CITY]⟩],
  [⟨.WORD, .STREET, [.TYPE, .BOXH]⟩, ⟨.NUMBER, .HOUSE, []⟩, ⟨.UNITH, .UNITH, [.TYPE, .BOXH, .NUMBER]⟩,
    ⟨.NUMBER, .UNITT, [.WORD, .CITY, .UNITT, .MIXED]⟩, ⟨.QUAD, .POSTAL, [.CITY, .MIXED]⟩,
    ⟨.WORD, .CITY, [.DIRECT, .PROV, .CITY, .NATION, .NUMBER]⟩],
  [⟨.TYPE, .PRETYP, []⟩, ⟨.WORD, .STREET, [.NUMBER]⟩, ⟨.WORD, .STREET, [.TYPE, .NUMBER]⟩, ⟨.NUMBER, .HOUSE, []⟩,
    ⟨.QUAD, .POSTAL, []⟩, ⟨.WORD, .CITY, [.DIRECT, .CITY]⟩],
  [⟨.WORD, .STREET, [.TYPE]⟩, ⟨.WORD, .STREET, [.NUMBER]⟩, ⟨.TYPE, .SUFTYP, [.NUMBER]⟩, ⟨.NUMBER, .HOUSE, []⟩, ⟨.QUAD, .POSTAL, []⟩,
    ⟨.WORD, .CITY, [.DIRECT, .CITY]⟩]]

def usa : List Form := [
  [⟨.NUMBER, .HOUSE, [.RR, .MIXED, .FRACT]⟩,
    ⟨.WORD, .STREET, [.DOUBLE, .SINGLE, .TYPE, .ROAD, .DIRECT, .QUALIF, .ORD, .MILE, .NUMBER, .MIXED, .FRACT, .SLASH]⟩,
    ⟨.TYPE, .SUFTYP, [.DIRECT, .CITY, .QUALIF]⟩, ⟨.WORD, .CITY, [.CITY]⟩, ⟨.PROV, .PROV, [.NATION]⟩],
  [⟨.NUMBER, .HOUSE, [.RR, .MIXED, .FRACT]⟩,
    ⟨.WORD, .STREET, [.DOUBLE, .SINGLE, .TYPE, .ROAD, .DIRECT, .QUALIF, .ORD, .MILE, .NUMBER, .MIXED, .FRACT, .SLASH]⟩,
    ⟨.TYPE, .SUFTYP, [.DIRECT, .QUALIF]⟩, ⟨.CITY, .CITY, []⟩, ⟨.PROV, .PROV, [.NATION]⟩],
  [⟨.NUMBER, .HOUSE, [.RR, .MIXED, .FRACT]⟩,
    ⟨.WORD, .STREET, [.DOUBLE, .SINGLE, .TYPE, .ROAD, .DIRECT, .QUALIF, .ORD, .MILE, .NUMBER, .MIXED, .FRACT, .SLASH]⟩,
    ⟨.TYPE, .SUFTYP, [.ROAD, .DIRECT, .QUALIF, .AMPERS]⟩, ⟨.WORD, .CITY, [.DIRECT, .PROV, .QUALIF]⟩, ⟨.WORD, .CITY, [.PROV, .CITY]⟩,
    ⟨.PROV, .PROV, []⟩],
  [⟨.NUMBER, .HOUSE, [.RR, .MIXED, .FRACT]⟩,
    ⟨.WORD, .STREET, [.DOUBLE, .SINGLE, .TYPE, .ROAD, .DIRECT, .PROV, .QUALIF, .ORD, .MILE, .NUMBER, .MIXED, .FRACT, .SLASH]⟩,
    ⟨.TYPE, .SUFTYP, [.DIRECT, .CITY, .QUALIF, .UNITH, .AMPERS]⟩, ⟨.WORD, .CITY, [.CITY, .QUALIF, .UNITH, .ORD, .NUMBER, .MIXED]⟩,
    ⟨.PROV, .PROV, [.CITY, .QUALIF, .UNITH, .NUMBER, .PCH, .AMPERS]⟩, ⟨.NATION, .NATION, [.PROV, .CITY, .QUALIF, .NUMBER, .PCH]⟩],
  [⟨.NUMBER, .HOUSE, [.RR, .MIXED, .FRACT]⟩, ⟨.DIRECT, .PREDIR, [.TYPE, .QUALIF, .ORD, .MILE, .NUMBER, .MIXED, .FRACT]⟩,
    ⟨.WORD, .STREET, [.DOUBLE, .SINGLE, .TYPE, .ROAD, .DIRECT, .QUALIF, .ORD, .NUMBER, .MIXED, .AMPERS]⟩,
    ⟨.TYPE, .SUFTYP, [.WORD, .ROAD, .DIRECT, .PROV, .CITY, .QUALIF, .UNITH, .NUMBER, .AMPERS]⟩,
    ⟨.WORD, .CITY, [.DIRECT, .CITY, .QUALIF, .UNITH]⟩, ⟨.PROV, .PROV, []⟩],
  [⟨.NUMBER, .HOUSE, [.RR, .MIXED, .FRACT]⟩,
    ⟨.WORD, .STREET, [.DOUBLE, .SINGLE, .TYPE, .ROAD, .DIRECT, .QUALIF, .ORD, .MILE, .NUMBER, .MIXED, .FRACT, .SLASH]⟩,
    ⟨.TYPE, .SUFTYP, [.ROAD, .DIRECT, .QUALIF, .UNITH, .AMPERS]⟩, ⟨.UNITH, .UNITH, [.DIRECT, .CITY, .QUALIF]⟩,
    ⟨.NUMBER, .UNITT, [.DIRECT, .PROV, .CITY, .QUALIF, .UNITH, .PCH]⟩,
    ⟨.WORD, .CITY, [.PROV, .CITY, .NATION, .QUALIF, .UNITH, .NUMBER, .DASH]⟩, ⟨.PROV, .PROV, [.CITY, .NATION, .QUALIF]⟩],
  [⟨.NUMBER, .HOUSE, [.RR, .MIXED, .FRACT]⟩,
    ⟨.ORD, .STREET, [.TYPE, .ROAD, .DIRECT, .QUALIF, .MILE, .NUMBER, .MIXED, .FRACT, .SLASH]⟩,
    ⟨.TYPE, .SUFTYP, [.WORD, .ROAD, .DIRECT, .CITY, .QUALIF, .UNITH, .ORD, .NUMBER, .MIXED, .AMPERS]⟩,
    ⟨.WORD, .CITY, [.TYPE, .DIRECT, .CITY, .QUALIF, .ORD, .NUMBER, .MIXED, .AMPERS]⟩, ⟨.PROV, .PROV, [.WORD, .UNITH, .NUMBER]⟩],
  [⟨.BOXH, .BOXH, [.RR, .NUMBER, .MIXED, .FRACT]⟩, ⟨.NUMBER, .BOXT, []⟩, ⟨.WORD, .CITY, [.CITY]⟩, ⟨.PROV, .PROV, []⟩],
  [⟨.NUMBER, .HOUSE, [.RR, .MIXED, .FRACT]⟩, ⟨.WORD, .STREET, [.DOUBLE, .SINGLE, .ORD, .NUMBER, .MIXED, .FRACT, .SLASH]⟩,
    ⟨.WORD, .CITY, [.CITY, .NUMBER]⟩, ⟨.PROV, .PROV, []⟩],
  [⟨.NUMBER, .HOUSE, [.RR, .MIXED, .FRACT]⟩,
    ⟨.WORD, .STREET, [.DOUBLE, .SINGLE, .TYPE, .ROAD, .DIRECT, .QUALIF, .ORD, .MILE, .NUMBER, .MIXED, .FRACT, .SLASH]⟩,
    ⟨.WORD, .STREET, [.TYPE, .ROAD, .DIRECT, .QUALIF, .AMPERS]⟩, ⟨.TYPE, .SUFTYP, [.DIRECT, .PROV, .CITY, .QUALIF, .UNITH, .NUMBER]⟩,
    ⟨.WORD, .CITY, [.CITY]⟩, ⟨.PROV, .PROV, [.NATION, .PCH]⟩],
  [⟨.NUMBER, .HOUSE, [.RR, .MIXED, .FRACT]⟩, ⟨.TYPE, .PRETYP, [.ROAD, .DIRECT, .QUALIF, .ORD, .MILE, .NUMBER, .MIXED, .FRACT]⟩,
    ⟨.WORD, .STREET, [.DOUBLE, .SINGLE, .TYPE, .ROAD, .DIRECT, .CITY, .QUALIF, .UNITH, .ORD, .NUMBER, .MIXED, .AMPERS]⟩,
    ⟨.WORD, .CITY, [.TYPE, .DIRECT, .PROV, .CITY, .QUALIF, .AMPERS]⟩, ⟨.PROV, .PROV, [.NUMBER]⟩],
  [⟨.NUMBER, .HOUSE, [.RR, .MIXED, .FRACT]⟩,
    ⟨.WORD, .STREET, [.DOUBLE, .SINGLE, .TYPE, .ROAD, .DIRECT, .PROV, .QUALIF, .ORD, .MILE, .NUMBER, .MIXED, .FRACT, .SLASH]⟩,
    ⟨.TYPE, .SUFTYP, [.DIRECT, .CITY, .QUALIF, .UNITH, .AMPERS]⟩, ⟨.WORD, .CITY, [.CITY, .QUALIF, .UNITH, .ORD, .NUMBER, .MIXED]⟩,
    ⟨.PROV, .PROV, [.CITY, .QUALIF, .UNITH, .NUMBER, .PCH, .AMPERS]⟩, ⟨.QUINT, .POSTAL, [.PROV, .CITY, .NATION, .QUALIF, .PCH]⟩],
  [⟨.NUMBER, .HOUSE, [.RR, .MIXED, .FRACT]⟩,
    ⟨.WORD, .STREET, [.DOUBLE, .SINGLE, .TYPE, .ROAD, .DIRECT, .PROV, .QUALIF, .ORD, .MILE, .NUMBER, .MIXED, .FRACT, .SLASH]⟩,
    ⟨.TYPE, .SUFTYP, [.DIRECT, .CITY, .QUALIF, .UNITH, .AMPERS]⟩, ⟨.CITY, .CITY, [.QUALIF, .ORD, .NUMBER, .MIXED]⟩,
    ⟨.PROV, .PROV, [.DIRECT, .CITY, .QUALIF, .UNITH, .NUMBER, .PCH, .AMPERS]⟩, ⟨.QUINT, .POSTAL, [.NATION, .PCH]⟩],
  [⟨.NUMBER, .HOUSE, [.RR, .MIXED, .FRACT]⟩,
    ⟨.WORD, .STREET, [.DOUBLE, .SINGLE, .TYPE, .ROAD, .DIRECT, .QUALIF, .ORD, .MILE, .NUMBER, .MIXED, .FRACT, .SLASH]⟩,
    ⟨.TYPE, .SUFTYP, [.ROAD, .DIRECT, .QUALIF, .UNITH, .AMPERS]⟩, ⟨.WORD, .CITY, [.DIRECT, .QUALIF, .UNITH]⟩,
    ⟨.WORD, .CITY, [.PROV, .CITY, .QUALIF, .UNITH, .NUMBER, .PCH]⟩, ⟨.PROV, .PROV, [.CITY, .QUALIF, .UNITH, .DASH]⟩,
    ⟨.QUINT, .POSTAL, [.PROV, .NATION, .QUALIF, .PCH]⟩],
  [⟨.NUMBER, .HOUSE, [.RR, .MIXED, .FRACT]⟩,
    ⟨.WORD, .STREET, [.DOUBLE, .SINGLE, .TYPE, .ROAD, .DIRECT, .QUALIF, .ORD, .MILE, .NUMBER, .MIXED, .FRACT, .SLASH]⟩,
    ⟨.TYPE, .SUFTYP, [.ROAD, .DIRECT, .CITY, .QUALIF, .UNITH, .AMPERS]⟩, ⟨.WORD, .CITY, [.PROV, .CITY, .QUALIF, .UNITH]⟩,
    ⟨.PROV, .PROV, [.DIRECT, .CITY, .QUALIF, .UNITH]⟩, ⟨.QUINT, .POSTAL, [.PROV, .CITY, .NATION, .QUALIF, .UNITH, .PCH]⟩,
    ⟨.NATION, .NATION, [.PROV, .CITY, .QUALIF, .NUMBER]⟩],
  [⟨.NUMBER, .HOUSE, [.RR, .MIXED, .FRACT]⟩,
    ⟨.DIRECT, .PREDIR, [.WORD, .TYPE, .ROAD, .QUALIF, .ORD, .MILE, .NUMBER, .MIXED, .FRACT]⟩,
    ⟨.WORD, .STREET, [.DOUBLE, .SINGLE, .TYPE, .ROAD, .DIRECT, .CITY, .QUALIF, .ORD, .NUMBER, .MIXED, .AMPERS]⟩,
    ⟨.TYPE, .SUFTYP, [.WORD, .ROAD, .DIRECT, .PROV, .CITY, .QUALIF, .UNITH, .NUMBER, .AMPERS]⟩,
    ⟨.WORD, .CITY, [.DIRECT, .CITY, .QUALIF, .UNITH]⟩, ⟨.PROV, .PROV, []⟩, ⟨.QUINT, .POSTAL, [.NATION, .PCH]⟩],
  [⟨.NUMBER, .HOUSE, [.RR, .MIXED, .FRACT]⟩,
    ⟨.WORD, .STREET, [.DOUBLE, .SINGLE, .TYPE, .ROAD, .DIRECT, .QUALIF, .ORD, .MILE, .NUMBER, .MIXED, .FRACT, .SLASH]⟩,
    ⟨.TYPE, .SUFTYP, [.ROAD, .DIRECT, .CITY, .QUALIF, .UNITH, .AMPERS]⟩, ⟨.UNITH, .UNITH, [.DIRECT, .PROV, .CITY, .QUALIF]⟩,
    ⟨.NUMBER, .UNITT, [.DIRECT, .PROV, .CITY, .QUALIF, .UNITH]⟩, ⟨.WORD, .CITY, [.TYPE, .DIRECT, .PROV, .CITY, .QUALIF]⟩,
    ⟨.PROV, .PROV, [.WORD, .TYPE, .DIRECT, .CITY, .QUALIF, .UNITH, .NUMBER]⟩, ⟨.QUINT, .POSTAL, [.NATION, .PCH]⟩],
  [⟨.NUMBER, .HOUSE, [.RR, .MIXED, .FRACT]⟩,
    ⟨.ORD, .STREET, [.SINGLE, .TYPE, .ROAD, .DIRECT, .QUALIF, .MILE, .NUMBER, .MIXED, .FRACT, .SLASH]⟩,
    ⟨.TYPE, .SUFTYP, [.WORD, .ROAD, .DIRECT, .PROV, .CITY, .QUALIF, .UNITH, .ORD, .NUMBER, .MIXED, .AMPERS]⟩,
    ⟨.WORD, .CITY, [.DIRECT, .CITY, .QUALIF, .ORD, .NUMBER, .MIXED, .AMPERS]⟩,
    ⟨.PROV, .PROV, [.WORD, .TYPE, .DIRECT, .CITY, .QUALIF, .UNITH, .NUMBER, .AMPERS]⟩, ⟨.QUINT, .POSTAL, [.NATION, .PCH]⟩],
  [⟨.BOXH, .BOXH, [.RR, .MILE, .NUMBER, .MIXED, .FRACT]⟩, ⟨.NUMBER, .BOXT, []⟩, ⟨.WORD, .CITY, [.CITY, .ORD, .NUMBER, .MIXED]⟩,
    ⟨.PROV, .PROV, [.QUALIF, .UNITH, .ORD, .NUMBER, .MIXED]⟩, ⟨.QUINT, .POSTAL, [.PROV, .NATION, .PCH]⟩],
  [⟨.NUMBER, .HOUSE, [.RR, .MIXED, .FRACT]⟩,
    ⟨.WORD, .STREET, [.DOUBLE, .SINGLE, .DIRECT, .QUALIF, .ORD, .MILE, .NUMBER, .MIXED, .FRACT, .SLASH]⟩,
    ⟨.WORD, .CITY, [.ROAD, .DIRECT, .CITY, .QUALIF, .UNITH, .ORD, .NUMBER, .MIXED, .AMPERS]⟩,
    ⟨.PROV, .PROV, [.DIRECT, .QUALIF, .UNITH, .NUMBER, .AMPERS]⟩, ⟨.QUINT, .POSTAL, [.PROV, .NATION, .PCH]⟩],
  [⟨.NUMBER, .HOUSE, [.RR, .MIXED, .FRACT]⟩,
    ⟨.WORD, .STREET, [.DOUBLE, .SINGLE, .TYPE, .ROAD, .DIRECT, .QUALIF, .ORD, .MILE, .NUMBER, .MIXED, .FRACT, .SLASH]⟩,
    ⟨.WORD, .STREET, [.TYPE, .ROAD, .DIRECT, .QUALIF, .UNITH, .AMPERS]⟩, ⟨.TYPE, .SUFTYP, [.DIRECT, .QUALIF]⟩,
    ⟨.WORD, .CITY, [.PROV, .CITY, .QUALIF, .UNITH, .NUMBER, .PCH]⟩, ⟨.PROV, .PROV, [.QUALIF, .UNITH, .DASH]⟩,
    ⟨.QUINT, .POSTAL, [.PROV, .NATION, .PCH]⟩],
  [⟨.NUMBER, .HOUSE, [.RR, .MIXED, .FRACT]⟩,
    ⟨.TYPE, .PRETYP, [.WORD, .ROAD, .DIRECT, .QUALIF, .ORD, .MILE, .NUMBER, .MIXED, .FRACT]⟩,
    ⟨.WORD, .STREET, [.DOUBLE, .SINGLE, .TYPE, .ROAD, .DIRECT, .CITY, .QUALIF, .UNITH, .ORD, .NUMBER, .MIXED, .AMPERS]⟩,
    ⟨.WORD, .CITY, [.TYPE, .ROAD, .DIRECT, .PROV, .CITY, .QUALIF]⟩,
    ⟨.PROV, .PROV, [.WORD, .TYPE, .DIRECT, .CITY, .QUALIF, .UNITH, .NUMBER]⟩, ⟨.QUINT, .POSTAL, [.NATION, .PCH]⟩],
  [⟨.NUMBER, .HOUSE, [.RR, .MIXED, .FRACT]⟩,
    ⟨.WORD, .STREET, [.DOUBLE, .SINGLE, .TYPE, .ROAD, .DIRECT, .QUALIF, .ORD, .MILE, .NUMBER, .MIXED, .FRACT, .SLASH]⟩,
    ⟨.TYPE, .SUFTYP, [.ROAD, .DIRECT, .CITY, .QUALIF, .UNITH, .AMPERS]⟩, ⟨.WORD, .CITY, [.CITY, .QUALIF, .UNITH]⟩,
    ⟨.PROV, .PROV, [.DIRECT, .CITY, .QUALIF, .UNITH, .NUMBER, .PCH]⟩,
    ⟨.PCH, .POSTAL, [.QUINT, .PROV, .NATION, .QUALIF, .UNITH, .NUMBER, .DASH]⟩, ⟨.PCT, .POSTAL, [.PROV, .NATION, .QUALIF]⟩],
  [⟨.NUMBER, .HOUSE, [.RR, .MIXED, .FRACT]⟩,
    ⟨.WORD, .STREET, [.DOUBLE, .SINGLE, .TYPE, .ROAD, .DIRECT, .QUALIF, .ORD, .MILE, .NUMBER, .MIXED, .FRACT, .SLASH]⟩,
    ⟨.TYPE, .SUFTYP, [.ROAD, .DIRECT, .CITY, .QUALIF, .UNITH, .AMPERS]⟩, ⟨.CITY, .CITY, [.PROV, .QUALIF, .UNITH]⟩,
    ⟨.PROV, .PROV, [.DIRECT, .CITY, .QUALIF, .UNITH]⟩,
    ⟨.PCH, .POSTAL, [.QUINT, .DIRECT, .PROV, .CITY, .NATION, .QUALIF, .UNITH, .NUMBER]⟩, ⟨.PCT, .POSTAL, [.PROV, .NATION]⟩],
  [⟨.NUMBER, .HOUSE, [.RR, .MIXED, .FRACT]⟩,
    ⟨.WORD, .STREET, [.DOUBLE, .SINGLE, .TYPE, .ROAD, .DIRECT, .QUALIF, .ORD, .MILE, .NUMBER, .MIXED, .FRACT, .SLASH]⟩,
    ⟨.TYPE, .SUFTYP, [.ROAD, .DIRECT, .QUALIF, .UNITH, .AMPERS]⟩, ⟨.WORD, .CITY, [.DIRECT, .PROV, .CITY, .QUALIF, .UNITH]⟩,
    ⟨.WORD, .CITY, [.DIRECT, .PROV, .CITY, .QUALIF, .UNITH]⟩, ⟨.PROV, .PROV, [.DIRECT, .CITY, .QUALIF, .UNITH]⟩,
    ⟨.PCH, .POSTAL, [.QUINT, .PROV, .CITY, .NATION, .QUALIF, .UNITH, .NUMBER]⟩, ⟨.PCT, .POSTAL, [.PROV, .CITY, .NATION, .QUALIF]⟩],
  [⟨.NUMBER, .HOUSE, [.RR, .MIXED, .FRACT]⟩,
    ⟨.WORD, .STREET, [.DOUBLE, .SINGLE, .TYPE, .ROAD, .DIRECT, .QUALIF, .ORD, .MILE, .NUMBER, .MIXED, .FRACT, .SLASH]⟩,
    ⟨.TYPE, .SUFTYP, [.ROAD, .DIRECT, .CITY, .QUALIF, .UNITH, .AMPERS]⟩, ⟨.WORD, .CITY, [.DIRECT, .PROV, .CITY, .QUALIF, .UNITH]⟩,
    ⟨.PROV, .PROV, [.DIRECT, .CITY, .QUALIF, .UNITH]⟩, ⟨.PCH, .POSTAL, [.QUINT, .PROV, .CITY, .NATION, .QUALIF, .UNITH, .NUMBER]⟩,
    ⟨.PCT, .POSTAL, [.DIRECT, .PROV, .CITY, .NATION, .QUALIF, .UNITH]⟩, ⟨.NATION, .NATION, [.PROV]⟩],
  [⟨.NUMBER, .HOUSE, [.RR, .MIXED, .FRACT]⟩,
    ⟨.DIRECT, .PREDIR, [.WORD, .TYPE, .ROAD, .QUALIF, .ORD, .MILE, .NUMBER, .MIXED, .FRACT]⟩,
    ⟨.WORD, .STREET, [.DOUBLE, .SINGLE, .TYPE, .ROAD, .DIRECT, .CITY, .QUALIF, .ORD, .NUMBER, .MIXED, .AMPERS]⟩,
    ⟨.TYPE, .SUFTYP, [.WORD, .ROAD, .DIRECT, .PROV, .CITY, .QUALIF, .UNITH, .NUMBER, .AMPERS]⟩,
    ⟨.WORD, .CITY, [.DIRECT, .CITY, .QUALIF, .UNITH]⟩, ⟨.PROV, .PROV, []⟩, ⟨.PCH, .POSTAL, [.QUINT, .WORD, .PROV, .NATION, .NUMBER]⟩,
    ⟨.PCT, .POSTAL, [.NATION]⟩],
  [⟨.NUMBER, .HOUSE, [.RR, .MIXED, .FRACT]⟩,
    ⟨.WORD, .STREET, [.DOUBLE, .SINGLE, .TYPE, .ROAD, .DIRECT, .QUALIF, .ORD, .MILE, .NUMBER, .MIXED, .FRACT, .SLASH]⟩,
    ⟨.TYPE, .SUFTYP, [.ROAD, .DIRECT, .QUALIF, .UNITH, .AMPERS]⟩, ⟨.UNITH, .UNITH, [.TYPE, .DIRECT, .PROV, .CITY, .QUALIF]⟩,
    ⟨.NUMBER, .UNITT, [.TYPE, .DIRECT, .PROV, .CITY, .QUALIF, .UNITH]⟩, ⟨.WORD, .CITY, [.TYPE, .DIRECT, .PROV, .CITY, .QUALIF]⟩,
    ⟨.PROV, .PROV, [.WORD, .TYPE, .DIRECT, .CITY, .QUALIF, .UNITH, .NUMBER]⟩, ⟨.PCH, .POSTAL, [.QUINT, .NATION, .NUMBER]⟩,
    ⟨.PCT, .POSTAL, [.NATION]⟩],
  [⟨.NUMBER, .HOUSE, [.RR, .MIXED, .FRACT]⟩,
    ⟨.ORD, .STREET, [.SINGLE, .WORD, .TYPE, .ROAD, .DIRECT, .QUALIF, .MILE, .NUMBER, .MIXED, .FRACT, .SLASH]⟩,
    ⟨.TYPE, .SUFTYP, [.WORD, .ROAD, .DIRECT, .PROV, .CITY, .QUALIF, .ORD, .NUMBER, .MIXED]⟩,
    ⟨.WORD, .CITY, [.TYPE, .DIRECT, .CITY, .QUALIF, .UNITH, .ORD, .NUMBER, .MIXED, .AMPERS]⟩,
    ⟨.PROV, .PROV, [.WORD, .TYPE, .DIRECT, .CITY, .QUALIF, .UNITH, .NUMBER, .AMPERS]⟩, ⟨.PCH, .POSTAL, [.QUINT, .NUMBER]⟩,
    ⟨.PCT, .POSTAL, [.NATION]⟩],
  [⟨.BOXH, .BOXH, [.DIRECT, .RR, .MILE, .NUMBER, .MIXED, .FRACT]⟩, ⟨.NUMBER, .BOXT, []⟩, ⟨.WORD, .CITY, [.CITY]⟩, ⟨.PROV, .PROV, []⟩,
    ⟨.PCH, .POSTAL, [.QUINT, .PROV]⟩, ⟨.PCT, .POSTAL, [.PROV, .NATION]⟩],
  [⟨.NUMBER, .HOUSE, [.RR, .MIXED, .FRACT]⟩,
    ⟨.WORD, .STREET, [.DOUBLE, .SINGLE, .ROAD, .DIRECT, .QUALIF, .ORD, .MILE, .NUMBER, .MIXED, .FRACT, .SLASH]⟩,
    ⟨.WORD, .CITY, [.TYPE, .ROAD, .DIRECT, .CITY, .QUALIF, .UNITH, .ORD, .NUMBER, .MIXED, .AMPERS]⟩,
    ⟨.PROV, .PROV, [.TYPE, .DIRECT, .CITY, .QUALIF, .UNITH, .NUMBER, .AMPERS]⟩,
    ⟨.PCH, .POSTAL, [.QUINT, .DIRECT, .PROV, .NATION, .QUALIF, .UNITH, .NUMBER]⟩, ⟨.PCT, .POSTAL, [.PROV, .NATION]⟩],
  [⟨.NUMBER, .HOUSE, [.RR, .MIXED, .FRACT]⟩,
    ⟨.WORD, .STREET, [.DOUBLE, .SINGLE, .TYPE, .ROAD, .DIRECT, .QUALIF, .ORD, .MILE, .NUMBER, .MIXED, .FRACT, .SLASH]⟩,
    ⟨.WORD, .STREET, [.TYPE, .ROAD, .DIRECT, .QUALIF, .UNITH, .AMPERS]⟩, ⟨.TYPE, .SUFTYP, [.DIRECT, .PROV, .CITY, .QUALIF, .UNITH]⟩,
    ⟨.WORD, .CITY, [.DIRECT, .PROV, .CITY, .QUALIF, .UNITH]⟩, ⟨.PROV, .PROV, [.CITY, .QUALIF, .UNITH]⟩,
    ⟨.PCH, .POSTAL, [.QUINT, .PROV, .CITY, .NATION, .QUALIF, .UNITH, .NUMBER]⟩, ⟨.PCT, .POSTAL, [.PROV, .CITY, .NATION]⟩],
  [⟨.NUMBER, .HOUSE, [.RR, .MIXED, .FRACT]⟩,
    ⟨.TYPE, .PRETYP, [.SINGLE, .ROAD, .DIRECT, .QUALIF, .ORD, .MILE, .NUMBER, .MIXED, .FRACT]⟩,
    ⟨.WORD, .STREET, [.DOUBLE, .SINGLE, .TYPE, .ROAD, .DIRECT, .CITY, .QUALIF, .UNITH, .ORD, .NUMBER, .MIXED, .AMPERS]⟩,
    ⟨.WORD, .CITY, [.TYPE, .ROAD, .PROV, .CITY, .QUALIF]⟩, ⟨.PROV, .PROV, [.WORD, .TYPE, .DIRECT, .CITY, .QUALIF, .UNITH, .NUMBER]⟩,
    ⟨.PCH, .POSTAL, [.QUINT, .NATION, .NUMBER]⟩, ⟨.PCT, .POSTAL, [.NATION]⟩]]

def vatican : List Form := [
  [⟨.WORD, .STREET, [.PLACEN, .BOXH]⟩, ⟨.NUMBER, .HOUSE, []⟩, ⟨.QUINT, .POSTAL, []⟩, ⟨.WORD, .CITY, [.CITY]⟩],
  [⟨.WORD, .STREET, [.PLACEN, .BOXH]⟩, ⟨.NUMBER, .HOUSE, []⟩, ⟨.QUINT, .POSTAL, []⟩, ⟨.CITY, .CITY, []⟩],
  [⟨.WORD, .STREET, [.TYPE, .PLACEN, .BOXH]⟩, ⟨.NUMBER, .HOUSE, []⟩, ⟨.QUINT, .POSTAL, []⟩, ⟨.WORD, .CITY, [.CITY]⟩,
    ⟨.NATION, .NATION, [.CITY]⟩],
  [⟨.TYPE, .PRETYP, [.PLACEN]⟩, ⟨.WORD, .STREET, [.NUMBER]⟩, ⟨.NUMBER, .HOUSE, []⟩, ⟨.QUINT, .POSTAL, []⟩, ⟨.WORD, .CITY, [.CITY]⟩],
  [⟨.TYPE, .PRETYP, [.PLACEN]⟩, ⟨.WORD, .STREET, [.NUMBER]⟩, ⟨.NUMBER, .HOUSE, []⟩, ⟨.QUINT, .POSTAL, []⟩, ⟨.CITY, .CITY, []⟩],
  [⟨.TYPE, .PRETYP, [.PLACEN]⟩, ⟨.WORD, .STREET, []⟩, ⟨.NUMBER, .HOUSE, []⟩, ⟨.QUINT, .POSTAL, []⟩, ⟨.WORD, .CITY, [.CITY]⟩,
    ⟨.NATION, .NATION, [.CITY]⟩],
  [⟨.BOXH, .BOXH, [.PLACEN]⟩, ⟨.NUMBER, .BOXT, []⟩, ⟨.QUINT, .POSTAL, []⟩, ⟨.WORD, .CITY, [.CITY]⟩],
  [⟨.WORD, .STREET, [.TYPE, .PLACEN]⟩, ⟨.WORD, .STREET, [.NUMBER]⟩, ⟨.NUMBER, .HOUSE, []⟩, ⟨.QUINT, .POSTAL, []⟩,
    ⟨.WORD, .CITY, [.CITY]⟩],
  [⟨.TYPE, .PRETYP, [.PLACEN]⟩, ⟨.WORD, .STREET, [.NUMBER]⟩, ⟨.WORD, .STREET, [.NUMBER]⟩, ⟨.NUMBER, .HOUSE, []⟩,
    ⟨.QUINT, .POSTAL, []⟩, ⟨.WORD, .CITY, [.CITY]⟩]]

end AS.FormTable
