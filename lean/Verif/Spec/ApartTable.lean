import Verif.Spec.Forms
/-
Forms of addresses with a province, a country, a town, or the words for a post office box or a unit, that is an expression of two or
three words: for each the number of the form in the list of forms and, for all words when the expression is taken as its words, the
classes they must not have. Written by tools/forms.py.
-/
namespace AS.ApartTable

def andorra : List (Nat × List (List InType)) := []

def australia : List (Nat × List (List InType)) := [
  (0, [[], [.TYPE, .DIRECT, .QUALIF, .NUMBER], [.DIRECT, .QUALIF, .NUMBER], [.PROV, .CITY, .QUALIF], [],
    [.QUAD, .PROV, .NATION, .NUMBER]]),
  (0, [[], [.SINGLE, .TYPE, .DIRECT, .QUALIF, .NUMBER], [.DIRECT, .CITY, .QUALIF, .NUMBER],
    [.TYPE, .DIRECT, .PROV, .CITY, .QUALIF, .NUMBER], [], [], [.QUAD, .PROV, .NATION, .NUMBER]]),
  (1, [[], [.SINGLE, .TYPE, .DIRECT, .QUALIF, .NUMBER], [.DIRECT, .CITY, .QUALIF, .NUMBER], [], [.CITY],
    [.QUAD, .CITY, .NATION, .NUMBER]]),
  (1, [[.UNITH], [.SINGLE, .TYPE, .DIRECT, .QUALIF, .NUMBER], [.DIRECT, .CITY, .QUALIF, .NUMBER], [],
    [.DIRECT, .PROV, .CITY, .QUALIF, .NUMBER], [.TYPE, .DIRECT, .PROV, .CITY, .QUALIF], []]),
  (1, [[], [.SINGLE, .TYPE, .DIRECT, .QUALIF, .NUMBER], [.DIRECT, .CITY, .QUALIF, .NUMBER], [.DIRECT, .QUALIF], [],
    [.QUAD, .NATION, .NUMBER]]),
  (1, [[.UNITH], [.SINGLE, .TYPE, .DIRECT, .QUALIF, .NUMBER], [.DIRECT, .CITY, .QUALIF, .NUMBER], [.TYPE, .DIRECT, .PROV, .QUALIF],
    [], [.QUALIF], [.QUAD, .PROV, .CITY, .NATION, .NUMBER]]),
  (2, [[], [.TYPE, .DIRECT, .QUALIF, .NUMBER, .DASH, .SLASH], [.DIRECT, .QUALIF, .NUMBER], [.DIRECT, .QUALIF, .NUMBER],
    [.DIRECT, .PROV, .CITY, .QUALIF, .NUMBER], [], [.QUAD, .PROV, .NATION, .NUMBER]]),
  (2, [[.UNITH], [.SINGLE, .TYPE, .DIRECT, .QUALIF, .NUMBER, .DASH, .SLASH], [.DIRECT, .CITY, .QUALIF],
    [.TYPE, .DIRECT, .PROV, .CITY, .QUALIF], [.TYPE, .DIRECT, .PROV, .CITY, .QUALIF], [], [],
    [.QUAD, .PROV, .NATION, .QUALIF, .NUMBER]]),
  (3, [[], [.TYPE, .DIRECT, .QUALIF, .NUMBER], [.DIRECT, .QUALIF, .NUMBER], [.TYPE, .DIRECT, .PROV, .CITY, .QUALIF, .NUMBER], [],
    [.QUAD, .PROV, .NUMBER], [.PROV, .QUALIF]]),
  (3, [[], [.SINGLE, .TYPE, .DIRECT, .QUALIF, .NUMBER], [.DIRECT, .CITY, .QUALIF, .NUMBER],
    [.TYPE, .DIRECT, .PROV, .CITY, .QUALIF, .NUMBER], [], [.DIRECT, .CITY, .QUALIF],
    [.QUAD, .DIRECT, .PROV, .NATION, .QUALIF, .NUMBER], [.PROV]]),
  (3, [[], [.TYPE, .DIRECT, .QUALIF, .NUMBER], [.DIRECT, .QUALIF, .NUMBER], [.TYPE, .DIRECT, .PROV, .CITY, .QUALIF, .NUMBER],
    [.TYPE, .DIRECT, .CITY, .QUALIF], [], [.NATION]]),
  (3, [[.UNITH], [.SINGLE, .TYPE, .DIRECT, .QUALIF, .NUMBER], [.DIRECT, .CITY, .QUALIF, .NUMBER],
    [.TYPE, .DIRECT, .PROV, .CITY, .QUALIF], [.TYPE, .DIRECT, .CITY, .QUALIF], [], [.CITY, .NATION, .QUALIF, .NUMBER],
    [.QUAD, .PROV, .NATION, .NUMBER]]),
  (4, [[.UNITH], [.TYPE, .QUALIF, .NUMBER, .DASH, .SLASH], [.TYPE, .DIRECT, .CITY, .QUALIF], [.DIRECT, .PROV, .CITY, .QUALIF],
    [.TYPE, .DIRECT, .PROV, .CITY, .QUALIF, .NUMBER], [], [.QUAD, .PROV, .NATION, .QUALIF, .NUMBER]]),
  (4, [[.UNITH], [.TYPE, .QUALIF, .NUMBER, .DASH, .SLASH], [.TYPE, .DIRECT, .CITY, .QUALIF], [.DIRECT, .PROV, .CITY, .QUALIF],
    [.TYPE, .DIRECT, .PROV, .CITY, .QUALIF, .NUMBER], [.TYPE, .DIRECT, .PROV, .QUALIF], [.DIRECT, .PROV, .QUALIF], [.PROV]]),
  (5, [[], [.NUMBER], [], [.TYPE, .DIRECT, .CITY, .QUALIF], [.QUAD, .NATION]]),
  (5, [[], [.NUMBER], [.TYPE, .DIRECT, .QUALIF, .NUMBER], [.TYPE, .DIRECT, .QUALIF],
    [.TYPE, .DIRECT, .PROV, .CITY, .NATION, .QUALIF, .NUMBER], [.NATION, .NUMBER]]),
  (5, [[], [.QUALIF], [.TYPE, .DIRECT, .CITY, .QUALIF, .NUMBER], [], [.QUAD, .PROV, .NATION, .NUMBER]]),
  (5, [[.NUMBER], [], [.DIRECT, .CITY, .QUALIF, .NUMBER, .SLASH], [], [], [.QUAD, .PROV, .NATION, .NUMBER]]),
  (6, [[], [.NUMBER], [.TYPE, .CITY, .QUALIF, .NUMBER], [], [.QUAD, .PROV, .NATION, .NUMBER]]),
  (6, [[], [.TYPE, .DIRECT, .QUALIF, .NUMBER], [.TYPE, .DIRECT, .CITY, .NUMBER], [], [], [.QUAD, .PROV, .NATION, .NUMBER]]),
  (7, [[], [.TYPE, .DIRECT, .QUALIF, .NUMBER, .SLASH], [.TYPE, .DIRECT, .QUALIF, .NUMBER], [.DIRECT, .QUALIF],
    [.DIRECT, .PROV, .CITY, .QUALIF, .NUMBER], [], [.QUAD, .PROV, .NATION, .NUMBER]]),
  (7, [[.UNITH], [.TYPE, .DIRECT, .QUALIF, .NUMBER, .SLASH], [.TYPE, .DIRECT, .CITY, .QUALIF, .NUMBER],
    [.DIRECT, .PROV, .CITY, .QUALIF], [.TYPE, .DIRECT, .PROV, .CITY, .QUALIF], [], [], [.QUAD, .PROV, .NATION, .QUALIF, .NUMBER]]),
  (8, [[], [], [.WORD, .DASH, .SLASH], [.WORD, .TYPE, .DIRECT, .QUALIF], [.TYPE, .DIRECT, .QUALIF, .NUMBER], [.DIRECT, .QUALIF],
    [.PROV, .CITY, .NATION], []]),
  (8, [[], [], [], [.WORD, .TYPE, .DIRECT, .PROV, .CITY, .QUALIF, .DASH, .SLASH], [.WORD, .TYPE, .DIRECT, .QUALIF],
    [.TYPE, .DIRECT, .QUALIF, .NUMBER], [.DIRECT, .QUALIF], [.PROV, .CITY], []]),
  (8, [[], [.WORD, .DASH, .SLASH], [.WORD, .TYPE, .DIRECT, .QUALIF], [.TYPE, .DIRECT, .QUALIF, .NUMBER], [.DIRECT, .QUALIF, .NUMBER],
    [.PROV, .CITY, .QUALIF], [], [.QUAD, .PROV, .NATION, .NUMBER]]),
  (8, [[.BOXH, .NUMBER], [.WORD, .DASH, .SLASH], [.WORD, .TYPE, .DIRECT, .QUALIF], [.TYPE, .DIRECT, .QUALIF, .NUMBER],
    [.DIRECT, .CITY, .QUALIF, .NUMBER], [.TYPE, .DIRECT, .PROV, .CITY, .QUALIF], [], [],
    [.QUAD, .DIRECT, .PROV, .CITY, .NATION, .QUALIF, .NUMBER]]),
  (9, [[], [.DIRECT, .QUALIF, .NUMBER], [.TYPE, .DIRECT, .QUALIF, .NUMBER], [.DIRECT, .PROV, .CITY, .NUMBER], [],
    [.QUAD, .PROV, .NATION, .NUMBER]]),
  (9, [[.UNITH], [.DIRECT, .QUALIF, .NUMBER], [.TYPE, .DIRECT, .CITY, .QUALIF, .NUMBER], [.TYPE, .DIRECT, .PROV, .CITY, .QUALIF], [],
    [.DIRECT, .PROV, .CITY, .NATION, .QUALIF, .NUMBER], [.PROV, .NATION]]),
  (10, [[], [.SINGLE, .TYPE, .DIRECT, .QUALIF, .NUMBER], [.DIRECT, .QUALIF, .NUMBER],
    [.TYPE, .DIRECT, .PROV, .CITY, .QUALIF, .NUMBER], [], [.PROV], [.PROV, .NATION]]),
  (10, [[], [.SINGLE, .TYPE, .DIRECT, .QUALIF, .NUMBER], [.DIRECT, .CITY, .QUALIF, .NUMBER],
    [.TYPE, .DIRECT, .PROV, .CITY, .QUALIF, .NUMBER], [], [.DIRECT, .CITY, .QUALIF],
    [.QUAD, .DIRECT, .PROV, .NATION, .QUALIF, .NUMBER], [.PROV, .NATION]]),
  (11, [[.UNITH], [.SINGLE, .TYPE, .DIRECT, .QUALIF, .NUMBER], [.DIRECT, .CITY, .QUALIF, .NUMBER], [.QUALIF],
    [.TYPE, .DIRECT, .PROV, .CITY, .QUALIF], [.TYPE, .DIRECT, .CITY, .QUALIF], [.PROV, .NATION]]),
  (11, [[.UNITH], [.SINGLE, .TYPE, .DIRECT, .QUALIF, .NUMBER], [.DIRECT, .CITY, .QUALIF, .NUMBER], [.DIRECT],
    [.TYPE, .DIRECT, .PROV, .CITY, .NATION, .QUALIF, .NUMBER], [.TYPE, .DIRECT, .PROV, .CITY, .NATION, .QUALIF], [.CITY],
    [.PROV, .NATION]]),
  (11, [[.UNITH], [.SINGLE, .TYPE, .DIRECT, .QUALIF, .NUMBER], [.DIRECT, .CITY, .QUALIF, .NUMBER], [.TYPE, .DIRECT, .PROV, .QUALIF],
    [], [.QUALIF, .NUMBER], [.PROV, .CITY, .NATION]]),
  (11, [[.UNITH], [.SINGLE, .TYPE, .DIRECT, .QUALIF, .NUMBER], [.DIRECT, .CITY, .QUALIF, .NUMBER], [.TYPE, .DIRECT, .PROV, .QUALIF],
    [], [.DIRECT, .PROV, .CITY, .QUALIF, .NUMBER], [.PROV, .NATION, .QUALIF], [.PROV, .NATION, .QUALIF]]),
  (12, [[.UNITH], [.SINGLE, .TYPE, .DIRECT, .QUALIF, .NUMBER, .DASH, .SLASH], [.DIRECT, .QUALIF], [.TYPE, .DIRECT, .CITY, .QUALIF],
    [.TYPE, .DIRECT, .PROV, .CITY, .QUALIF, .NUMBER], [], [.PROV], [.PROV, .CITY, .NATION, .QUALIF]]),
  (12, [[.UNITH], [.SINGLE, .TYPE, .DIRECT, .QUALIF, .NUMBER, .DASH, .SLASH], [.DIRECT, .CITY, .QUALIF],
    [.TYPE, .DIRECT, .PROV, .CITY, .QUALIF], [.TYPE, .DIRECT, .PROV, .CITY, .QUALIF, .NUMBER], [],
    [.DIRECT, .CITY, .QUALIF, .NUMBER], [.QUAD, .PROV, .NATION, .NUMBER], [.PROV, .NATION, .QUALIF]]),
  (13, [[.UNITH], [.SINGLE, .TYPE, .DIRECT, .QUALIF, .NUMBER, .DASH, .SLASH], [.DIRECT, .QUALIF],
    [.TYPE, .DIRECT, .PROV, .CITY, .QUALIF], [], [.DIRECT, .PROV, .QUALIF], [.DIRECT, .PROV, .CITY, .NATION, .QUALIF],
    [.PROV, .CITY, .QUALIF]]),
  (13, [[.UNITH], [.SINGLE, .TYPE, .DIRECT, .QUALIF, .NUMBER, .DASH, .SLASH], [.DIRECT, .CITY, .QUALIF],
    [.TYPE, .DIRECT, .PROV, .CITY, .QUALIF], [], [.TYPE, .DIRECT, .PROV, .CITY, .QUALIF], [.PROV, .NATION],
    [.PROV, .CITY, .NATION, .QUALIF], [.PROV, .CITY, .QUALIF]]),
  (13, [[.UNITH], [.TYPE, .DIRECT, .QUALIF, .NUMBER, .DASH, .SLASH], [.DIRECT, .QUALIF], [.TYPE, .DIRECT, .CITY, .QUALIF],
    [.TYPE, .DIRECT, .CITY, .NATION, .QUALIF, .NUMBER], [.TYPE, .DIRECT, .PROV, .CITY, .NATION, .QUALIF], [], []]),
  (13, [[.UNITH], [.SINGLE, .TYPE, .DIRECT, .QUALIF, .NUMBER, .DASH, .SLASH], [.DIRECT, .QUALIF], [.TYPE, .DIRECT, .CITY, .QUALIF],
    [.QUAD, .TYPE, .DIRECT, .CITY, .NATION, .QUALIF, .NUMBER], [.TYPE, .DIRECT, .PROV, .CITY, .NATION, .QUALIF], [], [], [.NATION]]),
  (14, [[.UNITH], [.TYPE, .QUALIF, .NUMBER, .DASH, .SLASH], [.TYPE, .DIRECT, .CITY, .QUALIF], [.DIRECT, .PROV, .CITY, .QUALIF],
    [.TYPE, .DIRECT, .PROV, .CITY, .QUALIF], [.TYPE, .DIRECT, .PROV, .QUALIF], [.DIRECT, .PROV, .QUALIF], [.PROV, .NATION]]),
  (14, [[.UNITH], [.TYPE, .QUALIF, .NUMBER, .DASH, .SLASH], [.TYPE, .DIRECT, .CITY, .QUALIF], [.DIRECT, .PROV, .CITY, .QUALIF],
    [.TYPE, .DIRECT, .PROV, .CITY, .QUALIF], [.TYPE, .DIRECT, .PROV, .CITY, .QUALIF], [.TYPE, .DIRECT, .PROV, .QUALIF], [.PROV],
    [.WORD, .PROV, .NATION]]),
  (15, [[], [.QUALIF, .NUMBER, .SLASH], [.TYPE, .DIRECT, .QUALIF], [.TYPE, .DIRECT, .CITY, .QUALIF, .NUMBER],
    [.TYPE, .DIRECT, .CITY, .NATION, .QUALIF, .NUMBER], [.PROV, .NATION]]),
  (15, [[], [.DIRECT, .QUALIF, .NUMBER], [.TYPE, .DIRECT, .NUMBER], [.TYPE, .DIRECT, .PROV, .CITY, .QUALIF],
    [.TYPE, .DIRECT, .PROV, .CITY, .QUALIF], [.TYPE, .DIRECT, .QUALIF], [.PROV, .NATION]]),
  (15, [[.NUMBER], [], [.DIRECT, .CITY, .QUALIF, .NUMBER], [], [.PROV], [.PROV, .NATION]]),
  (15, [[.UNITH, .NUMBER], [], [.CITY], [], [], [.PROV], [.PROV, .NATION]]),
  (16, [[], [.TYPE, .DIRECT, .QUALIF, .NUMBER, .SLASH], [.TYPE, .CITY, .QUALIF, .NUMBER], [], [.PROV], [.PROV, .NATION]]),
  (16, [[.UNITH], [.TYPE, .DIRECT, .QUALIF, .NUMBER, .SLASH], [.TYPE, .DIRECT, .CITY, .QUALIF, .NUMBER], [], [.QUALIF],
    [.QUAD, .DIRECT, .PROV, .CITY, .NATION, .QUALIF, .NUMBER], [.PROV, .NATION]]),
  (17, [[], [.TYPE, .DIRECT, .QUALIF, .NUMBER], [.TYPE, .DIRECT, .QUALIF, .NUMBER], [.DIRECT, .QUALIF, .NUMBER],
    [.QUAD, .TYPE, .DIRECT, .PROV, .CITY, .QUALIF, .NUMBER], [], [.PROV], [.PROV, .CITY, .NATION, .QUALIF]]),
  (17, [[.UNITH], [.TYPE, .DIRECT, .QUALIF, .NUMBER], [.TYPE, .DIRECT, .CITY, .QUALIF, .NUMBER],
    [.DIRECT, .PROV, .CITY, .QUALIF, .NUMBER], [.TYPE, .DIRECT, .PROV, .CITY, .QUALIF, .NUMBER], [],
    [.DIRECT, .CITY, .QUALIF, .NUMBER], [.QUAD, .PROV, .NATION, .NUMBER], [.PROV, .NATION]]),
  (18, [[], [], [.WORD, .DASH, .SLASH], [.WORD, .TYPE, .DIRECT, .QUALIF, .DASH, .SLASH], [.TYPE, .DIRECT, .QUALIF, .DASH, .SLASH],
    [.DIRECT, .QUALIF], [.CITY, .NATION], [.NUMBER], [.PROV, .NATION]]),
  (18, [[], [], [], [.WORD, .TYPE, .DIRECT, .PROV, .CITY, .QUALIF, .DASH, .SLASH], [.WORD, .TYPE, .DIRECT, .QUALIF, .DASH, .SLASH],
    [.TYPE, .DIRECT, .QUALIF, .DASH, .SLASH], [.DIRECT, .QUALIF], [.CITY], [.NUMBER], [.PROV, .NATION]]),
  (18, [[.NUMBER], [.WORD, .DASH, .SLASH], [.WORD, .TYPE, .DIRECT, .QUALIF, .DASH, .SLASH], [.TYPE, .DIRECT, .QUALIF, .DASH, .SLASH],
    [.DIRECT, .CITY, .NATION, .QUALIF, .NUMBER], [.TYPE, .DIRECT, .PROV, .CITY, .NATION, .QUALIF], [], [.PROV],
    [.DIRECT, .PROV, .CITY, .NATION, .QUALIF]]),
  (18, [[.BOXH, .NUMBER], [.WORD, .DASH, .SLASH], [.WORD, .TYPE, .DIRECT, .QUALIF, .DASH, .SLASH],
    [.TYPE, .DIRECT, .QUALIF, .DASH, .SLASH], [.DIRECT, .CITY, .QUALIF], [.TYPE, .DIRECT, .PROV, .CITY, .QUALIF], [],
    [.DIRECT, .CITY, .NATION, .QUALIF, .NUMBER], [.QUAD, .DIRECT, .PROV, .CITY, .NATION, .QUALIF, .NUMBER], [.PROV, .NATION]]),
  (19, [[.UNITH], [.DIRECT, .QUALIF, .NUMBER], [.TYPE, .DIRECT, .CITY, .QUALIF, .NUMBER], [.TYPE, .DIRECT, .PROV, .CITY, .QUALIF],
    [], [.DIRECT, .PROV, .CITY, .NATION, .QUALIF, .NUMBER], [.PROV, .NATION]]),
  (19, [[.UNITH], [.DIRECT, .QUALIF, .NUMBER], [.TYPE, .DIRECT, .CITY, .QUALIF, .NUMBER], [.TYPE, .DIRECT, .PROV, .CITY, .QUALIF],
    [.DIRECT, .QUALIF], [.TYPE, .DIRECT, .PROV, .CITY, .QUALIF, .NUMBER], [.TYPE, .DIRECT, .PROV, .CITY, .NATION, .QUALIF],
    [.PROV, .NATION]])]

def austria : List (Nat × List (List InType)) := [
  (1, [[.BOXH], [.TYPE], [.DOUBLE, .SINGLE], [], [.NATION]]),
  (1, [[.BOXH], [.TYPE], [.SINGLE, .TYPE, .UNITH, .DASH, .PUNCT, .SLASH], [], [], [.CITY, .NATION]]),
  (3, [[.BOXH], [.TYPE], [.UNITH], [.DOUBLE, .SINGLE, .CITY, .NUMBER, .DASH], [], [.NATION]]),
  (3, [[.BOXH], [.TYPE], [.UNITH], [.DOUBLE, .SINGLE, .TYPE, .CITY, .UNITH, .NUMBER, .DASH, .PUNCT, .SLASH], [], [], [.NATION]]),
  (5, [[], [.NUMBER], [], [.DOUBLE, .SINGLE], [], [.NATION]]),
  (5, [[], [.NUMBER], [.TYPE], [.DOUBLE, .SINGLE, .TYPE, .UNITH, .DASH, .PUNCT, .SLASH], [], [], [.NATION]]),
  (7, [[], [.NUMBER], [], [.UNITH], [.DOUBLE, .SINGLE, .CITY, .UNITH, .NUMBER, .DASH], [], [.NATION]]),
  (7, [[], [.NUMBER], [], [.UNITH], [.DOUBLE, .SINGLE, .TYPE, .CITY, .UNITH, .NUMBER, .DASH, .PUNCT, .SLASH], [], [], [.NATION]]),
  (8, [[], [], [.SINGLE], [], [.CITY, .NATION]]),
  (8, [[], [], [], [.SINGLE, .TYPE, .CITY, .UNITH, .UNITT, .MIXED, .DASH, .PUNCT, .SLASH],
    [.DOUBLE, .SINGLE, .PROV, .CITY, .NATION, .UNITH], [.CITY, .NATION, .NUMBER]]),
  (10, [[.BOXH], [.TYPE], [], [.UNITH, .DASH, .SLASH],
    [.QUAD, .DOUBLE, .SINGLE, .WORD, .TYPE, .CITY, .NATION, .UNITH, .UNITT, .MIXED, .DASH, .PUNCT, .SLASH],
    [.DOUBLE, .SINGLE, .CITY, .NATION, .UNITH], [.CITY, .NATION, .NUMBER]]),
  (10, [[.BOXH], [.TYPE], [], [], [.DOUBLE, .SINGLE, .TYPE, .CITY, .NATION, .UNITH, .UNITT, .NUMBER, .MIXED, .DASH, .PUNCT, .SLASH],
    [.QUAD, .SINGLE, .WORD, .PROV, .CITY, .NATION, .UNITT, .MIXED], [.CITY], [.CITY, .NATION]])]

def belgium : List (Nat × List (List InType)) := [
  (1, [[.BOXH], [.TYPE], [.SINGLE], [], [.NATION]]),
  (1, [[.BOXH], [.TYPE], [.SINGLE, .TYPE, .UNITH, .DASH], [], [], [.NATION]]),
  (3, [[.BOXH], [.TYPE], [.UNITH], [.SINGLE, .CITY, .NUMBER, .DASH], [], [.NATION]]),
  (3, [[.BOXH], [.TYPE], [.UNITH], [.SINGLE, .TYPE, .CITY, .UNITH, .NUMBER, .DASH], [], [], [.NATION]]),
  (5, [[], [.NUMBER], [], [.SINGLE], [], [.NATION]]),
  (5, [[], [.NUMBER], [.TYPE], [.SINGLE, .TYPE, .UNITH, .DASH], [], [], [.QUAD, .CITY, .NATION, .NUMBER]]),
  (7, [[], [.NUMBER], [], [.UNITH], [.SINGLE, .CITY, .NUMBER, .DASH], [], [.NATION]]),
  (7, [[], [.NUMBER], [], [.UNITH], [.SINGLE, .CITY, .UNITH, .NUMBER, .DASH], [], [], [.NATION]]),
  (8, [[], [], [.SINGLE], [], [.CITY, .NATION]]),
  (8, [[], [], [], [.CITY, .UNITH, .DASH], [.SINGLE, .TYPE, .PROV, .CITY, .NATION, .UNITH], [.QUAD, .CITY, .NATION, .NUMBER]]),
  (10, [[.BOXH], [.TYPE], [], [], [.QUAD, .SINGLE, .WORD, .CITY, .UNITH, .MIXED, .DASH], [.SINGLE, .CITY, .NATION, .UNITH],
    [.CITY, .NATION, .NUMBER]]),
  (10, [[.BOXH], [.TYPE], [], [], [.PROV, .CITY, .NATION, .UNITH, .NUMBER, .MIXED, .DASH],
    [.QUAD, .SINGLE, .WORD, .PROV, .CITY, .NATION, .MIXED, .DASH], [.CITY, .UNITH], [.QUAD, .CITY, .NATION, .NUMBER]])]

def canada : List (Nat × List (List InType)) := [
  (0, [[.BOXH, .MIXED], [.DOUBLE, .SINGLE, .TYPE, .ROAD, .DIRECT, .QUALIF, .ORD, .NUMBER, .MIXED, .FRACT, .DASH],
    [.DIRECT, .CITY, .QUALIF, .UNITH, .BOXH, .AMPERS],
    [.DOUBLE, .SINGLE, .TYPE, .DIRECT, .PROV, .CITY, .QUALIF, .UNITH, .BOXH, .ORD, .NUMBER, .MIXED], [], [.PROV, .NATION, .MIXED]]),
  (0, [[.BOXH, .MIXED], [.DOUBLE, .SINGLE, .TYPE, .ROAD, .DIRECT, .QUALIF, .ORD, .NUMBER, .MIXED, .FRACT, .DASH],
    [.ROAD, .DIRECT, .CITY, .QUALIF, .UNITH, .BOXH, .AMPERS], [.TYPE, .DIRECT, .PROV, .CITY, .QUALIF, .UNITH, .BOXH],
    [.UNITH, .BOXH], [.TYPE, .DIRECT, .PROV, .CITY, .NATION, .QUALIF, .UNITH, .BOXH, .MIXED], [.PROV]]),
  (1, [[.BOXH, .MIXED], [.DOUBLE, .SINGLE, .TYPE, .ROAD, .DIRECT, .QUALIF, .ORD, .NUMBER, .MIXED, .FRACT, .DASH],
    [.ROAD, .DIRECT, .CITY, .QUALIF, .UNITH, .BOXH, .AMPERS], [.UNITH, .BOXH],
    [.DIRECT, .PROV, .CITY, .QUALIF, .UNITH, .BOXH, .MIXED], [.NATION, .MIXED]]),
  (1, [[.BOXH, .MIXED], [.DOUBLE, .SINGLE, .TYPE, .ROAD, .DIRECT, .QUALIF, .ORD, .NUMBER, .MIXED, .FRACT, .DASH],
    [.ROAD, .DIRECT, .CITY, .QUALIF, .UNITH, .BOXH, .AMPERS], [.DIRECT, .QUALIF, .UNITH, .BOXH],
    [.DIRECT, .PROV, .CITY, .QUALIF, .UNITH, .BOXH, .MIXED], [.TYPE, .DIRECT, .PROV, .CITY, .QUALIF, .UNITH, .BOXH],
    [.NATION, .MIXED]]),
  (1, [[.MIXED], [.DOUBLE, .SINGLE, .TYPE, .ROAD, .DIRECT, .QUALIF, .ORD, .NUMBER, .MIXED, .FRACT, .DASH],
    [.ROAD, .DIRECT, .QUALIF, .UNITH, .BOXH, .AMPERS], [.TYPE, .DIRECT, .PROV, .QUALIF, .UNITH, .BOXH], [], [.NATION, .MIXED]]),
  (1, [[.BOXH, .MIXED], [.DOUBLE, .SINGLE, .TYPE, .ROAD, .DIRECT, .QUALIF, .ORD, .NUMBER, .MIXED, .FRACT, .DASH],
    [.ROAD, .DIRECT, .CITY, .QUALIF, .UNITH, .BOXH, .AMPERS], [.TYPE, .DIRECT, .PROV, .QUALIF, .UNITH, .BOXH],
    [.PROV, .UNITH, .BOXH], [.TYPE, .DIRECT, .PROV, .CITY, .QUALIF, .BOXH], [.PROV, .UNITH, .MIXED]]),
  (2, [[.BOXH, .MIXED], [.DOUBLE, .SINGLE, .TYPE, .ROAD, .DIRECT, .PROV, .QUALIF, .ORD, .NUMBER, .MIXED, .FRACT, .DASH],
    [.DIRECT, .QUALIF, .UNITH, .BOXH, .AMPERS], [.TYPE, .DIRECT, .CITY, .QUALIF, .UNITH, .BOXH, .MIXED],
    [.TYPE, .DIRECT, .PROV, .CITY, .NATION, .QUALIF, .UNITH, .BOXH, .MIXED], [], [.PROV, .NATION, .MIXED]]),
  (2, [[.BOXH, .MIXED], [.DOUBLE, .SINGLE, .TYPE, .ROAD, .DIRECT, .PROV, .QUALIF, .ORD, .NUMBER, .MIXED, .FRACT, .DASH],
    [.DIRECT, .CITY, .QUALIF, .UNITH, .BOXH, .AMPERS], [.TYPE, .DIRECT, .PROV, .CITY, .QUALIF, .UNITH, .BOXH, .MIXED],
    [.TYPE, .DIRECT, .PROV, .CITY, .QUALIF, .UNITH, .BOXH, .MIXED], [.DIRECT, .PROV, .UNITH, .BOXH],
    [.TYPE, .DIRECT, .PROV, .CITY, .QUALIF, .UNITH, .BOXH], [.PROV]]),
  (3, [[.BOXH, .MIXED], [.DOUBLE, .SINGLE, .TYPE, .ROAD, .DIRECT, .PROV, .QUALIF, .ORD, .NUMBER, .MIXED, .FRACT, .DASH],
    [.DIRECT, .CITY, .QUALIF, .UNITH, .BOXH, .AMPERS], [.TYPE, .DIRECT, .PROV, .CITY, .QUALIF, .UNITH, .BOXH], [.UNITH, .BOXH],
    [.TYPE, .DIRECT, .PROV, .CITY, .NATION, .QUALIF, .UNITH, .BOXH, .MIXED], [.PROV, .MIXED]]),
  (3, [[.BOXH, .MIXED], [.DOUBLE, .SINGLE, .TYPE, .ROAD, .DIRECT, .PROV, .QUALIF, .ORD, .NUMBER, .MIXED, .FRACT, .DASH],
    [.DIRECT, .CITY, .QUALIF, .UNITH, .BOXH, .AMPERS], [.TYPE, .DIRECT, .PROV, .CITY, .QUALIF, .UNITH, .BOXH],
    [.DIRECT, .PROV, .QUALIF, .UNITH, .BOXH], [.TYPE, .DIRECT, .PROV, .CITY, .QUALIF, .UNITH, .BOXH],
    [.TYPE, .DIRECT, .PROV, .QUALIF, .UNITH, .BOXH], [.PROV, .MIXED]]),
  (3, [[.BOXH, .MIXED], [.DOUBLE, .SINGLE, .TYPE, .ROAD, .DIRECT, .PROV, .QUALIF, .ORD, .NUMBER, .MIXED, .FRACT, .DASH],
    [.DIRECT, .CITY, .QUALIF, .UNITH, .BOXH, .AMPERS], [.TYPE, .DIRECT, .PROV, .CITY, .QUALIF, .UNITH, .BOXH],
    [.TYPE, .DIRECT, .CITY, .QUALIF, .UNITH, .BOXH, .MIXED], [.MIXED], [.PROV, .NATION, .UNITH, .NUMBER, .MIXED]]),
  (3, [[.BOXH, .MIXED], [.DOUBLE, .SINGLE, .TYPE, .ROAD, .DIRECT, .PROV, .QUALIF, .ORD, .NUMBER, .MIXED, .FRACT, .DASH],
    [.DIRECT, .CITY, .QUALIF, .UNITH, .BOXH, .AMPERS], [.TYPE, .DIRECT, .PROV, .CITY, .QUALIF, .UNITH, .BOXH],
    [.TYPE, .DIRECT, .CITY, .QUALIF, .UNITH, .BOXH, .MIXED], [.DIRECT, .PROV, .CITY, .NATION, .QUALIF, .UNITH, .BOXH, .MIXED],
    [.TYPE, .DIRECT, .PROV, .QUALIF, .UNITH, .BOXH], [.PROV]]),
  (4, [[.BOXH, .MIXED], [.SINGLE, .TYPE, .QUALIF, .ORD, .NUMBER, .MIXED, .FRACT],
    [.DOUBLE, .SINGLE, .TYPE, .ROAD, .DIRECT, .PROV, .CITY, .QUALIF, .ORD, .NUMBER, .MIXED, .AMPERS],
    [.WORD, .DIRECT, .PROV, .CITY, .QUALIF, .UNITH, .BOXH, .NUMBER, .MIXED, .AMPERS], [.DIRECT, .CITY, .QUALIF, .UNITH, .BOXH], [],
    [.PROV, .NATION, .MIXED]]),
  (4, [[.BOXH, .MIXED], [.SINGLE, .TYPE, .QUALIF, .ORD, .NUMBER, .MIXED, .FRACT],
    [.DOUBLE, .SINGLE, .TYPE, .ROAD, .DIRECT, .PROV, .CITY, .QUALIF, .ORD, .NUMBER, .MIXED, .AMPERS],
    [.WORD, .DIRECT, .PROV, .CITY, .QUALIF, .UNITH, .BOXH, .NUMBER, .MIXED, .AMPERS], [.DIRECT, .CITY, .QUALIF, .UNITH, .BOXH], [],
    [], [.PROV, .NATION, .MIXED]]),
  (5, [[.MIXED], [.SINGLE, .ROAD, .DIRECT, .QUALIF, .NUMBER, .MIXED, .FRACT],
    [.WORD, .ROAD, .DIRECT, .CITY, .QUALIF, .UNITH, .BOXH, .ORD, .NUMBER, .MIXED, .AMPERS],
    [.TYPE, .DIRECT, .CITY, .QUALIF, .UNITH, .BOXH, .ORD, .NUMBER, .MIXED, .AMPERS], [], [.PROV, .NATION, .MIXED]]),
  (5, [[.MIXED], [.SINGLE, .ROAD, .DIRECT, .QUALIF, .NUMBER, .MIXED, .FRACT],
    [.DOUBLE, .SINGLE, .WORD, .ROAD, .DIRECT, .CITY, .QUALIF, .UNITH, .BOXH, .ORD, .NUMBER, .MIXED, .AMPERS],
    [.DIRECT, .CITY, .QUALIF, .UNITH, .BOXH, .ORD, .NUMBER, .MIXED, .AMPERS], [], [], [.PROV, .NATION, .MIXED]]),
  (6, [[], [.TYPE, .ROAD, .DIRECT, .QUALIF, .ORD, .NUMBER, .MIXED, .FRACT, .DASH],
    [.DOUBLE, .SINGLE, .WORD, .TYPE, .ROAD, .DIRECT, .CITY, .QUALIF, .UNITH, .BOXH, .ORD, .MIXED, .AMPERS],
    [.DOUBLE, .SINGLE, .TYPE, .DIRECT, .CITY, .QUALIF, .BOXH], [.UNITH, .MIXED]]),
  (6, [[], [.SINGLE, .TYPE, .ROAD, .DIRECT, .QUALIF, .ORD, .NUMBER, .MIXED, .FRACT],
    [.TYPE, .ROAD, .DIRECT, .CITY, .QUALIF, .BOXH, .NUMBER, .MIXED], [.WORD, .TYPE, .DIRECT, .PROV, .QUALIF, .UNITH, .BOXH, .MIXED],
    [.CITY], [.NATION, .MIXED]]),
  (6, [[.NUMBER, .MIXED], [.WORD], [.CITY], [], [.PROV, .NATION, .MIXED]]),
  (6, [[.NUMBER, .MIXED], [.WORD], [.CITY], [], [], [.PROV, .NATION, .MIXED]]),
  (7, [[.BOXH, .MIXED], [.DOUBLE, .SINGLE, .DIRECT, .QUALIF, .ORD, .NUMBER, .MIXED, .FRACT],
    [.DOUBLE, .SINGLE, .TYPE, .ROAD, .DIRECT, .CITY, .QUALIF, .UNITH, .ORD, .NUMBER, .MIXED, .AMPERS], [], [.PROV, .NATION, .MIXED]]),
  (7, [[.BOXH, .MIXED], [.DOUBLE, .SINGLE, .TYPE, .ROAD, .DIRECT, .QUALIF, .ORD, .NUMBER, .MIXED, .FRACT],
    [.TYPE, .ROAD, .DIRECT, .CITY, .QUALIF, .UNITH, .BOXH, .NUMBER, .MIXED, .AMPERS], [], [.QUALIF, .BOXH, .NUMBER, .MIXED],
    [.PROV, .CITY, .NATION, .QUALIF, .UNITH, .MIXED]]),
  (8, [[.BOXH, .MIXED], [.SINGLE, .TYPE, .DIRECT, .PROV, .QUALIF, .ORD, .NUMBER, .MIXED, .FRACT], [.QUALIF, .ORD, .NUMBER, .MIXED],
    [.WORD, .DIRECT, .CITY, .QUALIF, .UNITH, .BOXH, .NUMBER, .MIXED, .AMPERS], [.DIRECT, .CITY, .QUALIF, .UNITH, .MIXED], [],
    [.PROV, .NATION, .MIXED]]),
  (8, [[.BOXH, .MIXED], [.SINGLE, .TYPE, .DIRECT, .PROV, .QUALIF, .ORD, .NUMBER, .MIXED, .FRACT], [.QUALIF, .ORD, .NUMBER, .MIXED],
    [.WORD, .DIRECT, .CITY, .QUALIF, .UNITH, .BOXH, .NUMBER, .MIXED, .AMPERS],
    [.DIRECT, .CITY, .NATION, .QUALIF, .UNITH, .BOXH, .MIXED], [], [], [.PROV, .NATION, .MIXED]]),
  (9, [[.BOXH, .MIXED], [.DOUBLE, .SINGLE, .ROAD, .DIRECT, .PROV, .QUALIF, .ORD, .NUMBER, .MIXED, .FRACT],
    [.DOUBLE, .SINGLE, .TYPE, .DIRECT, .CITY, .QUALIF, .UNITH, .BOXH, .ORD, .NUMBER, .MIXED, .AMPERS],
    [.TYPE, .DIRECT, .PROV, .CITY, .QUALIF, .UNITH, .BOXH, .ORD, .NUMBER, .MIXED, .AMPERS], [.QUALIF],
    [.PROV, .NATION, .QUALIF, .UNITH, .NUMBER, .MIXED]]),
  (9, [[.BOXH, .MIXED], [.DOUBLE, .SINGLE, .WORD, .ROAD, .DIRECT, .PROV, .QUALIF, .ORD, .NUMBER, .MIXED, .FRACT],
    [.DOUBLE, .SINGLE, .TYPE, .DIRECT, .CITY, .QUALIF, .UNITH, .BOXH, .ORD, .NUMBER, .MIXED, .AMPERS],
    [.TYPE, .DIRECT, .CITY, .QUALIF, .UNITH, .BOXH, .ORD, .NUMBER, .MIXED, .AMPERS], [], [.QUALIF, .UNITH, .BOXH, .NUMBER, .MIXED],
    [.PROV, .CITY, .NATION, .MIXED]]),
  (10, [[.BOXH, .MIXED], [.DOUBLE, .SINGLE, .TYPE, .ROAD, .DIRECT, .PROV, .QUALIF, .ORD, .NUMBER, .MIXED, .FRACT, .DASH],
    [.DIRECT, .CITY, .QUALIF, .UNITH, .BOXH, .AMPERS], [.TYPE, .DIRECT, .PROV, .CITY, .QUALIF, .UNITH, .BOXH],
    [.DIRECT, .PROV, .QUALIF, .UNITH, .BOXH], [.TYPE, .DIRECT, .PROV, .CITY, .QUALIF, .UNITH, .BOXH],
    [.TYPE, .DIRECT, .PROV, .CITY, .NATION, .QUALIF, .UNITH, .BOXH], [.PROV, .NATION]]),
  (10, [[.BOXH, .MIXED], [.DOUBLE, .SINGLE, .TYPE, .ROAD, .DIRECT, .PROV, .QUALIF, .ORD, .NUMBER, .MIXED, .FRACT, .DASH],
    [.DIRECT, .CITY, .QUALIF, .UNITH, .BOXH, .AMPERS], [.TYPE, .DIRECT, .PROV, .CITY, .QUALIF, .UNITH, .BOXH],
    [.TYPE, .DIRECT, .PROV, .QUALIF, .UNITH, .BOXH], [.TYPE, .DIRECT, .PROV, .CITY, .QUALIF, .UNITH, .BOXH],
    [.TYPE, .DIRECT, .PROV, .CITY, .QUALIF, .UNITH, .BOXH], [.DIRECT, .PROV, .CITY, .NATION, .QUALIF, .UNITH, .BOXH],
    [.PROV, .NATION]]),
  (11, [[.BOXH, .MIXED], [.DOUBLE, .SINGLE, .TYPE, .ROAD, .DIRECT, .PROV, .QUALIF, .ORD, .NUMBER, .MIXED, .FRACT, .DASH],
    [.DIRECT, .CITY, .QUALIF, .UNITH, .BOXH, .AMPERS], [.TYPE, .DIRECT, .PROV, .CITY, .QUALIF, .UNITH, .BOXH],
    [.TYPE, .DIRECT, .PROV, .CITY, .QUALIF, .UNITH, .BOXH], [.TYPE, .DIRECT, .CITY, .QUALIF, .UNITH, .BOXH, .MIXED],
    [.TYPE, .DIRECT, .PROV, .CITY, .NATION, .QUALIF, .UNITH, .BOXH], [.WORD, .PROV, .CITY, .NATION, .QUALIF]]),
  (11, [[.BOXH, .MIXED], [.DOUBLE, .SINGLE, .TYPE, .ROAD, .DIRECT, .PROV, .QUALIF, .ORD, .NUMBER, .MIXED, .FRACT, .DASH],
    [.DIRECT, .CITY, .QUALIF, .UNITH, .BOXH, .AMPERS], [.TYPE, .DIRECT, .PROV, .CITY, .QUALIF, .UNITH, .BOXH],
    [.TYPE, .DIRECT, .PROV, .CITY, .QUALIF, .UNITH, .BOXH], [.TYPE, .DIRECT, .PROV, .CITY, .QUALIF],
    [.WORD, .TYPE, .DIRECT, .CITY, .QUALIF, .UNITH, .BOXH, .NUMBER, .MIXED], [.PROV, .CITY, .NATION, .QUALIF, .UNITH, .BOXH],
    [.PROV, .CITY, .NATION, .QUALIF]]),
  (11, [[.BOXH, .MIXED], [.DOUBLE, .SINGLE, .TYPE, .ROAD, .DIRECT, .PROV, .QUALIF, .ORD, .NUMBER, .MIXED, .FRACT, .DASH],
    [.DIRECT, .CITY, .QUALIF, .UNITH, .BOXH, .AMPERS], [.TYPE, .DIRECT, .PROV, .QUALIF, .UNITH, .BOXH],
    [.TYPE, .DIRECT, .PROV, .QUALIF, .UNITH], [.TYPE, .DIRECT, .PROV, .QUALIF, .UNITH, .BOXH, .NUMBER],
    [.TYPE, .DIRECT, .PROV, .CITY, .NATION, .QUALIF, .UNITH, .BOXH], [.PROV, .CITY, .NATION, .QUALIF]]),
  (11, [[.BOXH, .MIXED], [.DOUBLE, .SINGLE, .TYPE, .ROAD, .DIRECT, .PROV, .QUALIF, .ORD, .NUMBER, .MIXED, .FRACT, .DASH],
    [.DIRECT, .CITY, .QUALIF, .UNITH, .BOXH, .AMPERS], [.TYPE, .DIRECT, .PROV, .QUALIF, .UNITH, .BOXH],
    [.TYPE, .DIRECT, .PROV, .CITY, .QUALIF, .UNITH, .BOXH], [.TYPE, .DIRECT, .PROV, .CITY, .QUALIF, .UNITH, .BOXH],
    [.TYPE, .DIRECT, .PROV, .QUALIF, .UNITH, .BOXH], [.PROV, .CITY, .NATION, .QUALIF, .UNITH, .BOXH],
    [.WORD, .PROV, .CITY, .NATION, .QUALIF]]),
  (12, [[.BOXH, .MIXED], [.DOUBLE, .SINGLE, .TYPE, .ROAD, .DIRECT, .PROV, .QUALIF, .ORD, .NUMBER, .MIXED, .FRACT, .DASH],
    [.DIRECT, .CITY, .QUALIF, .UNITH, .BOXH, .AMPERS], [.TYPE, .DIRECT, .PROV, .CITY, .QUALIF, .UNITH, .BOXH],
    [.TYPE, .DIRECT, .PROV, .CITY, .QUALIF, .UNITH, .BOXH], [.TYPE, .DIRECT, .PROV, .QUALIF, .UNITH, .BOXH],
    [.TYPE, .DIRECT, .PROV, .CITY, .QUALIF, .UNITH, .BOXH], [.DIRECT, .PROV, .CITY, .NATION, .QUALIF, .UNITH, .BOXH],
    [.PROV, .NATION]]),
  (12, [[.BOXH, .MIXED], [.DOUBLE, .SINGLE, .TYPE, .ROAD, .DIRECT, .PROV, .QUALIF, .ORD, .NUMBER, .MIXED, .FRACT, .DASH],
    [.DIRECT, .CITY, .QUALIF, .UNITH, .BOXH, .AMPERS], [.TYPE, .DIRECT, .PROV, .CITY, .QUALIF, .UNITH, .BOXH],
    [.TYPE, .DIRECT, .PROV, .CITY, .QUALIF, .UNITH, .BOXH], [.TYPE, .DIRECT, .PROV, .CITY, .QUALIF, .UNITH, .BOXH],
    [.TYPE, .DIRECT, .PROV, .CITY, .QUALIF, .UNITH, .BOXH], [.PROV], [.DIRECT, .PROV, .CITY, .NATION, .QUALIF, .UNITH, .BOXH],
    [.WORD, .PROV, .NATION]]),
  (13, [[.BOXH, .MIXED], [.DOUBLE, .SINGLE, .TYPE, .ROAD, .DIRECT, .PROV, .QUALIF, .ORD, .NUMBER, .MIXED, .FRACT, .DASH],
    [.DIRECT, .CITY, .QUALIF, .UNITH, .BOXH, .AMPERS], [.TYPE, .DIRECT, .PROV, .CITY, .QUALIF, .UNITH, .BOXH],
    [.TYPE, .DIRECT, .PROV, .QUALIF, .UNITH, .BOXH], [.TYPE, .DIRECT, .PROV, .CITY, .QUALIF, .UNITH, .BOXH],
    [.TYPE, .DIRECT, .PROV, .CITY, .NATION, .QUALIF, .UNITH, .BOXH], [.TYPE, .DIRECT, .PROV, .NATION, .QUALIF, .BOXH],
    [.PROV, .UNITH, .MIXED]]),
  (13, [[.BOXH, .MIXED], [.DOUBLE, .SINGLE, .TYPE, .ROAD, .DIRECT, .PROV, .QUALIF, .ORD, .NUMBER, .MIXED, .FRACT, .DASH],
    [.DIRECT, .CITY, .QUALIF, .UNITH, .BOXH, .AMPERS], [.TYPE, .DIRECT, .PROV, .CITY, .QUALIF, .UNITH, .BOXH],
    [.TYPE, .DIRECT, .PROV, .CITY, .QUALIF, .UNITH, .BOXH], [.TYPE, .DIRECT, .PROV, .CITY, .QUALIF, .UNITH, .BOXH],
    [.TYPE, .DIRECT, .PROV, .CITY, .QUALIF, .UNITH, .BOXH], [.TYPE, .DIRECT, .PROV, .CITY, .NATION, .QUALIF, .UNITH, .BOXH],
    [.TYPE, .DIRECT, .PROV, .NATION, .QUALIF, .BOXH], [.WORD, .PROV, .UNITH, .MIXED]]),
  (13, [[.BOXH, .MIXED], [.DOUBLE, .SINGLE, .TYPE, .ROAD, .DIRECT, .PROV, .QUALIF, .ORD, .NUMBER, .MIXED, .FRACT, .DASH],
    [.DIRECT, .CITY, .QUALIF, .UNITH, .BOXH, .AMPERS], [.TYPE, .DIRECT, .PROV, .CITY, .QUALIF, .UNITH, .BOXH],
    [.DIRECT, .CITY, .QUALIF, .UNITH, .BOXH], [.TYPE, .DIRECT, .PROV, .CITY, .NATION, .QUALIF, .UNITH, .BOXH],
    [.WORD, .TYPE, .DIRECT, .PROV, .CITY, .NATION, .QUALIF, .UNITH, .BOXH], [], []]),
  (13, [[.BOXH, .MIXED], [.DOUBLE, .SINGLE, .TYPE, .ROAD, .DIRECT, .PROV, .QUALIF, .ORD, .NUMBER, .MIXED, .FRACT, .DASH],
    [.DIRECT, .CITY, .QUALIF, .UNITH, .BOXH, .AMPERS], [.TYPE, .DIRECT, .PROV, .CITY, .QUALIF, .UNITH, .BOXH],
    [.DIRECT, .CITY, .QUALIF, .UNITH, .BOXH], [.TYPE, .DIRECT, .PROV, .CITY, .NATION, .QUALIF, .UNITH, .BOXH],
    [.WORD, .TYPE, .DIRECT, .PROV, .CITY, .NATION, .QUALIF, .UNITH, .BOXH], [], [], []]),
  (14, [[.MIXED], [.SINGLE, .WORD, .TYPE, .QUALIF, .ORD, .NUMBER, .MIXED, .FRACT],
    [.DOUBLE, .SINGLE, .TYPE, .ROAD, .DIRECT, .PROV, .CITY, .QUALIF, .ORD, .NUMBER, .MIXED, .AMPERS],
    [.WORD, .DIRECT, .CITY, .QUALIF, .UNITH, .BOXH, .NUMBER, .MIXED, .AMPERS],
    [.DIRECT, .CITY, .NATION, .QUALIF, .UNITH, .BOXH, .MIXED], [], [.PROV], [.NATION], [.PROV, .NATION]]),
  (14, [[.MIXED], [.SINGLE, .WORD, .TYPE, .QUALIF, .ORD, .NUMBER, .MIXED, .FRACT],
    [.DOUBLE, .SINGLE, .TYPE, .ROAD, .DIRECT, .PROV, .CITY, .QUALIF, .ORD, .NUMBER, .MIXED, .AMPERS],
    [.WORD, .DIRECT, .CITY, .QUALIF, .UNITH, .BOXH, .NUMBER, .MIXED, .AMPERS],
    [.DIRECT, .CITY, .NATION, .QUALIF, .UNITH, .BOXH, .MIXED], [], [], [.PROV], [.PROV, .NATION], [.PROV, .NATION]]),
  (15, [[.BOXH, .MIXED], [.SINGLE, .TYPE, .ROAD, .DIRECT, .PROV, .QUALIF, .NUMBER, .MIXED, .FRACT, .DASH],
    [.WORD, .DIRECT, .CITY, .QUALIF, .UNITH, .BOXH, .AMPERS], [.DIRECT, .PROV, .CITY, .QUALIF, .UNITH, .BOXH], [], [.PROV],
    [.CITY, .NATION, .QUALIF, .UNITH, .BOXH], [.CITY, .NATION, .QUALIF]]),
  (15, [[.BOXH, .MIXED], [.SINGLE, .TYPE, .ROAD, .DIRECT, .PROV, .QUALIF, .NUMBER, .MIXED, .FRACT, .DASH],
    [.WORD, .DIRECT, .CITY, .QUALIF, .UNITH, .BOXH, .AMPERS], [.DIRECT, .PROV, .CITY, .QUALIF, .UNITH, .BOXH], [], [], [.PROV],
    [.PROV, .CITY, .NATION, .QUALIF, .UNITH, .BOXH], [.CITY, .NATION, .QUALIF]]),
  (16, [[], [.SINGLE, .TYPE, .ROAD, .DIRECT, .QUALIF, .NUMBER, .MIXED, .FRACT, .DASH],
    [.WORD, .TYPE, .ROAD, .DIRECT, .QUALIF, .UNITH, .BOXH, .AMPERS], [.PROV, .CITY], [], [.PROV], [.PROV, .NATION]]),
  (16, [[], [.SINGLE, .TYPE, .ROAD, .DIRECT, .QUALIF, .ORD, .NUMBER, .MIXED, .FRACT],
    [.TYPE, .ROAD, .DIRECT, .CITY, .QUALIF, .BOXH, .NUMBER, .MIXED], [.WORD, .TYPE, .DIRECT, .PROV, .QUALIF, .UNITH, .BOXH, .MIXED],
    [.PROV, .CITY], [], [.PROV], [.PROV, .NATION]]),
  (16, [[.NUMBER, .MIXED], [.WORD], [.CITY], [], [.PROV], [.PROV], [.PROV, .NATION]]),
  (16, [[.NUMBER, .MIXED], [.WORD], [.CITY], [], [], [.PROV], [.PROV, .NATION], [.PROV, .NATION]]),
  (17, [[.BOXH, .MIXED], [.DOUBLE, .SINGLE, .TYPE, .ROAD, .DIRECT, .PROV, .QUALIF, .ORD, .NUMBER, .MIXED, .FRACT],
    [.TYPE, .DIRECT, .CITY, .QUALIF, .UNITH, .BOXH, .ORD, .NUMBER, .MIXED, .AMPERS], [.UNITH, .BOXH],
    [.TYPE, .DIRECT, .PROV, .CITY, .QUALIF, .UNITH, .BOXH, .MIXED], [.TYPE, .DIRECT, .PROV, .QUALIF, .UNITH],
    [.PROV, .NATION, .NUMBER]]),
  (17, [[.BOXH, .MIXED], [.DOUBLE, .SINGLE, .TYPE, .ROAD, .DIRECT, .PROV, .QUALIF, .ORD, .NUMBER, .MIXED, .FRACT],
    [.TYPE, .DIRECT, .CITY, .QUALIF, .UNITH, .BOXH, .ORD, .NUMBER, .MIXED, .AMPERS], [.DIRECT, .QUALIF, .UNITH],
    [.TYPE, .DIRECT, .PROV, .CITY, .QUALIF, .UNITH, .BOXH, .NUMBER, .MIXED], [.TYPE, .DIRECT, .PROV, .CITY, .QUALIF, .UNITH, .BOXH],
    [.TYPE, .DIRECT, .PROV, .QUALIF, .UNITH, .BOXH], [.PROV, .NATION, .NUMBER]]),
  (18, [[.BOXH, .MIXED], [.SINGLE, .TYPE, .DIRECT, .PROV, .QUALIF, .ORD, .NUMBER, .MIXED, .FRACT], [.QUALIF, .ORD, .NUMBER, .MIXED],
    [.WORD, .DIRECT, .CITY, .QUALIF, .UNITH, .BOXH, .NUMBER, .MIXED, .AMPERS], [.DIRECT, .CITY, .QUALIF, .UNITH, .BOXH, .MIXED], [],
    [.PROV], [.PROV, .NATION, .NUMBER], [.PROV, .NATION]]),
  (18, [[.BOXH, .MIXED], [.SINGLE, .TYPE, .DIRECT, .PROV, .QUALIF, .ORD, .NUMBER, .MIXED, .FRACT], [.QUALIF, .ORD, .NUMBER, .MIXED],
    [.WORD, .DIRECT, .PROV, .CITY, .QUALIF, .UNITH, .BOXH, .NUMBER, .MIXED, .AMPERS],
    [.DIRECT, .CITY, .QUALIF, .UNITH, .BOXH, .MIXED], [], [], [.PROV], [.PROV, .NUMBER], [.PROV, .NATION]]),
  (19, [[.MIXED], [.DOUBLE, .SINGLE, .WORD, .ROAD, .DIRECT, .QUALIF, .ORD, .NUMBER, .MIXED, .FRACT],
    [.DOUBLE, .SINGLE, .TYPE, .ROAD, .DIRECT, .PROV, .CITY, .QUALIF, .UNITH, .BOXH, .ORD, .NUMBER, .MIXED, .AMPERS],
    [.TYPE, .DIRECT, .PROV, .CITY, .QUALIF, .UNITH, .BOXH, .AMPERS], [.QUALIF, .BOXH],
    [.TYPE, .DIRECT, .PROV, .CITY, .QUALIF, .UNITH, .BOXH, .MIXED], [.TYPE, .DIRECT, .PROV, .CITY, .QUALIF, .UNITH, .BOXH],
    [.PROV, .NATION]]),
  (19, [[.MIXED], [.DOUBLE, .SINGLE, .WORD, .ROAD, .DIRECT, .QUALIF, .ORD, .NUMBER, .MIXED, .FRACT],
    [.DOUBLE, .SINGLE, .TYPE, .ROAD, .DIRECT, .PROV, .CITY, .QUALIF, .UNITH, .BOXH, .ORD, .NUMBER, .MIXED, .AMPERS],
    [.TYPE, .DIRECT, .PROV, .CITY, .QUALIF, .UNITH, .BOXH, .AMPERS], [.DIRECT, .QUALIF, .UNITH, .BOXH],
    [.TYPE, .DIRECT, .PROV, .QUALIF, .UNITH, .BOXH, .MIXED], [.TYPE, .DIRECT, .PROV, .CITY, .QUALIF, .UNITH, .BOXH],
    [.TYPE, .DIRECT, .PROV, .QUALIF, .UNITH, .BOXH], [.PROV, .NATION]])]

def denmark : List (Nat × List (List InType)) := [
  (1, [[.BOXH], [.TYPE], [.DOUBLE, .SINGLE], [], [.NATION]]),
  (1, [[.BOXH], [.TYPE], [.TYPE, .MIXED], [], [], [.CITY, .NATION]]),
  (3, [[.BOXH], [.TYPE], [], [.QUAD, .CITY], [], [.CITY]]),
  (3, [[.BOXH], [.TYPE], [], [.DOUBLE, .SINGLE, .TYPE, .CITY, .NUMBER, .MIXED, .COMMA], [], [], [.CITY, .NATION]]),
  (5, [[], [.NUMBER], [], [.DOUBLE, .SINGLE, .COMMA], [], [.NATION]]),
  (5, [[], [.NUMBER], [.QUAD, .DOUBLE, .TYPE, .MIXED, .COMMA], [.DOUBLE, .SINGLE, .TYPE, .MIXED, .COMMA], [], [], []]),
  (7, [[], [.NUMBER], [], [], [.QUAD, .DOUBLE, .CITY, .NUMBER, .MIXED, .DASH, .COMMA], [], [.CITY]]),
  (7, [[], [.NUMBER], [.MIXED], [], [.QUAD, .DOUBLE, .SINGLE, .CITY, .NUMBER, .MIXED, .COMMA], [], [], [.CITY, .NATION]]),
  (8, [[], [], [.DOUBLE], [], [.CITY, .NATION]]),
  (8, [[], [], [], [.DOUBLE, .SINGLE, .MIXED, .DASH, .COMMA], [.SINGLE, .CITY, .NATION, .MIXED], [.QUAD, .CITY, .NATION, .NUMBER]])]

def finland : List (Nat × List (List InType)) := [
  (1, [[.BOXH], [.TYPE, .MIXED], [.SINGLE, .TYPE, .CITY, .NATION, .MIXED, .DASH], [], [.CITY, .NATION]]),
  (1, [[.BOXH], [.TYPE, .MIXED], [.DOUBLE, .SINGLE, .TYPE, .CITY, .NATION, .MIXED], [.CITY, .NUMBER],
    [.QUINT, .CITY, .NUMBER, .MIXED], [.CITY, .NATION, .NUMBER]]),
  (3, [[.BOXH], [.TYPE, .MIXED], [.DOUBLE, .SINGLE, .CITY, .MIXED],
    [.QUINT, .DOUBLE, .SINGLE, .CITY, .NATION, .NUMBER, .MIXED, .DASH], [], [.CITY, .NATION]]),
  (3, [[.BOXH], [.TYPE, .MIXED], [.DOUBLE, .SINGLE, .TYPE, .CITY, .MIXED],
    [.QUINT, .DOUBLE, .SINGLE, .TYPE, .CITY, .NATION, .NUMBER, .MIXED, .DASH], [.CITY, .NUMBER],
    [.QUINT, .CITY, .NATION, .NUMBER, .MIXED], [.CITY, .NATION]]),
  (5, [[.BOXH], [.NUMBER, .MIXED], [.TYPE, .MIXED], [.DOUBLE, .SINGLE, .TYPE, .CITY, .NATION, .MIXED, .DASH], [.CITY],
    [.DOUBLE, .SINGLE, .CITY, .NATION, .NUMBER]]),
  (5, [[.BOXH], [.NUMBER, .MIXED], [.TYPE, .MIXED], [.DOUBLE, .SINGLE, .WORD, .TYPE, .CITY, .MIXED],
    [.QUINT, .SINGLE, .CITY, .NUMBER], [.QUINT, .CITY, .NATION, .NUMBER], [.QUINT, .CITY, .NATION, .NUMBER]]),
  (7, [[.BOXH], [.NUMBER, .MIXED], [.TYPE, .MIXED], [.DOUBLE, .SINGLE, .WORD, .TYPE, .CITY, .NATION, .MIXED],
    [.QUINT, .DOUBLE, .SINGLE, .TYPE, .CITY, .NATION, .NUMBER, .MIXED, .DASH], [.CITY, .NUMBER], [.CITY, .NATION]]),
  (7, [[.BOXH], [.WORD, .NUMBER, .MIXED], [.MIXED], [.DOUBLE, .SINGLE, .CITY, .NATION, .MIXED],
    [.QUINT, .TYPE, .CITY, .NATION, .NUMBER, .MIXED, .DASH], [.CITY], [.CITY], [.NUMBER]]),
  (8, [[], [], [.QUINT, .DOUBLE, .SINGLE, .WORD, .CITY, .NATION, .MIXED], [.DOUBLE, .SINGLE, .CITY, .MIXED],
    [.QUINT, .CITY, .NATION, .NUMBER]]),
  (8, [[], [], [.TYPE, .CITY, .NATION, .NUMBER, .MIXED, .DASH], [.QUINT, .WORD, .TYPE, .CITY, .NATION, .MIXED],
    [.DOUBLE, .SINGLE, .CITY], [.QUINT, .CITY, .NATION, .NUMBER]]),
  (11, [[], [], [.QUINT, .WORD, .CITY], [.CITY]]),
  (11, [[], [], [.NUMBER, .MIXED], [.QUINT, .WORD, .CITY, .MIXED], [.QUINT, .CITY, .NUMBER]])]

def france : List (Nat × List (List InType)) := [
  (1, [[], [.NUMBER], [.NUMBER], [.CITY, .NATION, .UNITH, .UNITT, .MIXED, .DASH], [], [.CITY, .NATION, .BOXH]]),
  (1, [[], [.NUMBER], [.QUINT, .NATION, .UNITH, .NUMBER], [.NATION, .UNITH], [], [.QUINT, .CITY, .BOXH, .NUMBER, .MIXED],
    [.QUINT, .CITY, .NATION, .UNITT, .BOXH, .NUMBER, .MIXED]]),
  (3, [[], [.NUMBER, .DASH, .SLASH], [.QUINT, .NATION, .NUMBER], [.UNITH, .MIXED, .DASH],
    [.QUINT, .CITY, .NATION, .UNITH, .BOXH, .NUMBER, .MIXED, .DASH], [], [.CITY, .NATION, .BOXH]]),
  (3, [[], [.NUMBER, .DASH, .SLASH], [.QUINT, .NATION, .UNITH, .NUMBER], [.UNITH, .MIXED, .DASH],
    [.QUINT, .CITY, .NATION, .UNITH, .BOXH, .NUMBER, .MIXED, .DASH], [.BOXH, .NUMBER],
    [.QUINT, .CITY, .NATION, .UNITT, .BOXH, .NUMBER, .MIXED], [.CITY, .NATION, .UNITT, .BOXH, .NUMBER, .MIXED]]),
  (4, [[], [], [.NATION], [.CITY], [.CITY, .NATION, .BOXH]]),
  (4, [[], [], [.BOXH, .NUMBER], [.CITY, .UNITH, .UNITT, .MIXED, .DASH], [.CITY, .BOXH],
    [.QUINT, .CITY, .NATION, .BOXH, .NUMBER, .MIXED]])]

def germany : List (Nat × List (List InType)) := [
  (1, [[.BOXH], [.MIXED, .FRACT], [.SINGLE, .TYPE, .UNITH, .MIXED, .FRACT, .SLASH], [], [.PROV, .CITY, .NATION]]),
  (1, [[.BOXH], [.TYPE, .MIXED, .FRACT], [.DOUBLE, .SINGLE, .TYPE, .UNITH, .MIXED, .FRACT, .SLASH], [],
    [.QUINT, .DOUBLE, .SINGLE, .DIRECT, .PROV, .CITY, .UNITH, .UNITT, .NUMBER, .MIXED, .FRACT], [.DIRECT, .PROV, .CITY, .NATION]]),
  (3, [[.BOXH], [.TYPE, .MIXED, .FRACT], [.FRACT],
    [.QUINT, .SINGLE, .DIRECT, .CITY, .UNITH, .UNITT, .NUMBER, .MIXED, .FRACT, .SLASH], [], [.PROV, .CITY, .NATION]]),
  (3, [[.BOXH], [.TYPE, .MIXED, .FRACT], [.DOUBLE, .SINGLE, .TYPE, .UNITH, .MIXED, .FRACT],
    [.QUINT, .DOUBLE, .SINGLE, .TYPE, .DIRECT, .CITY, .UNITH, .NUMBER, .MIXED, .FRACT, .SLASH], [],
    [.DOUBLE, .SINGLE, .DIRECT, .PROV, .CITY, .UNITH, .NUMBER, .MIXED, .FRACT], [.DIRECT, .PROV, .CITY, .NATION]]),
  (5, [[.TYPE], [.NUMBER, .MIXED, .FRACT], [.TYPE, .MIXED, .FRACT], [.DOUBLE, .SINGLE, .UNITH, .MIXED, .FRACT, .SLASH], [],
    [.PROV, .CITY, .NATION]]),
  (5, [[.TYPE], [.NUMBER, .MIXED, .FRACT], [.TYPE, .MIXED, .FRACT], [.DOUBLE, .SINGLE, .TYPE, .UNITH, .MIXED, .FRACT, .SLASH],
    [.DIRECT, .CITY], [.QUINT, .SINGLE, .DIRECT, .PROV, .CITY, .UNITH, .UNITT, .NUMBER, .MIXED, .FRACT],
    [.DIRECT, .PROV, .CITY, .NATION]]),
  (7, [[.TYPE], [.NUMBER, .MIXED, .FRACT], [.MIXED, .FRACT], [.DOUBLE, .SINGLE, .TYPE, .UNITH, .MIXED, .FRACT, .SLASH],
    [.QUINT, .DOUBLE, .SINGLE, .TYPE, .DIRECT, .CITY, .UNITH, .NUMBER, .MIXED, .FRACT, .SLASH], [], [.PROV, .CITY, .NATION]]),
  (7, [[.TYPE], [.NUMBER, .MIXED, .FRACT], [.TYPE, .MIXED, .FRACT], [.DOUBLE, .SINGLE, .TYPE, .UNITH, .MIXED, .FRACT, .SLASH],
    [.QUINT, .DOUBLE, .SINGLE, .TYPE, .DIRECT, .CITY, .UNITH, .NUMBER, .MIXED, .FRACT, .SLASH], [.DIRECT, .CITY],
    [.DIRECT, .CITY, .NATION], [.PROV, .CITY, .NATION]]),
  (8, [[], [], [.SINGLE, .TYPE, .UNITH, .MIXED, .FRACT], [.DOUBLE, .SINGLE, .DIRECT, .CITY, .UNITH, .MIXED, .FRACT],
    [.DIRECT, .PROV, .CITY, .NATION, .MIXED]]),
  (8, [[], [], [.SINGLE, .UNITH, .NUMBER, .MIXED, .FRACT], [.QUINT, .SINGLE, .TYPE, .DIRECT, .CITY, .UNITH, .MIXED, .FRACT],
    [.DOUBLE, .SINGLE, .DIRECT, .PROV, .CITY, .NATION, .UNITH, .MIXED, .FRACT],
    [.DOUBLE, .SINGLE, .DIRECT, .PROV, .CITY, .NATION, .MIXED]]),
  (10, [[.BOXH], [.TYPE, .MIXED, .FRACT], [], [.DOUBLE, .SINGLE, .DIRECT, .CITY, .UNITH, .UNITT, .NUMBER, .MIXED, .FRACT],
    [.SINGLE, .WORD, .TYPE, .DIRECT, .PROV, .CITY, .UNITT, .MIXED, .FRACT],
    [.DOUBLE, .SINGLE, .DIRECT, .CITY, .UNITH, .UNITT, .MIXED, .FRACT], [.DIRECT, .PROV, .CITY, .NATION, .MIXED]]),
  (10, [[.BOXH], [.TYPE, .MIXED, .FRACT], [], [.QUINT, .DIRECT, .CITY, .UNITH, .NUMBER],
    [.QUINT, .DOUBLE, .SINGLE, .TYPE, .DIRECT, .CITY, .UNITH, .NUMBER, .MIXED, .FRACT],
    [.QUINT, .SINGLE, .WORD, .DIRECT, .CITY, .NATION, .UNITT, .MIXED, .FRACT], [.DIRECT, .CITY, .UNITT, .MIXED, .FRACT],
    [.DIRECT, .PROV, .CITY, .NATION]])]

def greatbritain : List (Nat × List (List InType)) := [
  (0, [[.MIXED], [.DOUBLE, .SINGLE, .TYPE, .ROAD, .DIRECT, .QUALIF, .ORD, .NUMBER, .MIXED],
    [.ROAD, .DIRECT, .CITY, .QUALIF, .BUILDT, .PLACEN, .NUMBER, .MIXED, .AMPERS],
    [.TYPE, .DIRECT, .PROV, .CITY, .QUALIF, .UNITH, .UNITT, .BUILDT, .PLACEN, .BOXH, .NUMBER, .MIXED], [], [.PROV, .NATION, .MIXED]]),
  (0, [[.BUILDT, .PLACEN, .MIXED],
    [.DOUBLE, .SINGLE, .TYPE, .ROAD, .DIRECT, .QUALIF, .UNITH, .BUILDT, .PLACEN, .ORD, .NUMBER, .MIXED],
    [.ROAD, .DIRECT, .CITY, .QUALIF, .BUILDT, .PLACEN, .NUMBER, .MIXED, .AMPERS],
    [.TYPE, .DIRECT, .PROV, .CITY, .NATION, .QUALIF, .BUILDT, .PLACEN, .MIXED], [.PROV, .NATION, .QUALIF, .BUILDT, .PLACEN, .MIXED],
    [.TYPE, .DIRECT, .PROV, .CITY, .NATION, .QUALIF, .MIXED], [.PROV, .NATION, .MIXED]]),
  (1, [[.MIXED], [.DOUBLE, .SINGLE, .TYPE, .ROAD, .DIRECT, .QUALIF, .ORD, .NUMBER, .MIXED],
    [.ROAD, .DIRECT, .CITY, .QUALIF, .BUILDT, .PLACEN, .NUMBER, .MIXED, .AMPERS],
    [.TYPE, .DIRECT, .PROV, .CITY, .QUALIF, .UNITH, .UNITT, .BUILDT, .PLACEN, .BOXH, .NUMBER, .MIXED], [], [.PROV, .NATION, .MIXED]]),
  (1, [[.BUILDT, .PLACEN, .MIXED],
    [.DOUBLE, .SINGLE, .TYPE, .ROAD, .DIRECT, .QUALIF, .UNITH, .BUILDT, .PLACEN, .ORD, .NUMBER, .MIXED],
    [.ROAD, .DIRECT, .CITY, .QUALIF, .BUILDT, .PLACEN, .NUMBER, .MIXED, .AMPERS],
    [.TYPE, .DIRECT, .PROV, .CITY, .NATION, .QUALIF, .BUILDT, .PLACEN, .MIXED], [.PROV, .NATION, .QUALIF, .BUILDT, .PLACEN, .MIXED],
    [.TYPE, .DIRECT, .PROV, .CITY, .NATION, .QUALIF, .MIXED], [.PROV, .NATION, .MIXED]]),
  (2, [[.BUILDT, .PLACEN, .MIXED],
    [.DOUBLE, .SINGLE, .TYPE, .ROAD, .DIRECT, .QUALIF, .UNITH, .BUILDT, .PLACEN, .ORD, .NUMBER, .MIXED],
    [.ROAD, .DIRECT, .CITY, .QUALIF, .BUILDT, .PLACEN, .NUMBER, .MIXED, .AMPERS], [.QUALIF, .BUILDT, .PLACEN],
    [.TYPE, .DIRECT, .PROV, .CITY, .NATION, .QUALIF, .MIXED], [.NATION, .MIXED]]),
  (2, [[.BUILDT, .PLACEN, .MIXED],
    [.DOUBLE, .SINGLE, .TYPE, .ROAD, .DIRECT, .QUALIF, .UNITH, .UNITT, .BUILDT, .PLACEN, .ORD, .NUMBER, .MIXED],
    [.ROAD, .DIRECT, .CITY, .QUALIF, .BUILDT, .PLACEN, .NUMBER, .MIXED, .AMPERS], [.DIRECT, .CITY, .QUALIF],
    [.TYPE, .DIRECT, .PROV, .CITY, .NATION, .QUALIF, .BUILDT, .PLACEN, .NUMBER, .MIXED],
    [.TYPE, .DIRECT, .PROV, .CITY, .NATION, .QUALIF, .NUMBER, .MIXED], [.NATION, .MIXED]]),
  (2, [[.BUILDT, .PLACEN, .MIXED], [.DOUBLE, .SINGLE, .TYPE, .ROAD, .DIRECT, .QUALIF, .ORD, .NUMBER, .MIXED],
    [.ROAD, .DIRECT, .CITY, .QUALIF, .BUILDT, .PLACEN, .NUMBER, .MIXED, .AMPERS],
    [.TYPE, .DIRECT, .PROV, .QUALIF, .UNITH, .BUILDT, .PLACEN, .NUMBER, .MIXED], [], [.NATION, .MIXED]]),
  (2, [[.BUILDT, .PLACEN, .MIXED],
    [.DOUBLE, .SINGLE, .TYPE, .ROAD, .DIRECT, .QUALIF, .UNITH, .UNITT, .BUILDT, .PLACEN, .ORD, .NUMBER, .MIXED],
    [.ROAD, .DIRECT, .CITY, .QUALIF, .BUILDT, .PLACEN, .NUMBER, .MIXED, .AMPERS],
    [.TYPE, .DIRECT, .PROV, .NATION, .QUALIF, .BUILDT, .PLACEN, .NUMBER, .MIXED], [.DIRECT, .PROV, .QUALIF, .MIXED],
    [.TYPE, .DIRECT, .PROV, .CITY, .NATION, .QUALIF, .MIXED], [.PROV, .NATION, .NUMBER, .MIXED]]),
  (3, [[.BUILDT, .PLACEN, .MIXED],
    [.DOUBLE, .SINGLE, .TYPE, .ROAD, .DIRECT, .PROV, .QUALIF, .UNITH, .UNITT, .BUILDT, .PLACEN, .ORD, .NUMBER, .MIXED],
    [.DIRECT, .CITY, .QUALIF, .BUILDT, .PLACEN, .ORD, .NUMBER, .MIXED, .AMPERS],
    [.TYPE, .DIRECT, .PROV, .CITY, .NATION, .QUALIF, .BUILDT, .PLACEN, .NUMBER, .MIXED],
    [.TYPE, .DIRECT, .PROV, .CITY, .NATION, .QUALIF, .BUILDT, .PLACEN, .NUMBER, .MIXED], [.MIXED], [.PROV, .CITY, .NATION, .MIXED]]),
  (3, [[.BUILDT, .PLACEN, .MIXED],
    [.DOUBLE, .SINGLE, .TYPE, .ROAD, .DIRECT, .PROV, .QUALIF, .UNITT, .BUILDT, .PLACEN, .ORD, .NUMBER, .MIXED],
    [.DIRECT, .CITY, .QUALIF, .BUILDT, .PLACEN, .ORD, .NUMBER, .MIXED, .AMPERS],
    [.TYPE, .DIRECT, .PROV, .CITY, .NATION, .QUALIF, .BUILDT, .PLACEN, .NUMBER, .MIXED],
    [.TYPE, .DIRECT, .PROV, .CITY, .NATION, .QUALIF, .BUILDT, .PLACEN, .NUMBER, .MIXED],
    [.DIRECT, .PROV, .CITY, .NATION, .QUALIF, .MIXED], [.TYPE, .DIRECT, .PROV, .CITY, .NATION, .QUALIF, .MIXED],
    [.PROV, .NATION, .MIXED]]),
  (4, [[.BUILDT, .PLACEN, .MIXED],
    [.DOUBLE, .SINGLE, .TYPE, .ROAD, .DIRECT, .PROV, .QUALIF, .UNITT, .BUILDT, .PLACEN, .ORD, .NUMBER, .MIXED],
    [.DIRECT, .CITY, .QUALIF, .BUILDT, .PLACEN, .NUMBER, .MIXED, .AMPERS],
    [.TYPE, .DIRECT, .PROV, .CITY, .NATION, .QUALIF, .BUILDT, .PLACEN, .NUMBER, .MIXED], [.DIRECT, .QUALIF, .PLACEN, .MIXED],
    [.TYPE, .DIRECT, .PROV, .CITY, .NATION, .QUALIF, .MIXED], [.PROV, .NUMBER, .MIXED]]),
  (4, [[.BUILDT, .PLACEN, .MIXED],
    [.DOUBLE, .SINGLE, .TYPE, .ROAD, .DIRECT, .PROV, .QUALIF, .UNITH, .UNITT, .BUILDT, .PLACEN, .ORD, .NUMBER, .MIXED],
    [.DIRECT, .CITY, .QUALIF, .BUILDT, .PLACEN, .NUMBER, .MIXED, .AMPERS],
    [.TYPE, .DIRECT, .PROV, .CITY, .NATION, .QUALIF, .BUILDT, .PLACEN, .NUMBER, .MIXED],
    [.TYPE, .DIRECT, .CITY, .NATION, .QUALIF, .BUILDT, .PLACEN, .MIXED], [.TYPE, .DIRECT, .PROV, .CITY, .NATION, .QUALIF, .MIXED],
    [.TYPE, .DIRECT, .PROV, .CITY, .NATION, .QUALIF, .MIXED], [.PROV, .NUMBER, .MIXED]]),
  (4, [[.BUILDT, .PLACEN, .MIXED],
    [.DOUBLE, .SINGLE, .TYPE, .ROAD, .DIRECT, .PROV, .QUALIF, .UNITH, .BUILDT, .PLACEN, .ORD, .NUMBER, .MIXED],
    [.DIRECT, .CITY, .QUALIF, .BUILDT, .PLACEN, .NUMBER, .MIXED, .AMPERS],
    [.TYPE, .DIRECT, .PROV, .CITY, .NATION, .QUALIF, .BUILDT, .PLACEN, .NUMBER, .MIXED],
    [.TYPE, .DIRECT, .CITY, .NATION, .QUALIF, .BUILDT, .PLACEN, .NUMBER, .MIXED], [.NATION, .QUALIF, .MIXED],
    [.PROV, .CITY, .NATION, .MIXED]]),
  (4, [[.BUILDT, .PLACEN, .MIXED],
    [.DOUBLE, .SINGLE, .TYPE, .ROAD, .DIRECT, .PROV, .QUALIF, .UNITT, .BUILDT, .PLACEN, .ORD, .NUMBER, .MIXED],
    [.DIRECT, .CITY, .QUALIF, .BUILDT, .PLACEN, .NUMBER, .MIXED, .AMPERS],
    [.TYPE, .DIRECT, .PROV, .CITY, .NATION, .QUALIF, .BUILDT, .PLACEN, .NUMBER, .MIXED],
    [.TYPE, .DIRECT, .CITY, .NATION, .QUALIF, .BUILDT, .PLACEN, .NUMBER, .MIXED],
    [.TYPE, .DIRECT, .PROV, .CITY, .NATION, .QUALIF, .MIXED], [.TYPE, .DIRECT, .PROV, .NATION, .QUALIF, .MIXED],
    [.PROV, .NATION, .MIXED]]),
  (5, [[.BUILDT, .PLACEN, .ORD, .MIXED], [.TYPE, .ROAD, .QUALIF, .UNITT, .BUILDT, .PLACEN, .ORD, .NUMBER, .MIXED],
    [.DOUBLE, .SINGLE, .TYPE, .ROAD, .DIRECT, .CITY, .QUALIF, .BUILDT, .PLACEN, .ORD, .NUMBER, .MIXED, .AMPERS],
    [.WORD, .ROAD, .DIRECT, .PROV, .CITY, .NATION, .QUALIF, .BUILDT, .PLACEN, .MIXED, .AMPERS],
    [.DIRECT, .CITY, .NATION, .QUALIF, .ORD, .NUMBER, .MIXED], [], [.PROV, .NATION, .MIXED]]),
  (5, [[.BUILDT, .PLACEN, .ORD, .MIXED], [.SINGLE, .TYPE, .QUALIF, .UNITT, .BUILDT, .PLACEN, .ORD, .NUMBER, .MIXED],
    [.DOUBLE, .SINGLE, .TYPE, .ROAD, .DIRECT, .CITY, .QUALIF, .BUILDT, .PLACEN, .ORD, .NUMBER, .MIXED, .AMPERS],
    [.WORD, .ROAD, .DIRECT, .CITY, .NATION, .QUALIF, .BUILDT, .PLACEN, .MIXED, .AMPERS],
    [.DIRECT, .CITY, .NATION, .QUALIF, .ORD, .NUMBER, .MIXED], [], [], [.PROV, .NATION, .MIXED]]),
  (6, [[.UNITT, .BUILDT, .PLACEN, .ORD, .MIXED],
    [.DOUBLE, .SINGLE, .TYPE, .ROAD, .DIRECT, .QUALIF, .UNITT, .BUILDT, .PLACEN, .NUMBER, .MIXED],
    [.ROAD, .DIRECT, .CITY, .QUALIF, .BUILDT, .PLACEN, .ORD, .NUMBER, .MIXED, .AMPERS],
    [.TYPE, .DIRECT, .PROV, .CITY, .NATION, .QUALIF, .BUILDT, .PLACEN, .ORD, .NUMBER, .MIXED, .AMPERS], [.PROV, .QUALIF, .MIXED],
    [.PROV, .CITY, .NATION, .MIXED]]),
  (6, [[.UNITT, .BUILDT, .PLACEN, .ORD, .MIXED],
    [.SINGLE, .TYPE, .ROAD, .DIRECT, .QUALIF, .UNITT, .BUILDT, .PLACEN, .NUMBER, .MIXED],
    [.WORD, .ROAD, .DIRECT, .CITY, .QUALIF, .BUILDT, .PLACEN, .ORD, .NUMBER, .MIXED, .AMPERS],
    [.TYPE, .DIRECT, .PROV, .CITY, .NATION, .QUALIF, .PLACEN, .ORD, .NUMBER, .MIXED, .AMPERS], [], [], [.PROV, .NATION, .MIXED]]),
  (7, [[], [.DOUBLE, .SINGLE, .TYPE, .ROAD, .DIRECT, .QUALIF, .UNITH, .BUILDT, .PLACEN, .ORD, .NUMBER, .MIXED, .DASH],
    [.TYPE, .ROAD, .DIRECT, .CITY, .QUALIF, .MIXED, .AMPERS],
    [.DOUBLE, .SINGLE, .TYPE, .DIRECT, .PROV, .CITY, .NATION, .QUALIF, .ORD, .NUMBER, .MIXED], [.NATION, .NUMBER, .MIXED]]),
  (7, [[.MIXED], [.SINGLE, .TYPE, .ROAD, .DIRECT, .QUALIF, .ORD, .NUMBER, .MIXED],
    [.TYPE, .ROAD, .DIRECT, .CITY, .QUALIF, .BUILDT, .PLACEN, .BOXH, .NUMBER, .MIXED, .AMPERS],
    [.TYPE, .DIRECT, .PROV, .CITY, .QUALIF, .UNITH, .UNITT, .BUILDT, .PLACEN, .MIXED],
    [.DOUBLE, .SINGLE, .TYPE, .DIRECT, .PROV, .CITY, .NATION, .QUALIF, .ORD, .NUMBER, .MIXED], [.NATION, .NUMBER, .MIXED]]),
  (7, [[.NUMBER, .MIXED], [], [.CITY, .NUMBER, .MIXED], [], [.PROV, .NATION, .MIXED]]),
  (7, [[.PLACEN, .NUMBER, .MIXED], [], [.DIRECT, .CITY, .BUILDT, .PLACEN, .BOXH, .NUMBER, .MIXED], [], [], [.PROV, .NATION, .MIXED]]),
  (8, [[.MIXED], [.DOUBLE, .SINGLE, .ROAD, .DIRECT, .QUALIF, .ORD, .NUMBER, .MIXED],
    [.DOUBLE, .SINGLE, .TYPE, .ROAD, .DIRECT, .CITY, .QUALIF, .BOXH, .ORD, .NUMBER, .MIXED], [], [.PROV, .NATION, .MIXED]]),
  (8, [[.BUILDT, .PLACEN, .MIXED],
    [.DOUBLE, .SINGLE, .TYPE, .ROAD, .DIRECT, .QUALIF, .UNITH, .BUILDT, .PLACEN, .ORD, .NUMBER, .MIXED],
    [.TYPE, .ROAD, .DIRECT, .CITY, .QUALIF, .BUILDT, .PLACEN, .NUMBER, .MIXED, .AMPERS], [],
    [.PROV, .CITY, .NATION, .QUALIF, .MIXED], [.PROV, .CITY, .NATION, .NUMBER, .MIXED]]),
  (9, [[.BUILDT, .PLACEN, .MIXED],
    [.DOUBLE, .SINGLE, .TYPE, .ROAD, .DIRECT, .PROV, .QUALIF, .UNITH, .UNITT, .BUILDT, .PLACEN, .ORD, .NUMBER, .MIXED],
    [.TYPE, .DIRECT, .CITY, .QUALIF, .BUILDT, .PLACEN, .NUMBER, .MIXED, .AMPERS],
    [.DIRECT, .PROV, .CITY, .NATION, .QUALIF, .BUILDT, .PLACEN, .NUMBER, .MIXED],
    [.TYPE, .DIRECT, .PROV, .CITY, .NATION, .QUALIF, .BUILDT, .PLACEN, .NUMBER, .MIXED], [], [.PROV, .NATION, .QUALIF, .MIXED]]),
  (9, [[.BUILDT, .PLACEN, .MIXED],
    [.DOUBLE, .SINGLE, .TYPE, .ROAD, .DIRECT, .PROV, .QUALIF, .UNITT, .BUILDT, .PLACEN, .ORD, .NUMBER, .MIXED],
    [.TYPE, .DIRECT, .CITY, .QUALIF, .BUILDT, .PLACEN, .NUMBER, .MIXED, .AMPERS],
    [.DIRECT, .PROV, .CITY, .NATION, .QUALIF, .BUILDT, .PLACEN, .NUMBER, .MIXED],
    [.TYPE, .DIRECT, .PROV, .CITY, .NATION, .QUALIF, .BUILDT, .PLACEN, .NUMBER, .MIXED],
    [.DIRECT, .PROV, .CITY, .NATION, .QUALIF, .MIXED], [.TYPE, .DIRECT, .PROV, .CITY, .NATION, .QUALIF, .MIXED],
    [.PROV, .NATION, .MIXED]]),
  (10, [[.BUILDT, .PLACEN, .MIXED],
    [.DOUBLE, .SINGLE, .ROAD, .DIRECT, .PROV, .QUALIF, .UNITH, .UNITT, .BUILDT, .PLACEN, .ORD, .NUMBER, .MIXED],
    [.DOUBLE, .SINGLE, .TYPE, .DIRECT, .CITY, .QUALIF, .BUILDT, .PLACEN, .ORD, .NUMBER, .MIXED, .AMPERS],
    [.TYPE, .DIRECT, .PROV, .CITY, .NATION, .QUALIF, .BUILDT, .PLACEN, .ORD, .NUMBER, .MIXED, .AMPERS], [.QUALIF],
    [.PROV, .CITY, .NATION, .QUALIF, .MIXED]]),
  (10, [[.BUILDT, .PLACEN, .MIXED],
    [.DOUBLE, .SINGLE, .WORD, .ROAD, .DIRECT, .PROV, .QUALIF, .UNITH, .BUILDT, .PLACEN, .ORD, .NUMBER, .MIXED],
    [.DOUBLE, .SINGLE, .TYPE, .DIRECT, .CITY, .QUALIF, .PLACEN, .ORD, .NUMBER, .MIXED, .AMPERS],
    [.TYPE, .DIRECT, .CITY, .QUALIF, .ORD, .NUMBER, .MIXED, .AMPERS], [], [.CITY, .NATION, .QUALIF, .MIXED],
    [.PROV, .CITY, .NATION, .MIXED]]),
  (11, [[.UNITT, .BUILDT, .PLACEN, .ORD, .MIXED],
    [.DOUBLE, .SINGLE, .TYPE, .ROAD, .DIRECT, .PROV, .QUALIF, .UNITT, .BUILDT, .PLACEN, .ORD, .NUMBER, .MIXED, .DASH],
    [.DIRECT, .CITY, .QUALIF, .BUILDT, .PLACEN, .AMPERS], [.TYPE, .DIRECT, .PROV, .CITY, .QUALIF, .BUILDT, .PLACEN, .MIXED],
    [.TYPE, .DIRECT, .PROV, .NATION, .QUALIF, .BUILDT, .PLACEN, .MIXED], [.TYPE, .DIRECT, .PROV, .CITY, .NATION, .QUALIF, .MIXED],
    [.TYPE, .DIRECT, .PROV, .CITY, .NATION, .QUALIF], [.WORD, .PROV, .NATION]]),
  (11, [[.UNITT, .BUILDT, .PLACEN, .ORD, .MIXED],
    [.DOUBLE, .SINGLE, .TYPE, .ROAD, .DIRECT, .PROV, .QUALIF, .UNITT, .BUILDT, .PLACEN, .ORD, .NUMBER, .MIXED, .DASH],
    [.DIRECT, .CITY, .QUALIF, .BUILDT, .PLACEN, .AMPERS], [.TYPE, .DIRECT, .PROV, .CITY, .QUALIF, .BUILDT, .PLACEN, .MIXED],
    [.TYPE, .DIRECT, .PROV, .NATION, .QUALIF, .BUILDT, .PLACEN, .MIXED], [.TYPE, .DIRECT, .PROV, .CITY, .NATION, .QUALIF, .MIXED],
    [.TYPE, .DIRECT, .PROV, .CITY, .NATION, .QUALIF, .MIXED], [.WORD, .TYPE, .DIRECT, .PROV, .CITY, .NATION, .QUALIF],
    [.PROV, .NATION]]),
  (12, [[.BUILDT, .PLACEN, .ORD, .MIXED],
    [.DOUBLE, .SINGLE, .TYPE, .ROAD, .DIRECT, .PROV, .QUALIF, .UNITH, .UNITT, .BUILDT, .PLACEN, .ORD, .NUMBER, .MIXED],
    [.DIRECT, .CITY, .QUALIF, .BUILDT, .PLACEN, .NUMBER, .MIXED, .AMPERS], [.TYPE, .DIRECT, .CITY, .QUALIF, .PLACEN],
    [.TYPE, .DIRECT, .PROV, .CITY, .NATION, .QUALIF, .BUILDT, .PLACEN, .NUMBER, .MIXED],
    [.TYPE, .DIRECT, .CITY, .NATION, .QUALIF, .UNITH, .UNITT, .BUILDT, .PLACEN, .NUMBER, .MIXED],
    [.WORD, .TYPE, .DIRECT, .PROV, .CITY, .NATION, .QUALIF], [.PROV, .NATION]]),
  (12, [[.BUILDT, .PLACEN, .ORD, .MIXED],
    [.DOUBLE, .SINGLE, .TYPE, .ROAD, .DIRECT, .PROV, .QUALIF, .UNITT, .BUILDT, .PLACEN, .ORD, .NUMBER, .MIXED],
    [.DIRECT, .CITY, .QUALIF, .BUILDT, .PLACEN, .NUMBER, .MIXED, .AMPERS], [.TYPE, .DIRECT, .QUALIF, .BUILDT, .PLACEN],
    [.TYPE, .DIRECT, .PROV, .CITY, .NATION, .QUALIF, .BUILDT, .PLACEN, .MIXED],
    [.TYPE, .DIRECT, .PROV, .CITY, .NATION, .QUALIF, .MIXED],
    [.WORD, .TYPE, .DIRECT, .CITY, .NATION, .QUALIF, .BUILDT, .PLACEN, .MIXED], [.TYPE, .DIRECT, .PROV, .CITY, .NATION, .QUALIF],
    [.PROV, .NATION]]),
  (12, [[.BUILDT, .PLACEN, .ORD, .MIXED],
    [.DOUBLE, .SINGLE, .TYPE, .ROAD, .DIRECT, .PROV, .QUALIF, .BUILDT, .PLACEN, .ORD, .NUMBER, .MIXED],
    [.DIRECT, .CITY, .QUALIF, .BUILDT, .PLACEN, .NUMBER, .MIXED, .AMPERS],
    [.TYPE, .DIRECT, .PROV, .QUALIF, .BUILDT, .PLACEN, .MIXED], [.DIRECT, .PROV, .NATION, .QUALIF, .BUILDT, .PLACEN, .MIXED],
    [.TYPE, .DIRECT, .PROV, .CITY, .NATION, .QUALIF, .MIXED], [.WORD, .TYPE, .DIRECT, .PROV, .CITY, .NATION, .QUALIF],
    [.PROV, .NATION]]),
  (12, [[.BUILDT, .PLACEN, .ORD, .MIXED],
    [.DOUBLE, .SINGLE, .TYPE, .ROAD, .DIRECT, .PROV, .QUALIF, .BUILDT, .PLACEN, .ORD, .NUMBER, .MIXED],
    [.DIRECT, .CITY, .QUALIF, .BUILDT, .PLACEN, .NUMBER, .MIXED, .AMPERS],
    [.WORD, .TYPE, .DIRECT, .QUALIF, .BUILDT, .PLACEN, .MIXED], [], [], [], [.TYPE, .DIRECT, .PROV, .CITY, .NATION, .QUALIF],
    [.PROV, .NATION]]),
  (13, [[.BUILDT, .PLACEN, .ORD, .MIXED],
    [.DOUBLE, .SINGLE, .TYPE, .ROAD, .DIRECT, .PROV, .QUALIF, .UNITT, .BUILDT, .PLACEN, .ORD, .NUMBER, .MIXED],
    [.DIRECT, .CITY, .QUALIF, .BUILDT, .PLACEN, .NUMBER, .MIXED, .AMPERS],
    [.TYPE, .DIRECT, .PROV, .CITY, .NATION, .QUALIF, .BUILDT, .PLACEN, .MIXED],
    [.TYPE, .DIRECT, .PROV, .CITY, .NATION, .QUALIF, .BUILDT, .PLACEN, .MIXED], [.TYPE, .DIRECT, .PROV, .NATION, .QUALIF, .MIXED],
    [.TYPE, .DIRECT, .PROV, .CITY, .NATION, .QUALIF, .MIXED], [.WORD, .DIRECT, .PROV, .CITY, .NATION, .QUALIF], [.PROV, .NATION]]),
  (13, [[.BUILDT, .PLACEN, .ORD, .MIXED],
    [.DOUBLE, .SINGLE, .TYPE, .ROAD, .DIRECT, .PROV, .QUALIF, .UNITT, .BUILDT, .PLACEN, .ORD, .NUMBER, .MIXED],
    [.WORD, .DIRECT, .CITY, .QUALIF, .BUILDT, .PLACEN, .NUMBER, .MIXED, .AMPERS],
    [.TYPE, .DIRECT, .PROV, .CITY, .QUALIF, .BUILDT, .PLACEN, .MIXED],
    [.TYPE, .DIRECT, .PROV, .CITY, .NATION, .QUALIF, .BUILDT, .PLACEN, .MIXED], [], [], [.PROV],
    [.DIRECT, .PROV, .CITY, .NATION, .QUALIF], [.PROV, .NATION]]),
  (14, [[.UNITT, .BUILDT, .PLACEN, .ORD, .MIXED],
    [.DOUBLE, .SINGLE, .TYPE, .ROAD, .DIRECT, .PROV, .QUALIF, .UNITT, .BUILDT, .PLACEN, .ORD, .NUMBER, .MIXED, .DASH],
    [.DIRECT, .CITY, .QUALIF, .BUILDT, .PLACEN, .AMPERS], [.TYPE, .DIRECT, .PROV, .CITY, .NATION, .QUALIF, .BUILDT, .PLACEN, .MIXED],
    [.DIRECT, .CITY, .QUALIF, .BUILDT, .PLACEN, .MIXED], [.TYPE, .DIRECT, .PROV, .CITY, .NATION, .QUALIF, .MIXED],
    [.WORD, .TYPE, .DIRECT, .PROV, .CITY, .NATION, .QUALIF], [.TYPE, .DIRECT, .PROV, .CITY, .NATION, .QUALIF], [.PROV, .MIXED]]),
  (14, [[.UNITT, .BUILDT, .PLACEN, .ORD, .MIXED],
    [.DOUBLE, .SINGLE, .TYPE, .ROAD, .DIRECT, .PROV, .QUALIF, .UNITT, .BUILDT, .PLACEN, .ORD, .NUMBER, .MIXED, .DASH],
    [.DIRECT, .CITY, .QUALIF, .BUILDT, .PLACEN, .AMPERS], [.TYPE, .DIRECT, .PROV, .CITY, .NATION, .QUALIF, .BUILDT, .PLACEN, .MIXED],
    [.TYPE, .DIRECT, .PROV, .CITY, .NATION, .QUALIF, .BUILDT, .PLACEN, .MIXED],
    [.TYPE, .DIRECT, .PROV, .CITY, .NATION, .QUALIF, .MIXED], [.TYPE, .DIRECT, .PROV, .CITY, .NATION, .QUALIF, .MIXED],
    [.WORD, .TYPE, .DIRECT, .PROV, .CITY, .NATION, .QUALIF], [.TYPE, .DIRECT, .PROV, .CITY, .NATION, .QUALIF], [.PROV, .MIXED]]),
  (14, [[.UNITT, .BUILDT, .PLACEN, .ORD, .MIXED],
    [.DOUBLE, .SINGLE, .TYPE, .ROAD, .DIRECT, .PROV, .QUALIF, .UNITT, .BUILDT, .PLACEN, .ORD, .NUMBER, .MIXED, .DASH],
    [.DIRECT, .CITY, .QUALIF, .BUILDT, .PLACEN, .AMPERS], [.TYPE, .DIRECT, .PROV, .CITY, .NATION, .QUALIF, .BUILDT, .PLACEN, .MIXED],
    [.TYPE, .DIRECT, .CITY, .NATION, .QUALIF, .BUILDT, .PLACEN, .MIXED], [.TYPE, .DIRECT, .PROV, .CITY, .NATION, .QUALIF],
    [.WORD, .TYPE, .DIRECT, .PROV, .CITY, .NATION, .QUALIF], [.MIXED], []]),
  (14, [[.UNITT, .BUILDT, .PLACEN, .ORD, .MIXED],
    [.DOUBLE, .SINGLE, .TYPE, .ROAD, .DIRECT, .PROV, .QUALIF, .UNITT, .BUILDT, .PLACEN, .ORD, .NUMBER, .MIXED, .DASH],
    [.DIRECT, .CITY, .QUALIF, .BUILDT, .PLACEN, .AMPERS], [.TYPE, .DIRECT, .PROV, .CITY, .NATION, .QUALIF, .BUILDT, .PLACEN, .MIXED],
    [.TYPE, .DIRECT, .CITY, .NATION, .QUALIF, .BUILDT, .PLACEN, .MIXED], [.TYPE, .DIRECT, .PROV, .CITY, .NATION, .QUALIF],
    [.WORD, .TYPE, .DIRECT, .PROV, .CITY, .NATION, .QUALIF], [.MIXED], [], []]),
  (15, [[.UNITT, .BUILDT, .PLACEN, .ORD, .MIXED], [.SINGLE, .TYPE, .ROAD, .QUALIF, .UNITT, .BUILDT, .PLACEN, .ORD, .NUMBER, .MIXED],
    [.DOUBLE, .SINGLE, .TYPE, .ROAD, .DIRECT, .PROV, .CITY, .QUALIF, .BUILDT, .PLACEN, .ORD, .NUMBER, .MIXED, .AMPERS],
    [.WORD, .DIRECT, .PROV, .CITY, .QUALIF, .BUILDT, .PLACEN, .MIXED, .AMPERS], [.DIRECT, .CITY, .QUALIF], [], [.PROV],
    [.PROV, .NATION], [.NATION]]),
  (15, [[.UNITT, .BUILDT, .PLACEN, .ORD, .MIXED],
    [.DOUBLE, .SINGLE, .TYPE, .ROAD, .QUALIF, .UNITT, .BUILDT, .PLACEN, .ORD, .NUMBER, .MIXED],
    [.DOUBLE, .SINGLE, .TYPE, .ROAD, .DIRECT, .PROV, .CITY, .QUALIF, .BUILDT, .PLACEN, .ORD, .NUMBER, .MIXED, .AMPERS],
    [.WORD, .DIRECT, .PROV, .CITY, .QUALIF, .BUILDT, .PLACEN, .MIXED, .AMPERS], [.DIRECT, .CITY, .QUALIF], [], [], [.PROV],
    [.PROV, .NATION], [.NATION]]),
  (16, [[.BUILDT, .PLACEN, .MIXED], [.SINGLE, .TYPE, .ROAD, .DIRECT, .QUALIF, .UNITT, .BUILDT, .PLACEN, .NUMBER, .MIXED],
    [.WORD, .ROAD, .DIRECT, .PROV, .CITY, .QUALIF, .BUILDT, .PLACEN, .ORD, .NUMBER, .MIXED, .AMPERS],
    [.DIRECT, .CITY, .QUALIF, .ORD, .NUMBER, .MIXED, .AMPERS], [], [.PROV], [.PROV, .NATION], [.PROV, .NATION]]),
  (16, [[.BUILDT, .PLACEN, .MIXED], [.DOUBLE, .SINGLE, .TYPE, .ROAD, .DIRECT, .QUALIF, .BUILDT, .PLACEN, .NUMBER, .MIXED],
    [.WORD, .ROAD, .DIRECT, .PROV, .CITY, .QUALIF, .BUILDT, .PLACEN, .ORD, .NUMBER, .MIXED, .AMPERS],
    [.DIRECT, .CITY, .QUALIF, .ORD, .NUMBER, .MIXED, .AMPERS], [], [], [.PROV], [.PROV, .NATION], [.NATION]]),
  (17, [[.NUMBER, .MIXED], [.UNITH, .UNITT, .BUILDT, .PLACEN, .NUMBER], [.MIXED],
    [.DOUBLE, .SINGLE, .TYPE, .ROAD, .DIRECT, .CITY, .QUALIF, .ORD, .NUMBER, .MIXED],
    [.TYPE, .ROAD, .DIRECT, .QUALIF, .UNITH, .UNITT, .BUILDT, .PLACEN, .NUMBER, .MIXED, .AMPERS],
    [.TYPE, .DIRECT, .PROV, .CITY, .NATION, .QUALIF, .NUMBER], [.PROV, .NATION, .NUMBER]]),
  (17, [[.NUMBER, .MIXED], [.NUMBER], [.BUILDT, .PLACEN, .BOXH, .NUMBER, .MIXED], [.MIXED],
    [.DOUBLE, .SINGLE, .TYPE, .ROAD, .DIRECT, .CITY, .QUALIF, .PLACEN, .ORD, .NUMBER, .MIXED],
    [.TYPE, .ROAD, .DIRECT, .CITY, .QUALIF, .UNITH, .UNITT, .NUMBER, .MIXED, .AMPERS],
    [.TYPE, .DIRECT, .PROV, .CITY, .QUALIF, .NUMBER], [.PROV, .NATION]]),
  (17, [[.BUILDT, .PLACEN, .NUMBER, .MIXED], [], [.DIRECT, .CITY, .UNITH, .UNITT, .BUILDT, .PLACEN, .BOXH, .ORD, .NUMBER, .MIXED],
    [], [.PROV], [.SINGLE, .ORD, .NUMBER], [.NATION]]),
  (17, [[.BUILDT, .PLACEN, .NUMBER, .MIXED], [.UNITH, .BUILDT, .PLACEN], [.DIRECT, .CITY, .BUILDT, .PLACEN, .NUMBER, .MIXED], [],
    [.MIXED], [.SINGLE, .ROAD, .DIRECT, .PROV, .QUALIF, .ORD, .NUMBER, .MIXED],
    [.DOUBLE, .SINGLE, .TYPE, .DIRECT, .PROV, .CITY, .NATION, .QUALIF, .ORD, .NUMBER, .AMPERS], [.PROV, .NATION]]),
  (18, [[.BUILDT, .PLACEN, .MIXED],
    [.DOUBLE, .SINGLE, .TYPE, .ROAD, .DIRECT, .PROV, .QUALIF, .UNITT, .BUILDT, .PLACEN, .ORD, .NUMBER, .MIXED],
    [.TYPE, .DIRECT, .CITY, .QUALIF, .BUILDT, .PLACEN, .ORD, .NUMBER, .MIXED, .AMPERS], [.DIRECT, .QUALIF],
    [.TYPE, .DIRECT, .PROV, .CITY, .QUALIF, .NUMBER, .MIXED], [.TYPE, .DIRECT, .PROV, .CITY, .NATION, .QUALIF, .NUMBER],
    [.PROV, .NATION, .NUMBER]]),
  (18, [[.BUILDT, .PLACEN, .MIXED],
    [.DOUBLE, .SINGLE, .TYPE, .ROAD, .DIRECT, .PROV, .QUALIF, .UNITH, .UNITT, .BUILDT, .PLACEN, .ORD, .NUMBER, .MIXED],
    [.TYPE, .DIRECT, .CITY, .QUALIF, .BUILDT, .PLACEN, .ORD, .NUMBER, .MIXED, .AMPERS], [.TYPE, .DIRECT, .QUALIF],
    [.TYPE, .DIRECT, .CITY, .NATION, .QUALIF, .BUILDT, .PLACEN, .NUMBER, .MIXED],
    [.TYPE, .DIRECT, .PROV, .CITY, .NATION, .QUALIF, .UNITH, .UNITT, .NUMBER, .MIXED],
    [.TYPE, .DIRECT, .PROV, .CITY, .NATION, .QUALIF, .NUMBER], [.PROV, .NATION, .NUMBER]]),
  (19, [[.MIXED], [.SINGLE, .TYPE, .DIRECT, .PROV, .QUALIF, .PLACEN, .ORD, .NUMBER, .MIXED],
    [.QUALIF, .PLACEN, .ORD, .NUMBER, .MIXED],
    [.WORD, .DIRECT, .PROV, .CITY, .QUALIF, .UNITH, .UNITT, .BUILDT, .PLACEN, .ORD, .NUMBER, .MIXED, .AMPERS],
    [.DIRECT, .CITY, .QUALIF, .NUMBER, .MIXED], [], [.PROV], [.PROV, .NATION], [.NATION]]),
  (19, [[.MIXED], [.SINGLE, .TYPE, .DIRECT, .PROV, .QUALIF, .PLACEN, .ORD, .NUMBER, .MIXED],
    [.CITY, .QUALIF, .PLACEN, .ORD, .NUMBER, .MIXED],
    [.WORD, .DIRECT, .PROV, .CITY, .QUALIF, .UNITH, .UNITT, .BUILDT, .PLACEN, .ORD, .NUMBER, .MIXED, .AMPERS],
    [.DIRECT, .CITY, .QUALIF, .NUMBER, .MIXED], [], [], [.PROV], [.PROV, .NATION], [.NATION]]),
  (20, [[.UNITT, .BUILDT, .PLACEN, .ORD, .MIXED],
    [.DOUBLE, .SINGLE, .WORD, .ROAD, .DIRECT, .QUALIF, .UNITT, .BUILDT, .PLACEN, .ORD, .NUMBER, .MIXED],
    [.DOUBLE, .SINGLE, .TYPE, .ROAD, .DIRECT, .PROV, .CITY, .QUALIF, .BUILDT, .PLACEN, .ORD, .NUMBER, .MIXED, .AMPERS],
    [.TYPE, .DIRECT, .PROV, .CITY, .QUALIF, .BUILDT, .PLACEN, .MIXED, .AMPERS], [.DIRECT, .QUALIF],
    [.DIRECT, .PROV, .CITY, .QUALIF, .MIXED], [.TYPE, .DIRECT, .PROV, .CITY, .NATION, .QUALIF], [.PROV, .NATION]]),
  (20, [[.UNITT, .BUILDT, .PLACEN, .ORD, .MIXED],
    [.DOUBLE, .SINGLE, .WORD, .ROAD, .DIRECT, .QUALIF, .UNITT, .BUILDT, .PLACEN, .ORD, .NUMBER, .MIXED],
    [.DOUBLE, .SINGLE, .TYPE, .ROAD, .DIRECT, .PROV, .CITY, .QUALIF, .BUILDT, .PLACEN, .ORD, .NUMBER, .MIXED, .AMPERS],
    [.TYPE, .DIRECT, .PROV, .CITY, .QUALIF, .BUILDT, .PLACEN, .MIXED, .AMPERS], [.TYPE, .DIRECT, .QUALIF],
    [.TYPE, .DIRECT, .NATION, .QUALIF, .MIXED], [.TYPE, .DIRECT, .PROV, .CITY, .NATION, .QUALIF, .MIXED],
    [.TYPE, .DIRECT, .PROV, .CITY, .NATION, .QUALIF], [.PROV, .NATION]]),
  (22, [[.BUILDT, .PLACEN, .ORD, .MIXED],
    [.DOUBLE, .SINGLE, .TYPE, .ROAD, .DIRECT, .PROV, .QUALIF, .UNITH, .UNITT, .BUILDT, .PLACEN, .ORD, .NUMBER, .MIXED],
    [.DIRECT, .CITY, .QUALIF, .BUILDT, .PLACEN, .NUMBER, .MIXED, .AMPERS], [.TYPE, .DIRECT, .QUALIF, .MIXED],
    [.TYPE, .DIRECT, .PROV, .CITY, .NATION, .QUALIF, .BUILDT, .PLACEN, .NUMBER, .MIXED],
    [.TYPE, .DIRECT, .PROV, .CITY, .NATION, .QUALIF, .NUMBER], [.PROV, .CITY, .NATION, .QUALIF]]),
  (22, [[.BUILDT, .PLACEN, .ORD, .MIXED],
    [.DOUBLE, .SINGLE, .TYPE, .ROAD, .DIRECT, .PROV, .QUALIF, .UNITT, .BUILDT, .PLACEN, .ORD, .NUMBER, .MIXED],
    [.DIRECT, .CITY, .QUALIF, .BUILDT, .PLACEN, .NUMBER, .MIXED, .AMPERS], [.TYPE, .DIRECT, .CITY, .QUALIF, .BUILDT, .PLACEN],
    [.TYPE, .DIRECT, .PROV, .CITY, .NATION, .QUALIF, .BUILDT, .PLACEN, .MIXED],
    [.TYPE, .DIRECT, .PROV, .CITY, .NATION, .QUALIF, .MIXED], [.TYPE, .DIRECT, .PROV, .CITY, .NATION, .QUALIF],
    [.WORD, .PROV, .CITY, .NATION, .QUALIF]]),
  (24, [[.UNITT, .BUILDT, .PLACEN, .ORD, .MIXED],
    [.DOUBLE, .SINGLE, .TYPE, .ROAD, .DIRECT, .PROV, .QUALIF, .UNITT, .BUILDT, .PLACEN, .ORD, .NUMBER, .MIXED, .DASH],
    [.DIRECT, .CITY, .QUALIF, .BUILDT, .PLACEN, .AMPERS], [.DIRECT, .PROV, .CITY, .QUALIF, .BUILDT, .PLACEN, .MIXED],
    [.DIRECT, .PROV, .CITY, .QUALIF, .BUILDT, .PLACEN], [.WORD, .TYPE, .DIRECT, .PROV, .CITY, .NATION, .QUALIF], [], [.NATION]]),
  (24, [[.UNITT, .BUILDT, .PLACEN, .ORD, .MIXED],
    [.DOUBLE, .SINGLE, .TYPE, .ROAD, .DIRECT, .PROV, .QUALIF, .UNITT, .BUILDT, .PLACEN, .ORD, .NUMBER, .MIXED, .DASH],
    [.DIRECT, .CITY, .QUALIF, .BUILDT, .PLACEN, .AMPERS], [.DIRECT, .PROV, .CITY, .QUALIF, .BUILDT, .PLACEN, .MIXED],
    [.DIRECT, .PROV, .CITY, .QUALIF, .BUILDT, .PLACEN], [.WORD, .TYPE, .DIRECT, .PROV, .CITY, .NATION, .QUALIF], [], [], []]),
  (27, [[.MIXED], [.DOUBLE, .SINGLE, .TYPE, .ROAD, .DIRECT, .QUALIF, .UNITH, .UNITT, .BUILDT, .PLACEN, .ORD, .NUMBER, .MIXED, .DASH],
    [.TYPE, .ROAD, .DIRECT, .CITY, .QUALIF, .BUILDT, .PLACEN, .MIXED, .AMPERS],
    [.DOUBLE, .SINGLE, .TYPE, .ROAD, .DIRECT, .PROV, .CITY, .NATION, .QUALIF, .UNITH, .UNITT, .BUILDT, .PLACEN, .ORD, .NUMBER, .MIXED],
    [.TYPE, .DIRECT, .PROV, .CITY, .NATION, .QUALIF, .NUMBER, .AMPERS], [.PROV, .NATION, .NUMBER]]),
  (27, [[.NUMBER, .MIXED], [.NUMBER], [.BOXH, .NUMBER, .MIXED], [.PLACEN, .MIXED],
    [.DOUBLE, .SINGLE, .TYPE, .ROAD, .DIRECT, .CITY, .QUALIF, .UNITH, .UNITT, .BUILDT, .PLACEN, .ORD, .NUMBER, .MIXED],
    [.TYPE, .ROAD, .DIRECT, .PROV, .CITY, .QUALIF, .NUMBER, .AMPERS], [.PROV, .NATION, .NUMBER]])]

def ireland : List (Nat × List (List InType)) := [
  (1, [[.MIXED], [.DOUBLE, .SINGLE, .TYPE, .ROAD, .DIRECT, .QUALIF, .UNITH, .UNITT, .ORD, .NUMBER, .MIXED],
    [.ROAD, .DIRECT, .CITY, .QUALIF, .NUMBER, .AMPERS], [.DIRECT, .CITY, .QUALIF], [.SINGLE, .PROV, .CITY, .NATION, .NUMBER, .MIXED]]),
  (1, [[.MIXED], [.DOUBLE, .SINGLE, .TYPE, .ROAD, .DIRECT, .QUALIF, .UNITH, .UNITT, .ORD, .NUMBER, .MIXED],
    [.WORD, .ROAD, .DIRECT, .CITY, .QUALIF, .NUMBER, .AMPERS], [.CITY, .QUALIF], [.PROV, .CITY, .QUALIF, .NUMBER, .MIXED],
    [.PROV, .CITY, .NATION, .NUMBER, .MIXED]]),
  (3, [[.MIXED], [.DOUBLE, .SINGLE, .TYPE, .ROAD, .DIRECT, .QUALIF, .ORD, .NUMBER, .MIXED],
    [.WORD, .ROAD, .DIRECT, .CITY, .QUALIF, .NUMBER, .MIXED, .AMPERS], [.DIRECT, .PROV, .CITY, .QUALIF, .ORD, .NUMBER, .MIXED], [],
    [.PROV, .CITY, .NATION, .NUMBER, .MIXED]]),
  (6, [[], [.SINGLE, .TYPE, .ROAD, .DIRECT, .QUALIF, .ORD, .NUMBER, .MIXED], [.TYPE, .DIRECT, .CITY, .QUALIF],
    [.PROV, .CITY, .NATION, .MIXED]]),
  (6, [[.MIXED], [.DOUBLE, .SINGLE, .TYPE, .ROAD, .DIRECT, .QUALIF, .ORD, .NUMBER, .MIXED],
    [.ROAD, .DIRECT, .CITY, .QUALIF, .NUMBER, .MIXED], [.TYPE, .DIRECT, .PROV, .CITY, .QUALIF, .MIXED],
    [.SINGLE, .PROV, .CITY, .NATION, .NUMBER, .MIXED]]),
  (10, [[.MIXED], [.DOUBLE, .SINGLE, .TYPE, .ROAD, .DIRECT, .QUALIF, .ORD, .NUMBER, .MIXED],
    [.WORD, .ROAD, .DIRECT, .CITY, .QUALIF, .NUMBER, .MIXED, .AMPERS], [.DIRECT, .CITY, .QUALIF, .ORD, .NUMBER, .MIXED], [],
    [.PROV, .CITY, .NATION, .NUMBER, .MIXED]]),
  (11, [[.MIXED], [.DOUBLE, .SINGLE, .TYPE, .ROAD, .DIRECT, .PROV, .QUALIF, .UNITH, .UNITT, .ORD, .NUMBER, .MIXED],
    [.WORD, .DIRECT, .CITY, .QUALIF, .NUMBER, .MIXED, .AMPERS], [.CITY, .QUALIF], [.DIRECT, .CITY, .QUALIF, .MIXED],
    [.SINGLE, .CITY, .NATION, .NUMBER, .MIXED]]),
  (11, [[.MIXED], [.DOUBLE, .SINGLE, .TYPE, .ROAD, .DIRECT, .PROV, .QUALIF, .UNITH, .ORD, .NUMBER, .MIXED],
    [.WORD, .DIRECT, .CITY, .QUALIF, .NUMBER, .MIXED, .AMPERS], [.DIRECT, .QUALIF, .MIXED], [.NUMBER, .MIXED],
    [.PROV, .CITY, .NATION, .NUMBER, .MIXED]]),
  (11, [[.MIXED], [.DOUBLE, .SINGLE, .TYPE, .ROAD, .DIRECT, .PROV, .QUALIF, .UNITH, .UNITT, .ORD, .NUMBER, .MIXED],
    [.WORD, .DIRECT, .CITY, .QUALIF, .NUMBER, .MIXED, .AMPERS], [.WORD, .DIRECT, .QUALIF, .MIXED], [.CITY, .NATION, .NUMBER, .MIXED],
    [.DIRECT, .PROV, .CITY, .NATION, .NUMBER, .MIXED], [.PROV, .CITY, .NATION, .NUMBER, .MIXED]]),
  (13, [[.MIXED], [.DOUBLE, .SINGLE, .TYPE, .ROAD, .DIRECT, .PROV, .QUALIF, .ORD, .NUMBER, .MIXED],
    [.WORD, .DIRECT, .CITY, .QUALIF, .NUMBER, .MIXED, .AMPERS], [.DIRECT, .CITY, .QUALIF], [.WORD, .CITY], [], [.NATION, .MIXED]]),
  (13, [[.MIXED], [.DOUBLE, .SINGLE, .TYPE, .ROAD, .DIRECT, .PROV, .QUALIF, .ORD, .NUMBER, .MIXED],
    [.WORD, .DIRECT, .CITY, .QUALIF, .NUMBER, .MIXED, .AMPERS], [.DIRECT, .CITY, .QUALIF], [.WORD, .DIRECT, .CITY], [], [],
    [.NATION]]),
  (14, [[.MIXED], [.DOUBLE, .SINGLE, .WORD, .TYPE, .QUALIF, .ORD, .NUMBER, .MIXED],
    [.DOUBLE, .SINGLE, .TYPE, .ROAD, .CITY, .QUALIF, .ORD, .NUMBER, .MIXED],
    [.WORD, .ROAD, .DIRECT, .CITY, .QUALIF, .NUMBER, .AMPERS], [.DIRECT, .CITY, .QUALIF, .ORD, .NUMBER, .MIXED], [],
    [.PROV, .CITY, .NATION, .MIXED]]),
  (15, [[.MIXED], [.DOUBLE, .SINGLE, .WORD, .TYPE, .ROAD, .DIRECT, .QUALIF, .NUMBER, .MIXED],
    [.WORD, .ROAD, .DIRECT, .CITY, .QUALIF, .NUMBER, .MIXED, .AMPERS], [.DIRECT, .CITY, .QUALIF, .NUMBER, .MIXED], [],
    [.PROV, .CITY, .NATION, .MIXED]]),
  (16, [[.MIXED], [.DOUBLE, .SINGLE, .TYPE, .ROAD, .DIRECT, .QUALIF, .UNITT, .ORD, .NUMBER, .MIXED, .DASH],
    [.TYPE, .ROAD, .DIRECT, .CITY, .QUALIF, .MIXED, .AMPERS],
    [.DOUBLE, .SINGLE, .TYPE, .DIRECT, .CITY, .QUALIF, .ORD, .NUMBER, .MIXED], [.CITY, .NATION, .MIXED]]),
  (16, [[.NUMBER, .MIXED], [.NUMBER], [.NUMBER, .MIXED], [], [.DIRECT, .CITY], [.CITY, .NATION]]),
  (16, [[.NUMBER, .MIXED], [], [.DIRECT, .CITY, .NUMBER, .MIXED], [], [.PROV, .CITY, .NATION, .MIXED]]),
  (17, [[.MIXED], [.DOUBLE, .SINGLE, .TYPE, .ROAD, .DIRECT, .QUALIF, .UNITH, .UNITT, .ORD, .NUMBER, .MIXED],
    [.TYPE, .ROAD, .DIRECT, .CITY, .QUALIF, .NUMBER, .AMPERS], [.NATION, .QUALIF, .NUMBER, .MIXED],
    [.PROV, .CITY, .NATION, .QUALIF, .NUMBER, .MIXED]]),
  (19, [[.ORD, .MIXED], [.DOUBLE, .SINGLE, .WORD, .ROAD, .DIRECT, .PROV, .QUALIF, .UNITH, .UNITT, .ORD, .NUMBER, .MIXED],
    [.DOUBLE, .SINGLE, .TYPE, .DIRECT, .CITY, .QUALIF, .ORD, .NUMBER, .MIXED, .AMPERS],
    [.TYPE, .DIRECT, .PROV, .CITY, .NATION, .QUALIF, .NUMBER, .MIXED, .AMPERS], [.CITY, .MIXED],
    [.SINGLE, .DIRECT, .PROV, .CITY, .NATION, .QUALIF, .NUMBER, .MIXED]]),
  (21, [[.MIXED], [.DOUBLE, .SINGLE, .TYPE, .ROAD, .DIRECT, .PROV, .QUALIF, .UNITH, .ORD, .NUMBER, .MIXED],
    [.WORD, .DIRECT, .CITY, .QUALIF, .NUMBER, .MIXED, .AMPERS], [.DIRECT, .CITY, .QUALIF], [.CITY, .NUMBER, .MIXED],
    [.WORD, .CITY, .NATION, .NUMBER, .MIXED], [.WORD, .DIRECT, .PROV, .CITY, .NATION, .NUMBER], [.NATION]]),
  (23, [[.MIXED], [.DOUBLE, .SINGLE, .TYPE, .ROAD, .DIRECT, .PROV, .QUALIF, .ORD, .NUMBER, .MIXED],
    [.WORD, .DIRECT, .CITY, .QUALIF, .NUMBER, .MIXED, .AMPERS], [.DIRECT, .CITY, .QUALIF], [.WORD, .CITY, .NUMBER],
    [.WORD, .DIRECT, .CITY, .NUMBER], [], [], []]),
  (23, [[.MIXED], [.DOUBLE, .SINGLE, .TYPE, .ROAD, .DIRECT, .PROV, .QUALIF, .ORD, .NUMBER, .MIXED],
    [.WORD, .DIRECT, .CITY, .QUALIF, .NUMBER, .MIXED, .AMPERS], [.DIRECT, .CITY, .QUALIF], [.WORD, .CITY, .NUMBER],
    [.WORD, .DIRECT, .CITY, .NUMBER], [], [], [], []]),
  (26, [[.NUMBER, .MIXED], [.UNITH, .NUMBER], [.MIXED],
    [.DOUBLE, .SINGLE, .TYPE, .ROAD, .DIRECT, .CITY, .QUALIF, .ORD, .NUMBER, .MIXED],
    [.ROAD, .DIRECT, .CITY, .QUALIF, .NUMBER, .MIXED], [.TYPE, .DIRECT, .PROV, .CITY, .NATION, .QUALIF, .NUMBER],
    [.PROV, .CITY, .NATION, .NUMBER]]),
  (26, [[.NUMBER, .MIXED], [.NUMBER], [.NUMBER, .MIXED], [], [.DIRECT, .CITY, .NUMBER, .MIXED], [.DIRECT, .CITY, .NUMBER, .MIXED],
    [.CITY, .NATION, .NUMBER], [.PROV, .CITY, .NATION, .NUMBER]]),
  (31, [[.UNITT, .ORD, .MIXED], [.DOUBLE, .SINGLE, .TYPE, .ROAD, .DIRECT, .PROV, .QUALIF, .UNITT, .ORD, .NUMBER, .MIXED, .DASH],
    [.WORD, .DIRECT, .CITY, .QUALIF, .AMPERS], [.DIRECT, .CITY, .QUALIF], [.NUMBER], [.WORD, .PROV, .CITY, .NATION, .NUMBER],
    [.WORD, .CITY, .NATION, .NUMBER]]),
  (33, [[.UNITT, .ORD, .MIXED], [.DOUBLE, .SINGLE, .TYPE, .ROAD, .DIRECT, .PROV, .QUALIF, .UNITT, .ORD, .NUMBER, .MIXED, .DASH],
    [.WORD, .DIRECT, .CITY, .QUALIF, .AMPERS], [.DIRECT, .CITY, .QUALIF], [.PROV, .CITY, .NUMBER],
    [.WORD, .DIRECT, .PROV, .CITY, .NUMBER], [], [.NATION]]),
  (33, [[.UNITT, .ORD, .MIXED], [.DOUBLE, .SINGLE, .TYPE, .ROAD, .DIRECT, .PROV, .QUALIF, .UNITT, .ORD, .NUMBER, .MIXED, .DASH],
    [.WORD, .DIRECT, .CITY, .QUALIF, .AMPERS], [.DIRECT, .CITY, .QUALIF], [.PROV, .CITY, .NUMBER],
    [.WORD, .DIRECT, .PROV, .CITY, .NATION, .NUMBER], [.MIXED], [], []]),
  (36, [[.NUMBER, .MIXED], [.NUMBER], [.MIXED], [.DOUBLE, .SINGLE, .TYPE, .ROAD, .DIRECT, .CITY, .QUALIF, .ORD, .NUMBER, .MIXED],
    [.TYPE, .DIRECT, .PROV, .CITY, .QUALIF], [.PROV, .CITY, .NATION]]),
  (36, [[.NUMBER, .MIXED], [.NUMBER], [.NUMBER, .MIXED], [], [.DIRECT, .CITY, .NUMBER, .MIXED], [.PROV, .CITY],
    [.PROV, .CITY, .NATION]])]

def italy : List (Nat × List (List InType)) := [
  (1, [[.BOXH], [], [.SLASH], [], [.PROV, .CITY, .NATION]]),
  (1, [[.TYPE, .UNITH, .BOXH], [.RR], [.DOUBLE, .SINGLE, .SLASH], [], [.CITY, .NUMBER], [.PROV, .CITY, .NATION]]),
  (3, [[.TYPE, .BOXH], [.RR], [], [.QUINT, .SINGLE, .CITY, .NUMBER], [], [.PROV, .CITY, .NATION]]),
  (3, [[.TYPE, .UNITH, .BOXH], [.RR], [], [.QUINT, .DOUBLE, .SINGLE, .CITY, .NUMBER, .DASH, .SLASH], [], [.CITY],
    [.PROV, .CITY, .NATION]]),
  (5, [[], [.RR, .NUMBER], [.RR], [.DOUBLE, .SINGLE, .RR, .SLASH], [], [.PROV, .CITY, .NATION]]),
  (5, [[.UNITH], [.RR, .NUMBER], [.RR], [.DOUBLE, .SINGLE, .SLASH], [.CITY, .NUMBER], [.SINGLE, .CITY, .NATION, .NUMBER],
    [.PROV, .CITY, .NATION, .NUMBER]]),
  (7, [[], [.RR, .NUMBER], [.RR], [.SINGLE, .DASH, .SLASH], [.QUINT, .DOUBLE, .SINGLE, .CITY, .RR, .NUMBER, .DASH, .SLASH], [],
    [.PROV, .CITY, .NATION]]),
  (7, [[.UNITH], [.RR, .NUMBER], [.RR], [.DOUBLE, .SINGLE, .DASH, .SLASH],
    [.QUINT, .DOUBLE, .SINGLE, .CITY, .RR, .NUMBER, .DASH, .SLASH], [.CITY], [.DOUBLE, .SINGLE, .PROV, .CITY, .NATION, .NUMBER],
    [.PROV, .CITY, .NATION]]),
  (8, [[], [], [.SINGLE], [.CITY], [.PROV, .CITY, .NATION, .NUMBER]]),
  (8, [[], [], [.SINGLE, .RR, .NUMBER], [.SINGLE, .CITY, .RR], [.DOUBLE, .SINGLE, .PROV, .CITY, .NATION],
    [.DOUBLE, .SINGLE, .PROV, .CITY, .NATION, .NUMBER]])]

def liechtenstein : List (Nat × List (List InType)) := [
  (1, [[.BOXH], [], [], [], [.CITY, .NATION]]),
  (1, [[.BOXH], [.TYPE], [.DOUBLE, .SINGLE, .UNITH], [], [.CITY], [.CITY, .NATION]]),
  (3, [[.BOXH], [.TYPE], [], [.QUAD, .CITY, .NUMBER], [], [.CITY, .NATION]]),
  (3, [[.BOXH], [.TYPE], [], [.QUAD, .DOUBLE, .TYPE, .CITY, .UNITH, .NUMBER], [], [.CITY], [.CITY, .NATION]]),
  (5, [[], [.NUMBER], [], [.UNITH], [], [.CITY, .NATION]]),
  (5, [[], [.NUMBER], [.TYPE], [.DOUBLE, .SINGLE, .TYPE, .UNITH], [], [.CITY, .NUMBER], [.CITY, .NATION, .NUMBER]]),
  (7, [[], [.NUMBER], [], [], [.QUAD, .DOUBLE, .CITY, .UNITH, .NUMBER], [], [.CITY, .NATION]]),
  (7, [[], [.NUMBER], [], [.UNITH], [.QUAD, .DOUBLE, .SINGLE, .TYPE, .CITY, .UNITH, .NUMBER], [], [.CITY], [.CITY, .NATION]]),
  (8, [[], [], [.DOUBLE], [.CITY], [.CITY, .NATION]]),
  (8, [[], [], [], [.QUAD, .DOUBLE, .SINGLE, .CITY, .UNITH], [.DOUBLE, .SINGLE, .TYPE, .CITY, .NATION, .UNITH],
    [.DOUBLE, .SINGLE, .CITY, .NATION]]),
  (10, [[.BOXH], [.TYPE], [], [.UNITH, .NUMBER], [.QUAD, .DOUBLE, .WORD, .CITY], [.CITY],
    [.QUAD, .DOUBLE, .SINGLE, .CITY, .NATION, .NUMBER]]),
  (10, [[.BOXH], [.TYPE], [], [.NUMBER], [.QUAD, .DOUBLE, .TYPE, .CITY, .UNITH, .NUMBER], [.QUAD, .DOUBLE, .WORD, .CITY], [.CITY],
    [.CITY, .NATION]])]

def luxembourg : List (Nat × List (List InType)) := [
  (1, [[.MIXED, .FRACT], [.SINGLE, .NUMBER], [.SINGLE, .TYPE, .UNITH, .NUMBER, .MIXED], [.SINGLE, .TYPE, .CITY, .UNITH], [],
    [.CITY, .NATION]]),
  (1, [[.MIXED, .FRACT], [.DOUBLE, .SINGLE, .NUMBER], [.QUAD, .SINGLE, .TYPE, .UNITH, .NUMBER, .MIXED], [.SINGLE, .TYPE, .UNITH], [],
    [.QUAD, .CITY, .UNITH, .UNITT, .NUMBER, .MIXED], [.QUAD, .CITY, .NATION, .NUMBER]]),
  (3, [[.MIXED, .FRACT], [.DOUBLE, .SINGLE, .NUMBER, .SLASH], [.SINGLE, .TYPE, .UNITH, .NUMBER], [.TYPE, .CITY, .UNITH, .DASH],
    [.QUAD, .TYPE, .CITY, .UNITH, .NUMBER, .DASH], [], [.CITY, .NATION]]),
  (3, [[.MIXED, .FRACT], [.DOUBLE, .SINGLE, .NUMBER, .SLASH], [.QUAD, .SINGLE, .TYPE, .UNITH, .NUMBER],
    [.TYPE, .CITY, .UNITH, .DASH], [.QUAD, .SINGLE, .TYPE, .CITY, .UNITH, .NUMBER, .DASH], [.NUMBER],
    [.QUAD, .CITY, .NATION, .UNITT, .NUMBER, .MIXED], [.QUAD, .CITY, .NATION, .UNITT, .NUMBER, .MIXED]]),
  (4, [[], [.TYPE], [.QUAD, .SINGLE, .TYPE], [.TYPE, .CITY, .UNITT, .MIXED], [.TYPE, .CITY, .NATION, .UNITT, .NUMBER, .MIXED]]),
  (4, [[], [.SINGLE, .TYPE], [.QUAD, .TYPE, .UNITH, .NUMBER, .MIXED], [.QUAD, .SINGLE, .TYPE, .UNITH, .DASH], [.TYPE, .CITY],
    [.QUAD, .TYPE, .CITY, .NATION, .UNITT, .NUMBER, .MIXED]])]

def monaco : List (Nat × List (List InType)) := [
  (1, [[], [.NUMBER], [.NUMBER], [.CITY, .NATION, .UNITH, .UNITT, .MIXED, .DASH], [], [.CITY, .NATION, .BOXH]]),
  (1, [[], [.NUMBER], [.QUINT, .NATION, .UNITH, .NUMBER], [.NATION, .UNITH], [], [.QUINT, .CITY, .BOXH, .NUMBER, .MIXED],
    [.QUINT, .CITY, .NATION, .UNITT, .BOXH, .NUMBER, .MIXED]]),
  (3, [[], [.NUMBER, .DASH, .SLASH], [.QUINT, .NATION, .NUMBER], [.UNITH, .MIXED, .DASH],
    [.QUINT, .CITY, .NATION, .UNITH, .BOXH, .NUMBER, .MIXED, .DASH], [], [.CITY, .NATION, .BOXH]]),
  (3, [[], [.NUMBER, .DASH, .SLASH], [.QUINT, .NATION, .UNITH, .NUMBER], [.UNITH, .MIXED, .DASH],
    [.QUINT, .CITY, .NATION, .UNITH, .BOXH, .NUMBER, .MIXED, .DASH], [.BOXH, .NUMBER],
    [.QUINT, .CITY, .NATION, .UNITT, .BOXH, .NUMBER, .MIXED], [.CITY, .NATION, .UNITT, .BOXH, .NUMBER, .MIXED]]),
  (4, [[], [], [.NATION], [.CITY], [.CITY, .NATION, .BOXH]]),
  (4, [[], [], [.BOXH, .NUMBER], [.CITY, .UNITH, .UNITT, .MIXED, .DASH], [.CITY, .BOXH],
    [.QUINT, .CITY, .NATION, .BOXH, .NUMBER, .MIXED]])]

def netherlands : List (Nat × List (List InType)) := [
  (3, [[.NUMBER], [.NUMBER, .FRACT], [.FRACT], [.DOUBLE, .SINGLE, .TYPE, .NATION, .UNITH, .FRACT, .DASH, .SLASH], [],
    [.PROV, .CITY, .NATION]]),
  (3, [[.NUMBER], [.NUMBER, .FRACT], [.TYPE, .FRACT], [.DOUBLE, .SINGLE, .TYPE, .NATION, .UNITH, .FRACT, .DASH, .SLASH],
    [.CITY, .NUMBER], [.QUAD, .DOUBLE, .SINGLE, .CITY, .NATION, .UNITH, .UNITT, .NUMBER, .MIXED, .FRACT],
    [.QUAD, .PROV, .CITY, .NATION, .NUMBER]]),
  (5, [[.NUMBER], [.NUMBER, .FRACT], [.FRACT], [.UNITH, .FRACT, .DASH, .SLASH],
    [.QUAD, .DOUBLE, .SINGLE, .TYPE, .CITY, .NATION, .UNITH, .NUMBER, .MIXED, .FRACT, .DASH, .SLASH], [], [.PROV, .CITY, .NATION]]),
  (5, [[.NUMBER], [.NUMBER, .FRACT], [.TYPE, .FRACT], [.DOUBLE, .SINGLE, .UNITH, .FRACT, .DASH, .SLASH],
    [.QUAD, .DOUBLE, .SINGLE, .TYPE, .CITY, .NATION, .UNITH, .NUMBER, .MIXED, .FRACT, .DASH, .SLASH], [.CITY],
    [.PROV, .CITY, .NATION], [.PROV, .CITY, .NATION]]),
  (6, [[], [], [.QUAD, .SINGLE, .NATION, .UNITH, .FRACT, .SLASH], [.DOUBLE, .SINGLE, .TYPE, .CITY, .UNITH, .FRACT],
    [.QUAD, .DOUBLE, .SINGLE, .TYPE, .PROV, .CITY, .NATION, .NUMBER]]),
  (6, [[], [], [.QUAD, .NATION, .UNITH, .NUMBER, .FRACT, .DASH, .SLASH], [.QUAD, .SINGLE, .TYPE, .NATION, .UNITH, .FRACT],
    [.DOUBLE, .SINGLE, .CITY, .UNITH, .FRACT], [.QUAD, .DOUBLE, .SINGLE, .TYPE, .PROV, .CITY, .NATION, .NUMBER]]),
  (8, [[.BOXH, .NUMBER], [.TYPE, .FRACT], [],
    [.QUAD, .DOUBLE, .SINGLE, .CITY, .NATION, .UNITH, .NUMBER, .MIXED, .FRACT, .DASH, .SLASH],
    [.QUAD, .SINGLE, .WORD, .PROV, .CITY, .NATION, .UNITT, .MIXED, .FRACT], [.DOUBLE, .SINGLE, .CITY, .MIXED, .FRACT, .DASH, .SLASH],
    [.DOUBLE, .SINGLE, .PROV, .CITY, .NATION, .UNITT, .NUMBER, .MIXED]]),
  (8, [[.BOXH, .NUMBER], [.TYPE, .FRACT], [.NUMBER], [.QUAD, .TYPE, .CITY, .UNITH, .UNITT, .NUMBER, .MIXED, .FRACT],
    [.QUAD, .TYPE, .PROV, .CITY, .NATION, .UNITH, .NUMBER, .FRACT, .DASH],
    [.QUAD, .SINGLE, .WORD, .PROV, .CITY, .NATION, .UNITT, .MIXED, .FRACT], [.SINGLE, .CITY, .MIXED, .FRACT, .DASH, .SLASH],
    [.PROV, .CITY, .NATION, .NUMBER]]),
  (13, [[.NUMBER], [.NUMBER, .FRACT], [.TYPE, .FRACT], [.DOUBLE, .SINGLE, .NATION, .UNITH, .FRACT, .DASH, .SLASH],
    [.QUAD, .SINGLE, .TYPE, .CITY, .NATION, .UNITH, .NUMBER, .FRACT, .DASH, .SLASH], [.CITY], [.NATION]]),
  (13, [[.NUMBER], [.WORD, .NUMBER, .FRACT], [.FRACT], [.DOUBLE, .SINGLE, .NATION, .UNITH, .FRACT, .DASH, .SLASH], [.CITY], [],
    [.CITY], [.PROV, .CITY, .NATION]]),
  (15, [[.NUMBER], [.WORD, .NUMBER, .FRACT], [.TYPE, .FRACT], [.DOUBLE, .SINGLE, .NATION, .UNITH, .FRACT, .DASH, .SLASH],
    [.CITY, .NUMBER, .FRACT, .DASH, .SLASH], [.PROV, .CITY, .NUMBER, .FRACT, .DASH], [], [.PROV, .CITY, .NATION]]),
  (15, [[.NUMBER], [.WORD, .NUMBER, .FRACT], [.TYPE, .FRACT], [.DOUBLE, .SINGLE, .NATION, .UNITH, .FRACT, .DASH, .SLASH],
    [.CITY, .NUMBER, .FRACT, .DASH, .SLASH], [.PROV, .CITY, .NUMBER, .FRACT, .DASH], [.CITY], [], [.PROV, .CITY, .NATION]]),
  (16, [[], [.NUMBER, .FRACT], [.QUAD, .TYPE, .NATION, .FRACT],
    [.DOUBLE, .SINGLE, .TYPE, .CITY, .NATION, .UNITH, .FRACT, .DASH, .SLASH],
    [.QUAD, .SINGLE, .TYPE, .CITY, .UNITH, .NUMBER, .FRACT, .DASH, .SLASH], [.QUAD, .TYPE, .PROV, .CITY, .NATION, .NUMBER, .MIXED]]),
  (16, [[], [], [.QUAD, .DOUBLE, .SINGLE, .TYPE, .NATION, .UNITH, .NUMBER, .FRACT, .DASH, .SLASH], [.TYPE, .FRACT],
    [.DOUBLE, .SINGLE, .NATION, .UNITH, .FRACT, .DASH, .SLASH], [.QUAD, .SINGLE, .CITY, .NUMBER, .FRACT, .DASH, .SLASH],
    [.QUAD, .PROV, .CITY, .NATION, .UNITT, .NUMBER, .MIXED]]),
  (17, [[.BOXH, .NUMBER], [.TYPE, .FRACT], [],
    [.QUAD, .DOUBLE, .SINGLE, .TYPE, .CITY, .NATION, .UNITH, .NUMBER, .MIXED, .FRACT, .DASH, .SLASH],
    [.QUAD, .SINGLE, .WORD, .TYPE, .PROV, .CITY, .NATION, .UNITH, .UNITT, .MIXED, .FRACT],
    [.DOUBLE, .SINGLE, .WORD, .CITY, .NATION, .UNITH, .DASH, .SLASH], [.CITY, .UNITH, .NUMBER], [.PROV, .CITY, .NATION, .NUMBER]]),
  (17, [[.BOXH, .NUMBER], [.TYPE, .FRACT], [.FRACT], [.QUAD, .DOUBLE, .SINGLE, .CITY, .UNITH, .UNITT, .NUMBER, .MIXED, .FRACT],
    [.QUAD, .SINGLE, .TYPE, .PROV, .CITY, .NATION, .NUMBER, .FRACT, .DASH],
    [.QUAD, .SINGLE, .WORD, .TYPE, .PROV, .CITY, .NATION, .UNITH, .UNITT, .MIXED, .FRACT],
    [.WORD, .CITY, .NATION, .UNITH, .DASH, .SLASH], [.CITY, .UNITH, .NUMBER], [.PROV, .CITY, .NATION, .NUMBER]])]

def newzealand : List (Nat × List (List InType)) := [
  (0, [[], [.SINGLE, .TYPE, .DIRECT, .QUALIF, .NUMBER], [.DIRECT, .CITY, .QUALIF, .NUMBER],
    [.DIRECT, .PROV, .CITY, .QUALIF, .BOXH, .NUMBER], [], [.QUAD, .PROV, .NATION, .NUMBER]]),
  (0, [[.UNITH], [.SINGLE, .TYPE, .DIRECT, .QUALIF, .NUMBER, .DASH], [.DIRECT, .CITY, .QUALIF, .NUMBER],
    [.TYPE, .DIRECT, .PROV, .CITY, .QUALIF, .BOXH, .NUMBER], [.TYPE, .DIRECT, .PROV, .CITY, .QUALIF],
    [.QUAD, .DIRECT, .PROV, .CITY, .NATION, .QUALIF, .NUMBER], [.QUAD, .TYPE, .PROV, .NATION, .NUMBER]]),
  (1, [[.UNITH], [.SINGLE, .TYPE, .DIRECT, .QUALIF, .NUMBER], [.DIRECT, .CITY, .QUALIF, .BOXH, .NUMBER], [.CITY, .QUALIF],
    [.DIRECT, .PROV, .CITY, .QUALIF, .NUMBER], [.QUAD, .TYPE, .NATION, .NUMBER]]),
  (1, [[.UNITH], [.SINGLE, .TYPE, .DIRECT, .QUALIF, .NUMBER, .DASH], [.DIRECT, .CITY, .QUALIF, .BOXH, .NUMBER],
    [.TYPE, .DIRECT, .CITY, .QUALIF], [.QUAD, .TYPE, .DIRECT, .PROV, .CITY, .NATION, .QUALIF, .NUMBER],
    [.QUAD, .TYPE, .DIRECT, .PROV, .CITY, .NATION, .QUALIF, .NUMBER], [.QUAD, .NATION, .NUMBER]]),
  (1, [[.UNITH], [.SINGLE, .TYPE, .DIRECT, .QUALIF, .NUMBER, .DASH], [.DIRECT, .CITY, .QUALIF, .NUMBER],
    [.TYPE, .DIRECT, .PROV, .QUALIF, .NUMBER], [.NATION, .QUALIF, .NUMBER], [.QUAD, .PROV, .NATION, .QUALIF, .NUMBER]]),
  (1, [[.UNITH], [.SINGLE, .TYPE, .DIRECT, .QUALIF, .NUMBER], [.DIRECT, .CITY, .QUALIF, .NUMBER],
    [.WORD, .TYPE, .DIRECT, .PROV, .QUALIF, .BOXH, .NUMBER], [.CITY], [.DIRECT, .PROV, .CITY, .NATION, .NUMBER],
    [.QUAD, .PROV, .NATION, .NUMBER]]),
  (2, [[.UNITH], [.SINGLE, .TYPE, .DIRECT, .QUALIF, .NUMBER, .DASH, .SLASH], [.DIRECT, .CITY, .QUALIF],
    [.TYPE, .DIRECT, .PROV, .CITY, .QUALIF, .NUMBER, .SLASH], [.QUAD, .TYPE, .DIRECT, .PROV, .CITY, .QUALIF, .NUMBER],
    [.TYPE, .DIRECT, .PROV, .CITY, .QUALIF, .NUMBER], [.QUAD, .PROV, .NATION, .NUMBER]]),
  (2, [[], [.SINGLE, .TYPE, .DIRECT, .QUALIF, .NUMBER, .DASH, .SLASH], [.WORD, .DIRECT, .CITY, .QUALIF, .NUMBER],
    [.DIRECT, .CITY, .QUALIF, .NUMBER, .SLASH], [.DIRECT, .PROV, .CITY, .NUMBER], [], [.CITY], [.QUAD, .PROV, .NATION, .NUMBER]]),
  (3, [[.UNITH], [.SINGLE, .TYPE, .DIRECT, .QUALIF, .NUMBER, .DASH], [.DIRECT, .CITY, .QUALIF, .NUMBER],
    [.TYPE, .DIRECT, .PROV, .CITY, .QUALIF, .BOXH, .NUMBER], [.TYPE, .DIRECT, .PROV, .CITY, .QUALIF],
    [.QUAD, .TYPE, .DIRECT, .PROV, .CITY, .NATION, .QUALIF, .NUMBER], [.QUAD, .PROV, .NUMBER]]),
  (3, [[.UNITH], [.SINGLE, .TYPE, .DIRECT, .QUALIF, .NUMBER, .DASH], [.WORD, .DIRECT, .CITY, .QUALIF, .NUMBER],
    [.DIRECT, .PROV, .CITY, .QUALIF, .BOXH, .NUMBER], [], [.CITY], [.QUAD, .PROV, .CITY, .NATION, .NUMBER], [.QUAD, .PROV, .NUMBER]]),
  (3, [[], [.SINGLE, .TYPE, .DIRECT, .QUALIF, .NUMBER], [.DIRECT, .CITY, .QUALIF, .NUMBER],
    [.DIRECT, .PROV, .CITY, .QUALIF, .NUMBER], [.WORD, .TYPE, .DIRECT, .CITY, .QUALIF, .NUMBER], [], [.NATION]]),
  (3, [[], [.SINGLE, .TYPE, .DIRECT, .QUALIF, .NUMBER], [.DIRECT, .CITY, .QUALIF, .NUMBER],
    [.DIRECT, .PROV, .CITY, .QUALIF, .NUMBER], [.WORD, .TYPE, .DIRECT, .CITY, .QUALIF, .BOXH, .NUMBER], [], [], []]),
  (4, [[], [.SINGLE, .TYPE, .QUALIF, .NUMBER], [.CITY, .QUALIF, .NUMBER], [.WORD, .DIRECT, .CITY, .QUALIF, .NUMBER],
    [.QUAD, .DIRECT, .CITY, .NATION, .QUALIF, .BOXH, .NUMBER], [], [.QUAD, .PROV, .NATION, .NUMBER]]),
  (4, [[.UNITH], [.SINGLE, .TYPE, .QUALIF, .NUMBER, .DASH], [.TYPE, .DIRECT, .CITY, .QUALIF, .NUMBER],
    [.WORD, .DIRECT, .PROV, .CITY, .QUALIF, .NUMBER], [.DIRECT, .CITY, .QUALIF, .BOXH, .NUMBER], [.CITY],
    [.DIRECT, .PROV, .CITY, .NUMBER], [.QUAD, .PROV, .NATION, .NUMBER]]),
  (5, [[], [.NUMBER, .DASH], [.TYPE, .DIRECT, .CITY, .QUALIF], [.TYPE, .DIRECT, .CITY, .QUALIF], [.QUAD, .NATION, .NUMBER]]),
  (5, [[], [.TYPE, .DIRECT, .QUALIF, .NUMBER], [.TYPE, .DIRECT, .CITY, .QUALIF, .NUMBER], [.TYPE, .DIRECT, .CITY, .QUALIF],
    [.QUAD, .TYPE, .DIRECT, .PROV, .CITY, .NATION, .QUALIF, .NUMBER], [.QUAD, .TYPE, .NATION, .NUMBER]]),
  (5, [[], [.SINGLE, .TYPE, .DIRECT, .QUALIF], [.TYPE, .DIRECT, .CITY, .QUALIF, .NUMBER], [], [.QUAD, .PROV, .NATION]]),
  (5, [[.UNITH, .NUMBER], [], [.DIRECT, .CITY], [], [.CITY], [.QUAD, .PROV, .NATION, .NUMBER]]),
  (6, [[], [.DIRECT, .QUALIF, .NUMBER], [.TYPE, .DIRECT, .CITY, .NUMBER], [.CITY], [.QUAD, .PROV, .NATION, .NUMBER]]),
  (6, [[.UNITH], [.SINGLE, .TYPE, .DIRECT, .QUALIF, .NUMBER, .DASH], [.TYPE, .DIRECT, .CITY, .QUALIF, .BOXH, .NUMBER], [.CITY],
    [.CITY, .QUALIF, .NUMBER], [.QUAD, .PROV, .NATION, .NUMBER]]),
  (7, [[.UNITH], [.SINGLE, .TYPE, .DIRECT, .QUALIF, .NUMBER, .DASH, .SLASH], [.TYPE, .DIRECT, .CITY, .QUALIF],
    [.DIRECT, .PROV, .CITY, .QUALIF, .NUMBER], [.QUAD, .TYPE, .DIRECT, .PROV, .CITY, .QUALIF, .NUMBER],
    [.PROV, .CITY, .QUALIF, .NUMBER], [.QUAD, .PROV, .NATION, .NUMBER]]),
  (7, [[], [.SINGLE, .TYPE, .DIRECT, .QUALIF, .NUMBER, .DASH, .SLASH], [.TYPE, .DIRECT, .CITY, .QUALIF, .NUMBER],
    [.WORD, .DIRECT, .CITY, .QUALIF, .NUMBER], [.DIRECT, .PROV, .CITY, .QUALIF, .NUMBER], [], [.CITY],
    [.QUAD, .PROV, .NATION, .NUMBER]]),
  (8, [[], [.SLASH], [.SINGLE, .WORD, .TYPE, .DIRECT, .CITY, .QUALIF, .BOXH, .DASH, .SLASH],
    [.SINGLE, .WORD, .TYPE, .DIRECT, .CITY, .QUALIF, .DASH, .SLASH], [.TYPE, .DIRECT, .QUALIF], [.DIRECT, .CITY, .QUALIF],
    [.DIRECT, .PROV, .CITY], []]),
  (8, [[], [.NUMBER], [.TYPE, .DIRECT, .CITY, .QUALIF, .BOXH, .NUMBER],
    [.WORD, .TYPE, .DIRECT, .PROV, .CITY, .QUALIF, .BOXH, .DASH, .SLASH], [.SINGLE, .WORD, .TYPE, .DIRECT, .QUALIF, .DASH, .SLASH],
    [.TYPE, .DIRECT, .QUALIF], [.DIRECT, .CITY, .QUALIF], [.DIRECT, .PROV, .CITY], []]),
  (8, [[.BOXH, .NUMBER], [.WORD, .DASH, .SLASH], [.SINGLE, .WORD, .TYPE, .DIRECT, .QUALIF, .DASH, .SLASH],
    [.SINGLE, .TYPE, .DIRECT, .QUALIF], [.DIRECT, .CITY, .QUALIF, .NUMBER], [.TYPE, .DIRECT, .PROV, .CITY, .QUALIF, .NUMBER], [],
    [.QUAD, .PROV, .NATION, .NUMBER]]),
  (8, [[.BOXH], [.WORD, .DASH, .SLASH], [.SINGLE, .WORD, .TYPE, .DIRECT, .QUALIF, .DASH, .SLASH], [.SINGLE, .TYPE, .DIRECT, .QUALIF],
    [.WORD, .DIRECT, .CITY, .QUALIF, .NUMBER], [.DIRECT, .PROV, .CITY, .QUALIF, .BOXH, .NUMBER], [], [.CITY],
    [.QUAD, .PROV, .NATION, .NUMBER]]),
  (9, [[.UNITH], [.SINGLE, .DIRECT, .QUALIF, .NUMBER, .DASH], [.TYPE, .DIRECT, .CITY, .QUALIF, .NUMBER],
    [.TYPE, .DIRECT, .PROV, .CITY, .QUALIF, .BOXH, .NUMBER], [.QUALIF], [.QUAD, .PROV, .NATION, .QUALIF, .NUMBER]]),
  (9, [[], [.SINGLE, .WORD, .DIRECT, .QUALIF, .NUMBER, .DASH], [.TYPE, .DIRECT, .CITY, .QUALIF, .NUMBER],
    [.TYPE, .DIRECT, .PROV, .CITY, .QUALIF, .BOXH, .NUMBER], [], [.DIRECT, .CITY, .QUALIF, .NUMBER],
    [.QUAD, .PROV, .NATION, .NUMBER]]),
  (10, [[.UNITH], [.SINGLE, .TYPE, .DIRECT, .QUALIF, .NUMBER, .DASH], [.DIRECT, .CITY, .QUALIF, .NUMBER],
    [.TYPE, .DIRECT, .PROV, .CITY, .QUALIF, .NUMBER], [.TYPE, .DIRECT, .PROV, .CITY, .NATION, .QUALIF, .NUMBER],
    [.QUAD, .TYPE, .DIRECT, .PROV, .CITY, .NATION, .QUALIF, .BOXH, .NUMBER], [.PROV, .NATION]]),
  (10, [[], [.SINGLE, .TYPE, .DIRECT, .QUALIF, .NUMBER], [.WORD, .DIRECT, .CITY, .QUALIF, .NUMBER],
    [.DIRECT, .CITY, .QUALIF, .BOXH, .NUMBER], [], [.CITY], [.QUAD, .DIRECT, .PROV, .CITY, .NATION, .NUMBER], [.PROV, .NATION]]),
  (11, [[.UNITH], [.SINGLE, .TYPE, .DIRECT, .QUALIF, .NUMBER, .DASH], [.DIRECT, .CITY, .QUALIF, .BOXH, .NUMBER],
    [.TYPE, .DIRECT, .CITY, .QUALIF], [.TYPE, .DIRECT, .PROV, .CITY, .QUALIF, .NUMBER],
    [.QUAD, .WORD, .TYPE, .DIRECT, .CITY, .NATION, .QUALIF, .BOXH, .NUMBER], [.NATION, .QUALIF]]),
  (11, [[.UNITH], [.SINGLE, .TYPE, .DIRECT, .QUALIF, .NUMBER, .DASH], [.WORD, .DIRECT, .CITY, .QUALIF, .BOXH, .NUMBER],
    [.CITY, .QUALIF], [.DIRECT, .CITY, .QUALIF, .NUMBER], [.TYPE, .DIRECT, .PROV, .CITY, .NUMBER],
    [.QUAD, .DIRECT, .CITY, .NATION, .QUALIF, .BOXH, .NUMBER], [.NATION, .QUALIF]]),
  (11, [[.UNITH], [.SINGLE, .TYPE, .DIRECT, .QUALIF, .NUMBER, .DASH], [.DIRECT, .CITY, .QUALIF, .NUMBER],
    [.WORD, .TYPE, .DIRECT, .PROV, .QUALIF, .BOXH, .NUMBER], [.CITY], [.QUAD, .DIRECT, .PROV, .CITY, .NATION, .NUMBER],
    [.PROV, .NATION, .QUALIF]]),
  (11, [[.UNITH], [.SINGLE, .TYPE, .DIRECT, .QUALIF, .NUMBER, .DASH], [.WORD, .DIRECT, .CITY, .QUALIF, .NUMBER],
    [.DIRECT, .QUALIF, .BOXH, .NUMBER], [.CITY], [.DIRECT, .PROV, .CITY, .NUMBER], [.QUAD, .DIRECT, .PROV, .CITY, .NATION, .NUMBER],
    [.PROV, .NATION, .QUALIF]]),
  (12, [[.UNITH], [.SINGLE, .TYPE, .DIRECT, .QUALIF, .NUMBER, .DASH], [.WORD, .DIRECT, .CITY, .QUALIF, .NUMBER],
    [.TYPE, .DIRECT, .CITY, .QUALIF, .NUMBER], [.DIRECT, .PROV, .CITY, .QUALIF, .NUMBER], [], [.PROV, .CITY], [.PROV, .NATION]]),
  (12, [[.UNITH], [.SINGLE, .TYPE, .DIRECT, .QUALIF, .NUMBER, .DASH], [.WORD, .DIRECT, .CITY, .QUALIF, .NUMBER],
    [.TYPE, .DIRECT, .CITY, .QUALIF, .NUMBER], [.DIRECT, .PROV, .CITY, .QUALIF, .NUMBER], [], [.PROV, .CITY, .NATION, .NUMBER],
    [.QUAD, .DIRECT, .PROV, .CITY, .NATION, .NUMBER], [.PROV, .NATION]]),
  (13, [[.UNITH], [.SINGLE, .TYPE, .DIRECT, .QUALIF, .NUMBER, .DASH, .SLASH], [.WORD, .DIRECT, .CITY, .QUALIF],
    [.SINGLE, .TYPE, .DIRECT, .PROV, .CITY, .QUALIF, .BOXH, .NUMBER], [], [.PROV, .CITY],
    [.TYPE, .DIRECT, .PROV, .CITY, .NATION, .QUALIF], [.PROV, .NUMBER]]),
  (13, [[.UNITH], [.SINGLE, .TYPE, .DIRECT, .QUALIF, .NUMBER, .DASH, .SLASH], [.WORD, .DIRECT, .CITY, .QUALIF],
    [.SINGLE, .TYPE, .DIRECT, .PROV, .CITY, .QUALIF, .BOXH, .NUMBER], [.CITY], [.DIRECT, .CITY], [.DIRECT, .CITY, .NATION, .NUMBER],
    [.TYPE, .DIRECT, .PROV, .CITY, .NATION, .QUALIF], [.PROV, .NUMBER]]),
  (13, [[.UNITH], [.SINGLE, .TYPE, .DIRECT, .QUALIF, .NUMBER, .DASH, .SLASH], [.DIRECT, .CITY, .QUALIF],
    [.TYPE, .DIRECT, .PROV, .CITY, .QUALIF, .NUMBER], [.WORD, .TYPE, .DIRECT, .CITY, .QUALIF, .BOXH, .NUMBER],
    [.TYPE, .DIRECT, .PROV, .CITY, .NATION, .QUALIF], [], []]),
  (13, [[.UNITH], [.SINGLE, .TYPE, .DIRECT, .QUALIF, .NUMBER, .DASH, .SLASH], [.DIRECT, .CITY, .QUALIF],
    [.TYPE, .DIRECT, .PROV, .CITY, .QUALIF, .NUMBER], [.WORD, .TYPE, .DIRECT, .CITY, .QUALIF, .BOXH, .NUMBER],
    [.TYPE, .DIRECT, .PROV, .CITY, .NATION, .QUALIF], [], [], []]),
  (14, [[.UNITH], [.SINGLE, .TYPE, .QUALIF, .NUMBER, .DASH], [.TYPE, .DIRECT, .CITY, .QUALIF, .NUMBER],
    [.WORD, .DIRECT, .PROV, .CITY, .QUALIF, .NUMBER], [.DIRECT, .CITY, .QUALIF, .BOXH, .NUMBER], [.CITY],
    [.QUAD, .DIRECT, .PROV, .CITY, .NUMBER], [.PROV, .NATION]]),
  (14, [[.UNITH], [.SINGLE, .TYPE, .QUALIF, .NUMBER, .DASH], [.TYPE, .DIRECT, .CITY, .QUALIF, .NUMBER],
    [.WORD, .DIRECT, .PROV, .CITY, .QUALIF, .NUMBER], [.DIRECT, .CITY, .QUALIF, .BOXH, .NUMBER], [.DIRECT, .PROV, .CITY],
    [.QUAD, .DIRECT, .PROV, .CITY, .NATION, .NUMBER], [.QUAD, .DIRECT, .PROV, .CITY, .NATION, .NUMBER], [.WORD, .PROV, .NATION]]),
  (15, [[], [.SINGLE, .TYPE, .DIRECT, .QUALIF, .NUMBER, .DASH], [.TYPE, .DIRECT, .CITY, .QUALIF],
    [.TYPE, .DIRECT, .CITY, .QUALIF, .NUMBER], [.TYPE, .DIRECT, .CITY, .QUALIF, .BOXH, .NUMBER], [.PROV, .NATION]]),
  (15, [[.NUMBER], [.NUMBER], [], [.QUALIF], [.TYPE, .DIRECT, .CITY, .QUALIF, .NUMBER], [.TYPE, .DIRECT, .CITY, .QUALIF, .NUMBER],
    [.NATION]]),
  (15, [[.UNITH, .NUMBER], [], [.DIRECT, .CITY, .NUMBER], [], [.PROV, .CITY], [.PROV, .NATION]]),
  (15, [[.UNITH, .NUMBER], [], [.DIRECT, .CITY, .NUMBER], [], [.CITY], [.PROV, .NUMBER], [.PROV, .NATION]]),
  (16, [[.UNITH], [.SINGLE, .TYPE, .DIRECT, .QUALIF, .NUMBER, .DASH], [.TYPE, .DIRECT, .CITY, .QUALIF, .BOXH, .NUMBER], [],
    [.DIRECT, .PROV, .CITY, .QUALIF], [.TYPE, .PROV, .NATION]]),
  (16, [[.UNITH], [.SINGLE, .TYPE, .DIRECT, .QUALIF, .NUMBER, .DASH], [.TYPE, .DIRECT, .CITY, .QUALIF, .BOXH, .NUMBER],
    [.DIRECT, .CITY, .QUALIF], [.DIRECT, .PROV, .CITY, .QUALIF, .NUMBER],
    [.QUAD, .TYPE, .DIRECT, .PROV, .CITY, .NATION, .QUALIF, .BOXH, .NUMBER], [.PROV, .NATION]]),
  (17, [[.UNITH], [.SINGLE, .TYPE, .DIRECT, .QUALIF, .NUMBER, .DASH], [.TYPE, .DIRECT, .CITY, .QUALIF, .NUMBER],
    [.WORD, .DIRECT, .CITY, .QUALIF, .NUMBER], [.DIRECT, .PROV, .CITY, .NATION, .QUALIF, .NUMBER], [], [.PROV, .CITY],
    [.PROV, .NATION, .QUALIF]]),
  (17, [[.UNITH], [.SINGLE, .TYPE, .DIRECT, .QUALIF, .NUMBER, .DASH], [.TYPE, .DIRECT, .CITY, .QUALIF, .NUMBER],
    [.WORD, .DIRECT, .PROV, .CITY, .QUALIF, .NUMBER], [.DIRECT, .PROV, .CITY, .NATION, .QUALIF, .BOXH, .NUMBER], [],
    [.DIRECT, .CITY], [.QUAD, .PROV, .CITY, .NATION, .NUMBER], [.PROV, .NATION, .QUALIF]]),
  (18, [[], [.SLASH], [.SINGLE, .WORD, .TYPE, .DIRECT, .CITY, .QUALIF, .BOXH, .DASH, .SLASH],
    [.SINGLE, .WORD, .TYPE, .DIRECT, .CITY, .QUALIF, .DASH, .SLASH], [.TYPE, .DIRECT, .QUALIF], [.DIRECT, .CITY, .QUALIF, .NUMBER],
    [.DIRECT, .CITY, .QUALIF, .NUMBER], [.WORD, .DIRECT, .CITY, .QUALIF, .BOXH, .NUMBER], [.NATION]]),
  (18, [[], [.NUMBER], [.TYPE, .DIRECT, .CITY, .QUALIF, .BOXH, .NUMBER], [.WORD, .TYPE, .DIRECT, .PROV, .CITY, .QUALIF, .BOXH],
    [.SINGLE, .WORD, .TYPE, .DIRECT, .QUALIF, .DASH, .SLASH], [.TYPE, .DIRECT, .QUALIF], [.DIRECT, .CITY, .QUALIF, .NUMBER],
    [.DIRECT, .CITY, .QUALIF, .NUMBER], [.WORD, .DIRECT, .CITY, .QUALIF, .BOXH, .NUMBER], [.NATION]]),
  (18, [[.BOXH, .NUMBER], [.WORD], [.SINGLE, .WORD, .TYPE, .DIRECT, .QUALIF, .DASH, .SLASH], [.SINGLE, .TYPE, .DIRECT, .QUALIF],
    [.WORD, .DIRECT, .CITY, .QUALIF, .NUMBER], [.DIRECT, .CITY, .QUALIF, .NUMBER], [], [.PROV, .CITY], [.PROV, .NATION]]),
  (18, [[.BOXH, .NUMBER], [.WORD], [.SINGLE, .WORD, .TYPE, .DIRECT, .QUALIF, .DASH, .SLASH], [.SINGLE, .TYPE, .DIRECT, .QUALIF],
    [.WORD, .DIRECT, .CITY, .QUALIF, .NUMBER], [.DIRECT, .CITY, .QUALIF, .BOXH, .NUMBER], [], [.DIRECT, .CITY],
    [.PROV, .CITY, .NATION, .NUMBER], [.PROV, .NATION]]),
  (19, [[.UNITH], [.SINGLE, .WORD, .DIRECT, .QUALIF, .NUMBER, .DASH, .SLASH], [.TYPE, .DIRECT, .CITY, .QUALIF],
    [.TYPE, .DIRECT, .CITY, .QUALIF, .BOXH, .NUMBER], [], [.DIRECT, .PROV, .QUALIF, .NUMBER], [.WORD, .PROV, .NATION]]),
  (19, [[.UNITH], [.SINGLE, .WORD, .DIRECT, .QUALIF, .NUMBER, .DASH, .SLASH], [.TYPE, .DIRECT, .CITY, .QUALIF],
    [.TYPE, .DIRECT, .CITY, .QUALIF, .BOXH, .NUMBER], [.DIRECT, .CITY, .QUALIF], [.DIRECT, .PROV, .CITY, .QUALIF, .NUMBER],
    [.QUAD, .TYPE, .DIRECT, .PROV, .CITY, .NATION, .QUALIF, .NUMBER], [.WORD, .PROV, .NATION]])]

def norway : List (Nat × List (List InType)) := [
  (1, [[.BOXH], [], [], [], [.CITY, .NATION]]),
  (1, [[.BOXH], [.TYPE], [.DOUBLE, .SINGLE, .TYPE, .NATION, .UNITH, .DASH, .SLASH], [], [.CITY, .UNITT, .NUMBER, .MIXED],
    [.QUAD, .DIRECT, .CITY, .NATION, .UNITT, .NUMBER, .MIXED]]),
  (3, [[.BOXH], [.TYPE], [], [.QUAD, .DIRECT, .CITY, .UNITH, .UNITT, .NUMBER, .MIXED, .DASH, .SLASH], [], [.CITY, .NATION]]),
  (3, [[.BOXH], [.TYPE], [.UNITH], [.QUAD, .DOUBLE, .SINGLE, .TYPE, .DIRECT, .CITY, .NATION, .UNITH, .NUMBER, .DASH, .SLASH], [],
    [.CITY], [.CITY, .NATION]]),
  (5, [[], [.NUMBER], [], [.SINGLE, .TYPE, .NATION, .UNITH, .DASH, .SLASH], [], [.CITY, .NATION]]),
  (5, [[], [.NUMBER], [.TYPE], [.DOUBLE, .SINGLE, .TYPE, .NATION, .UNITH], [.NUMBER],
    [.QUAD, .DIRECT, .CITY, .NATION, .UNITH, .UNITT, .NUMBER, .MIXED], [.QUAD, .DIRECT, .CITY, .NATION, .NUMBER]]),
  (7, [[], [.NUMBER], [], [.DASH, .SLASH],
    [.QUAD, .DOUBLE, .SINGLE, .DIRECT, .CITY, .NATION, .UNITH, .UNITT, .NUMBER, .MIXED, .DASH, .SLASH], [], [.CITY, .NATION]]),
  (7, [[], [.NUMBER], [.TYPE], [.DOUBLE, .SINGLE, .UNITH, .DASH, .SLASH],
    [.QUAD, .DOUBLE, .SINGLE, .TYPE, .DIRECT, .CITY, .NATION, .UNITH, .NUMBER, .DASH, .SLASH], [.CITY], [.CITY, .NATION],
    [.DIRECT, .CITY, .NATION]]),
  (8, [[], [.NUMBER], [], [], [.DIRECT, .CITY]]),
  (8, [[], [.NUMBER], [], [], [.DIRECT, .CITY], [.QUAD, .SINGLE, .DIRECT, .CITY, .NATION, .UNITT, .NUMBER, .MIXED]]),
  (10, [[.BOXH], [.TYPE], [], [.UNITH, .UNITT, .NUMBER, .MIXED, .DASH, .SLASH],
    [.QUAD, .SINGLE, .WORD, .DIRECT, .CITY, .NATION, .UNITH, .UNITT, .MIXED, .DASH], [.DOUBLE, .SINGLE, .DIRECT, .CITY],
    [.DOUBLE, .SINGLE, .DIRECT, .CITY, .NATION, .UNITT, .NUMBER, .MIXED]]),
  (10, [[.BOXH], [.TYPE], [], [.UNITH, .NUMBER], [.QUAD, .TYPE, .DIRECT, .CITY, .NATION, .UNITH, .NUMBER, .DASH],
    [.QUAD, .SINGLE, .WORD, .DIRECT, .CITY, .NATION, .UNITH, .UNITT, .MIXED], [.DIRECT, .CITY], [.DIRECT, .CITY, .NATION]])]

def portugal : List (Nat × List (List InType)) := [
  (1, [[.BOXH], [], [.SINGLE, .DASH, .SLASH], [], [.PROV, .CITY, .NATION]]),
  (1, [[.TYPE, .UNITH, .BOXH], [], [.DOUBLE, .SINGLE, .DASH, .SLASH], [], [.QUAD, .SINGLE, .PROV, .CITY, .NATION, .NUMBER],
    [.PROV, .CITY, .NATION, .NUMBER]]),
  (3, [[.TYPE, .BOXH], [], [.TYPE], [.QUAD, .DOUBLE, .SINGLE, .TYPE, .CITY, .UNITH, .NUMBER, .DASH, .SLASH], [],
    [.PROV, .CITY, .NATION]]),
  (3, [[.TYPE, .UNITH, .BOXH], [], [.DOUBLE, .SINGLE], [.QUAD, .DOUBLE, .SINGLE, .CITY, .NUMBER, .DASH, .SLASH], [.NUMBER],
    [.QUAD, .PROV, .CITY, .NUMBER], [.QUAD, .PROV, .CITY, .NATION, .NUMBER]]),
  (5, [[.UNITH], [.NUMBER], [], [.DOUBLE, .SINGLE, .DASH, .SLASH], [], [.PROV, .CITY, .NATION, .NUMBER]]),
  (5, [[.UNITH], [.NUMBER], [], [.DOUBLE, .SINGLE, .DASH, .SLASH], [.QUAD, .CITY, .NUMBER], [.QUAD, .SINGLE, .PROV, .CITY, .NUMBER],
    [.PROV, .CITY, .NATION]]),
  (7, [[.UNITH], [.NUMBER], [], [.DOUBLE, .SINGLE, .DASH, .SLASH], [.QUAD, .DOUBLE, .SINGLE, .CITY, .NUMBER, .DASH, .SLASH],
    [.CITY, .NUMBER], [.CITY, .NATION]]),
  (7, [[], [.NUMBER], [.WORD], [.DOUBLE, .SINGLE, .WORD, .DASH, .SLASH], [.CITY, .NUMBER, .DASH, .SLASH], [.CITY],
    [.PROV, .CITY, .NATION], [.PROV, .CITY, .NATION]]),
  (8, [[], [], [.SINGLE], [.DOUBLE, .SINGLE, .CITY], [.PROV, .CITY, .NATION, .NUMBER]]),
  (8, [[], [], [.QUAD, .DOUBLE, .SINGLE, .NUMBER, .DASH, .SLASH], [.QUAD, .SINGLE], [.DOUBLE, .SINGLE, .CITY],
    [.DOUBLE, .SINGLE, .CITY, .NUMBER]])]

def sanMarino : List (Nat × List (List InType)) := [
  (1, [[.BOXH], [], [], [], [.CITY, .NATION]]),
  (1, [[.TYPE, .BOXH], [.TYPE], [.SINGLE, .TYPE, .DASH, .SLASH], [], [.CITY], [.CITY, .NATION]]),
  (3, [[.TYPE, .BOXH], [.TYPE], [], [.QUINT, .CITY, .NUMBER], [], [.CITY, .NATION]]),
  (3, [[.TYPE, .BOXH], [.TYPE], [], [.QUINT, .CITY, .NUMBER, .DASH, .SLASH], [], [.CITY], [.CITY, .NATION]]),
  (5, [[.TYPE], [.NUMBER], [], [], [], [.CITY, .NATION]]),
  (5, [[.TYPE], [.NUMBER], [.TYPE], [.DOUBLE, .SINGLE, .TYPE, .DASH, .SLASH], [], [.QUINT, .SINGLE, .CITY, .NATION, .NUMBER],
    [.CITY, .NATION, .NUMBER]]),
  (7, [[.TYPE], [.NUMBER], [], [], [.QUINT, .CITY, .NUMBER], [], [.CITY, .NATION]]),
  (7, [[.TYPE], [.NUMBER], [], [], [.QUINT, .DOUBLE, .SINGLE, .CITY, .NUMBER, .DASH, .SLASH], [], [.CITY], [.CITY, .NATION]]),
  (9, [[], [.TYPE, .NUMBER], [], [.DASH, .SLASH], [], [.CITY, .NATION]]),
  (9, [[], [.TYPE, .NUMBER], [.TYPE], [.DOUBLE, .SINGLE, .TYPE, .SLASH], [.NUMBER], [.CITY, .NATION, .NUMBER], [.CITY, .NATION]]),
  (11, [[], [.TYPE, .NUMBER], [], [], [.QUINT, .TYPE, .CITY, .NUMBER, .DASH, .SLASH], [], [.CITY, .NATION]]),
  (11, [[], [.TYPE, .NUMBER], [], [.TYPE], [.QUINT, .DOUBLE, .SINGLE, .TYPE, .CITY, .NUMBER, .DASH, .SLASH], [], [.CITY],
    [.CITY, .NATION]]),
  (12, [[], [], [], [.CITY], [.CITY, .NATION]]),
  (12, [[], [], [.NUMBER], [.CITY], [.CITY], [.CITY, .NATION]])]

def spain : List (Nat × List (List InType)) := [
  (1, [[.TYPE, .BOXH], [.QUINT, .SINGLE, .TYPE, .BOXH], [.SINGLE, .CITY], [.QUINT, .SINGLE, .CITY, .UNITH, .NUMBER],
    [.SINGLE, .PROV, .NATION, .NUMBER]]),
  (1, [[.BOXH], [.QUINT, .SINGLE, .WORD, .TYPE, .BOXH], [.SINGLE, .CITY, .UNITH, .DASH], [], [],
    [.QUINT, .PROV, .CITY, .NATION, .UNITH, .NUMBER]]),
  (3, [[.TYPE, .BOXH], [.SINGLE, .WORD], [.WORD, .CITY], [.QUINT, .SINGLE, .CITY, .UNITH, .NUMBER, .DASH], [], [.NATION]]),
  (3, [[.TYPE, .BOXH], [.SINGLE, .WORD], [.WORD, .CITY], [.QUINT, .SINGLE, .CITY, .UNITH, .NUMBER, .DASH], [], [], [.NATION]]),
  (5, [[], [.QUINT, .SINGLE, .BOXH, .NUMBER], [.QUINT, .SINGLE, .WORD, .TYPE, .BOXH, .DASH], [.SINGLE, .CITY, .UNITH, .DASH],
    [.SINGLE, .CITY, .NATION, .UNITH], [.PROV, .NATION]]),
  (5, [[.WORD], [.NUMBER], [.WORD, .BOXH, .DASH], [.SINGLE, .CITY, .DASH], [], [], [.CITY, .NATION]]),
  (7, [[.WORD], [.NUMBER], [], [], [.QUINT, .SINGLE, .CITY, .UNITH, .NUMBER, .DASH], [], [.NATION]]),
  (7, [[.WORD], [.NUMBER], [], [], [.QUINT, .SINGLE, .CITY, .UNITH, .NUMBER, .DASH], [], [], [.NATION]]),
  (8, [[], [.QUINT, .SINGLE, .TYPE, .BOXH, .NUMBER], [.QUINT, .SINGLE], [.CITY],
    [.QUINT, .SINGLE, .PROV, .CITY, .NATION, .UNITH, .NUMBER]]),
  (8, [[.TYPE], [.QUINT, .TYPE, .NUMBER], [.QUINT, .TYPE, .BOXH, .NUMBER, .DASH], [.QUINT, .SINGLE, .BOXH, .DASH], [.WORD, .CITY],
    [.QUINT, .CITY, .UNITH, .NUMBER]]),
  (10, [[.BOXH], [.QUINT, .SINGLE, .WORD, .TYPE, .BOXH], [], [.SINGLE, .UNITH, .NUMBER, .DASH], [.PROV, .CITY, .NATION, .DASH],
    [.WORD, .PROV, .CITY, .NATION], [.CITY, .NATION, .UNITH, .NUMBER]]),
  (10, [[.BOXH], [.QUINT, .SINGLE, .WORD, .TYPE, .BOXH], [], [.QUINT, .SINGLE, .PROV, .CITY, .NATION, .UNITH, .NUMBER],
    [.QUINT, .PROV, .NATION, .NUMBER], [.PROV, .CITY, .NATION, .DASH], [.WORD, .PROV, .CITY, .NATION],
    [.CITY, .NATION, .UNITH, .NUMBER]])]

def sweden : List (Nat × List (List InType)) := [
  (1, [[.BOXH], [], [], [], [.CITY, .NATION]]),
  (1, [[.BOXH], [], [.NATION, .UNITH], [], [.CITY], [.CITY, .NATION]]),
  (3, [[.BOXH], [.TYPE], [], [.CITY, .DASH], [], [.CITY, .NATION]]),
  (3, [[.BOXH], [.TYPE], [], [.CITY, .NATION, .UNITH, .UNITT, .NUMBER, .MIXED, .DASH], [], [.CITY], [.CITY, .NATION]]),
  (5, [[], [.NUMBER], [], [], [], [.CITY, .NATION]]),
  (5, [[], [.NUMBER], [.TYPE], [.TYPE, .NATION, .UNITH], [], [.CITY, .NUMBER], [.CITY, .NATION]]),
  (7, [[], [.NUMBER], [], [], [.CITY, .UNITT, .NUMBER, .MIXED, .DASH], [], [.CITY, .NATION]]),
  (7, [[], [.NUMBER], [], [.UNITH], [.QUINT, .CITY, .NATION, .UNITH, .NUMBER, .DASH], [], [.CITY], [.CITY, .NATION]]),
  (8, [[], [], [], [.CITY], [.CITY, .NATION]]),
  (8, [[], [], [], [.TYPE, .CITY, .UNITH, .UNITT, .MIXED, .DASH], [.CITY, .NATION, .UNITH], [.QUINT, .CITY, .NATION, .NUMBER]]),
  (10, [[.BOXH], [.TYPE], [], [.MIXED, .DASH], [.QUINT, .WORD, .CITY, .UNITH, .UNITT, .MIXED, .DASH], [.CITY],
    [.QUINT, .CITY, .NATION, .NUMBER, .MIXED]]),
  (10, [[.BOXH], [.TYPE], [], [], [.TYPE, .CITY, .UNITH, .UNITT, .NUMBER, .MIXED, .DASH],
    [.QUINT, .WORD, .CITY, .NATION, .UNITT, .MIXED, .DASH], [.CITY], [.CITY, .NATION]])]

def switzerland : List (Nat × List (List InType)) := [
  (1, [[.BOXH], [.TYPE], [.SINGLE, .UNITH, .BOXH], [], [.PROV, .CITY, .NATION]]),
  (1, [[.TYPE, .BOXH], [.TYPE], [.DOUBLE, .SINGLE, .TYPE, .UNITH], [.NUMBER], [.DIRECT, .PROV, .CITY, .UNITT, .NUMBER, .MIXED],
    [.DIRECT, .PROV, .CITY, .NATION, .UNITT, .NUMBER, .MIXED]]),
  (3, [[.TYPE, .BOXH], [.TYPE], [], [.QUAD, .SINGLE, .DIRECT, .CITY, .UNITH, .UNITT, .BOXH, .NUMBER, .MIXED], [],
    [.PROV, .CITY, .NATION]]),
  (3, [[.TYPE, .BOXH], [.TYPE], [.DOUBLE, .SINGLE, .TYPE, .UNITH],
    [.QUAD, .DOUBLE, .SINGLE, .TYPE, .DIRECT, .CITY, .UNITH, .BOXH, .NUMBER], [],
    [.SINGLE, .DIRECT, .PROV, .CITY, .NATION, .UNITH, .NUMBER], [.DIRECT, .PROV, .CITY, .NATION, .NUMBER]]),
  (5, [[.TYPE], [.NUMBER], [.TYPE], [.DOUBLE, .SINGLE, .UNITH, .BOXH], [], [.PROV, .CITY, .NATION]]),
  (5, [[.TYPE], [.NUMBER], [.TYPE], [.DOUBLE, .SINGLE, .TYPE, .UNITH, .BOXH], [.DIRECT, .CITY],
    [.QUAD, .DOUBLE, .SINGLE, .DIRECT, .PROV, .CITY, .NATION, .UNITH, .UNITT, .NUMBER, .MIXED],
    [.DIRECT, .PROV, .CITY, .NATION, .NUMBER]]),
  (7, [[.TYPE], [.NUMBER], [.TYPE], [.DOUBLE, .SINGLE, .TYPE, .UNITH],
    [.QUAD, .DOUBLE, .SINGLE, .TYPE, .DIRECT, .CITY, .UNITH, .NUMBER, .MIXED], [.NUMBER], [.DIRECT, .PROV, .CITY, .NATION, .NUMBER]]),
  (7, [[.TYPE], [.NUMBER], [.TYPE], [.DOUBLE, .SINGLE, .TYPE, .UNITH],
    [.QUAD, .DOUBLE, .SINGLE, .TYPE, .DIRECT, .CITY, .UNITH, .NUMBER, .MIXED], [.DIRECT, .PROV, .CITY, .NUMBER],
    [.DIRECT, .PROV, .CITY, .NATION, .NUMBER], [.DIRECT, .PROV, .CITY, .NATION, .NUMBER]]),
  (9, [[], [.TYPE, .NUMBER], [.TYPE], [.DOUBLE, .SINGLE, .TYPE, .UNITH], [.NUMBER], [.PROV, .CITY, .NATION, .NUMBER, .MIXED]]),
  (9, [[], [.TYPE, .NUMBER], [.TYPE], [.DOUBLE, .SINGLE, .TYPE, .UNITH], [.SINGLE, .TYPE, .DIRECT, .CITY, .UNITH, .NUMBER],
    [.QUAD, .DIRECT, .PROV, .CITY, .NATION, .UNITH, .NUMBER], [.DIRECT, .PROV, .CITY, .NATION, .NUMBER]]),
  (11, [[], [.TYPE, .NUMBER], [.TYPE], [.DOUBLE, .SINGLE, .TYPE, .UNITH],
    [.QUAD, .DOUBLE, .SINGLE, .TYPE, .DIRECT, .CITY, .UNITH, .UNITT, .NUMBER, .MIXED], [.CITY, .NUMBER],
    [.PROV, .CITY, .NATION, .NUMBER]]),
  (11, [[], [.TYPE, .NUMBER], [.WORD, .TYPE], [.DOUBLE, .SINGLE, .UNITH], [.DIRECT, .CITY, .UNITT, .NUMBER, .MIXED],
    [.DIRECT, .CITY], [.DIRECT, .PROV, .CITY, .NATION, .NUMBER], [.DIRECT, .PROV, .CITY, .NATION, .NUMBER]]),
  (12, [[], [], [], [.DOUBLE, .SINGLE, .DIRECT, .CITY, .UNITH, .UNITT, .MIXED],
    [.DOUBLE, .SINGLE, .TYPE, .DIRECT, .PROV, .CITY, .NATION, .NUMBER]]),
  (12, [[], [], [.UNITH, .BOXH, .NUMBER], [.QUAD, .DIRECT, .CITY, .UNITH, .BOXH], [.DOUBLE, .SINGLE, .DIRECT, .PROV, .CITY, .UNITH],
    [.DOUBLE, .SINGLE, .DIRECT, .PROV, .CITY, .NATION, .NUMBER]]),
  (14, [[.TYPE, .BOXH], [.TYPE], [], [.TYPE, .DIRECT, .CITY, .UNITH, .UNITT, .BOXH, .NUMBER, .MIXED],
    [.QUAD, .WORD, .TYPE, .DIRECT, .CITY, .UNITH, .UNITT, .BOXH, .MIXED], [.DOUBLE, .SINGLE, .DIRECT, .CITY, .NATION, .MIXED],
    [.DIRECT, .PROV, .CITY, .NATION, .UNITT, .NUMBER, .MIXED]]),
  (14, [[.TYPE, .BOXH], [.TYPE], [], [.QUAD, .DIRECT, .CITY, .UNITH, .NUMBER], [.QUAD, .DIRECT, .CITY, .UNITH, .BOXH, .NUMBER],
    [.QUAD, .WORD, .DIRECT, .CITY, .UNITT, .BOXH, .MIXED], [.DOUBLE, .SINGLE, .DIRECT, .CITY, .NATION, .MIXED],
    [.DIRECT, .PROV, .CITY, .NATION, .NUMBER]])]

def usa : List (Nat × List (List InType)) := [
  (0, [[.RR, .MIXED, .FRACT], [.DOUBLE, .SINGLE, .TYPE, .ROAD, .DIRECT, .QUALIF, .ORD, .MILE, .NUMBER, .MIXED, .FRACT, .SLASH],
    [.ROAD, .DIRECT, .CITY, .QUALIF], [.DIRECT, .PROV, .CITY, .QUALIF, .UNITH, .NUMBER], [], [.QUINT, .PROV, .NATION, .PCH]]),
  (0, [[.RR, .MIXED, .FRACT], [.DOUBLE, .SINGLE, .TYPE, .ROAD, .DIRECT, .QUALIF, .ORD, .MILE, .NUMBER, .MIXED, .FRACT, .SLASH],
    [.ROAD, .DIRECT, .CITY, .QUALIF, .UNITH, .AMPERS], [.TYPE, .DIRECT, .PROV, .CITY, .QUALIF, .UNITH], [],
    [.PROV, .CITY, .NATION, .QUALIF, .UNITH, .NUMBER, .PCH], [.QUAD, .PROV, .CITY, .NATION, .QUALIF]]),
  (1, [[.RR, .MIXED, .FRACT], [.DOUBLE, .SINGLE, .TYPE, .ROAD, .DIRECT, .QUALIF, .ORD, .MILE, .NUMBER, .MIXED, .FRACT, .SLASH],
    [.ROAD, .DIRECT, .CITY, .QUALIF, .UNITH, .AMPERS], [], [.DIRECT, .CITY, .QUALIF, .UNITH, .NUMBER],
    [.QUINT, .NATION, .NUMBER, .PCH]]),
  (1, [[.RR, .MIXED, .FRACT], [.DOUBLE, .SINGLE, .TYPE, .ROAD, .DIRECT, .QUALIF, .ORD, .MILE, .NUMBER, .MIXED, .FRACT, .SLASH],
    [.ROAD, .DIRECT, .CITY, .QUALIF, .UNITH, .AMPERS], [.PROV, .CITY, .QUALIF, .UNITH],
    [.TYPE, .DIRECT, .PROV, .CITY, .QUALIF, .UNITH], [.TYPE, .DIRECT, .PROV, .QUALIF], [.NATION, .UNITH, .NUMBER]]),
  (1, [[.RR, .MIXED, .FRACT], [.DOUBLE, .SINGLE, .TYPE, .ROAD, .DIRECT, .QUALIF, .ORD, .MILE, .NUMBER, .MIXED, .FRACT, .SLASH],
    [.ROAD, .DIRECT, .QUALIF, .AMPERS], [.DIRECT, .PROV, .QUALIF, .UNITH, .NUMBER], [], [.NATION, .PCH]]),
  (1, [[.RR, .MIXED, .FRACT], [.DOUBLE, .SINGLE, .TYPE, .ROAD, .DIRECT, .QUALIF, .ORD, .MILE, .NUMBER, .MIXED, .FRACT, .SLASH],
    [.ROAD, .DIRECT, .CITY, .QUALIF, .UNITH, .AMPERS], [.TYPE, .DIRECT, .PROV, .QUALIF, .UNITH], [],
    [.DIRECT, .PROV, .CITY, .NATION, .QUALIF, .UNITH, .NUMBER, .PCH], [.QUAD, .PROV, .NATION]]),
  (2, [[.RR, .MIXED, .FRACT], [.DOUBLE, .SINGLE, .TYPE, .ROAD, .DIRECT, .QUALIF, .ORD, .MILE, .NUMBER, .MIXED, .FRACT, .SLASH],
    [.ROAD, .DIRECT, .QUALIF, .AMPERS], [.TYPE, .DIRECT, .PROV, .QUALIF, .UNITH, .NUMBER],
    [.TYPE, .DIRECT, .PROV, .CITY, .QUALIF, .UNITH], [], [.QUINT, .PROV, .NATION, .PCH]]),
  (2, [[.RR, .MIXED, .FRACT], [.DOUBLE, .SINGLE, .TYPE, .ROAD, .DIRECT, .QUALIF, .ORD, .MILE, .NUMBER, .MIXED, .FRACT, .SLASH],
    [.ROAD, .DIRECT, .CITY, .QUALIF, .UNITH, .AMPERS], [.TYPE, .DIRECT, .PROV, .CITY, .QUALIF, .UNITH],
    [.TYPE, .DIRECT, .PROV, .CITY, .QUALIF, .UNITH], [], [.QUINT, .DIRECT, .PROV, .CITY, .NATION, .QUALIF, .UNITH, .NUMBER, .PCH],
    [.PROV]]),
  (3, [[.RR, .MIXED, .FRACT],
    [.DOUBLE, .SINGLE, .TYPE, .ROAD, .DIRECT, .PROV, .QUALIF, .ORD, .MILE, .NUMBER, .MIXED, .FRACT, .SLASH],
    [.ROAD, .DIRECT, .CITY, .QUALIF, .UNITH, .AMPERS], [.TYPE, .DIRECT, .PROV, .CITY, .QUALIF, .UNITH, .ORD, .NUMBER, .MIXED], [],
    [.QUINT, .PROV, .NATION, .QUALIF, .UNITH, .NUMBER, .PCH], [.PROV, .CITY, .QUALIF, .NUMBER, .PCH]]),
  (3, [[.RR, .MIXED, .FRACT],
    [.DOUBLE, .SINGLE, .TYPE, .ROAD, .DIRECT, .PROV, .QUALIF, .ORD, .MILE, .NUMBER, .MIXED, .FRACT, .SLASH],
    [.ROAD, .DIRECT, .CITY, .QUALIF, .UNITH, .AMPERS], [.TYPE, .DIRECT, .PROV, .CITY, .QUALIF, .UNITH, .ORD, .NUMBER, .MIXED],
    [.QUALIF, .UNITH], [.QUINT, .TYPE, .DIRECT, .PROV, .CITY, .NATION, .QUALIF, .UNITH, .NUMBER, .PCH],
    [.TYPE, .DIRECT, .PROV, .QUALIF], [.PROV, .CITY, .QUALIF, .UNITH, .NUMBER, .PCH]]),
  (3, [[.RR, .MIXED, .FRACT],
    [.DOUBLE, .SINGLE, .TYPE, .ROAD, .DIRECT, .PROV, .QUALIF, .ORD, .MILE, .NUMBER, .MIXED, .FRACT, .SLASH],
    [.ROAD, .DIRECT, .CITY, .QUALIF, .UNITH, .AMPERS], [.TYPE, .DIRECT, .PROV, .CITY, .QUALIF, .UNITH, .ORD, .NUMBER, .MIXED],
    [.TYPE, .DIRECT, .CITY, .QUALIF, .UNITH, .NUMBER, .PCH, .AMPERS], [], [.PROV, .NATION, .NUMBER, .PCH]]),
  (3, [[.RR, .MIXED, .FRACT],
    [.DOUBLE, .SINGLE, .TYPE, .ROAD, .DIRECT, .PROV, .QUALIF, .ORD, .MILE, .NUMBER, .MIXED, .FRACT, .SLASH],
    [.ROAD, .DIRECT, .CITY, .QUALIF, .UNITH, .AMPERS], [.TYPE, .DIRECT, .PROV, .CITY, .QUALIF, .UNITH, .ORD, .NUMBER, .MIXED],
    [.TYPE, .DIRECT, .CITY, .QUALIF, .UNITH, .NUMBER, .PCH, .AMPERS], [.NATION, .QUALIF, .UNITH, .NUMBER, .PCH],
    [.QUAD, .QUINT, .TYPE, .DIRECT, .PROV, .CITY, .NATION, .QUALIF, .UNITH, .NUMBER, .PCH], [.QUAD, .PROV]]),
  (4, [[.RR, .MIXED, .FRACT], [.SINGLE, .TYPE, .QUALIF, .ORD, .MILE, .NUMBER, .MIXED, .FRACT],
    [.DOUBLE, .SINGLE, .TYPE, .ROAD, .DIRECT, .QUALIF, .ORD, .NUMBER, .MIXED, .AMPERS],
    [.WORD, .ROAD, .DIRECT, .PROV, .CITY, .QUALIF, .UNITH, .NUMBER, .AMPERS], [.DIRECT, .CITY, .QUALIF, .UNITH], [],
    [.QUINT, .PROV, .NATION, .PCH]]),
  (4, [[.RR, .MIXED, .FRACT], [.DOUBLE, .SINGLE, .TYPE, .QUALIF, .ORD, .MILE, .NUMBER, .MIXED, .FRACT],
    [.DOUBLE, .SINGLE, .TYPE, .ROAD, .DIRECT, .QUALIF, .ORD, .NUMBER, .MIXED, .AMPERS],
    [.WORD, .ROAD, .DIRECT, .PROV, .CITY, .QUALIF, .UNITH, .NUMBER, .AMPERS], [.DIRECT, .CITY, .QUALIF, .UNITH], [], [],
    [.QUAD, .QUINT, .PROV, .NATION, .PCT, .PCH]]),
  (5, [[.RR, .MIXED, .FRACT], [.DOUBLE, .SINGLE, .TYPE, .ROAD, .DIRECT, .QUALIF, .ORD, .MILE, .NUMBER, .MIXED, .FRACT, .SLASH],
    [.ROAD, .DIRECT, .CITY, .QUALIF, .UNITH, .AMPERS], [.DIRECT, .QUALIF, .UNITH],
    [.DIRECT, .PROV, .CITY, .NATION, .QUALIF, .UNITH, .NUMBER, .PCH],
    [.QUAD, .TYPE, .DIRECT, .PROV, .CITY, .NATION, .QUALIF, .UNITH, .PCH],
    [.QUAD, .TYPE, .DIRECT, .PROV, .CITY, .NATION, .QUALIF, .UNITH, .NUMBER, .DASH], [.CITY, .NATION, .QUALIF]]),
  (5, [[.RR, .MIXED, .FRACT], [.DOUBLE, .SINGLE, .TYPE, .ROAD, .DIRECT, .QUALIF, .ORD, .MILE, .NUMBER, .MIXED, .FRACT, .SLASH],
    [.ROAD, .DIRECT, .CITY, .QUALIF, .UNITH, .AMPERS], [.DIRECT, .QUALIF, .UNITH],
    [.TYPE, .DIRECT, .PROV, .CITY, .QUALIF, .UNITH, .PCH],
    [.QUAD, .TYPE, .DIRECT, .PROV, .CITY, .NATION, .QUALIF, .UNITH, .NUMBER, .DASH],
    [.TYPE, .DIRECT, .PROV, .CITY, .QUALIF, .UNITH, .PCH], [.PROV, .CITY, .NATION, .QUALIF, .UNITH, .NUMBER, .DASH],
    [.CITY, .NATION, .QUALIF]]),
  (5, [[.RR, .MIXED, .FRACT], [.DOUBLE, .SINGLE, .TYPE, .ROAD, .DIRECT, .QUALIF, .ORD, .MILE, .NUMBER, .MIXED, .FRACT, .SLASH],
    [.ROAD, .DIRECT, .QUALIF, .UNITH, .AMPERS], [.DIRECT, .CITY, .QUALIF], [.WORD, .DIRECT, .PROV, .CITY, .QUALIF, .UNITH, .PCH],
    [.DIRECT, .PROV, .CITY, .NATION, .QUALIF, .UNITH, .NUMBER, .DASH], [], [.QUINT, .PROV, .NATION, .PCH]]),
  (5, [[.RR, .MIXED, .FRACT], [.DOUBLE, .SINGLE, .TYPE, .ROAD, .DIRECT, .QUALIF, .ORD, .MILE, .NUMBER, .MIXED, .FRACT, .SLASH],
    [.ROAD, .DIRECT, .QUALIF, .UNITH, .AMPERS], [.DIRECT, .PROV, .CITY, .QUALIF],
    [.WORD, .TYPE, .DIRECT, .PROV, .CITY, .QUALIF, .UNITH, .PCH], [.DIRECT, .PROV, .CITY, .NATION, .QUALIF, .UNITH, .NUMBER, .DASH],
    [], [], [.QUAD, .QUINT, .PROV, .NATION, .NUMBER, .PCT, .PCH]]),
  (6, [[.RR, .MIXED, .FRACT], [.SINGLE, .TYPE, .ROAD, .DIRECT, .QUALIF, .MILE, .NUMBER, .MIXED, .FRACT, .SLASH],
    [.DOUBLE, .SINGLE, .WORD, .ROAD, .DIRECT, .CITY, .QUALIF, .UNITH, .ORD, .NUMBER, .MIXED, .AMPERS],
    [.DOUBLE, .SINGLE, .TYPE, .ROAD, .DIRECT, .CITY, .QUALIF, .UNITH, .ORD, .NUMBER, .MIXED, .AMPERS], [],
    [.QUINT, .PROV, .NATION, .PCH]]),
  (6, [[.RR, .MIXED, .FRACT], [.DOUBLE, .SINGLE, .TYPE, .ROAD, .DIRECT, .QUALIF, .MILE, .NUMBER, .MIXED, .FRACT, .SLASH],
    [.WORD, .ROAD, .DIRECT, .CITY, .QUALIF, .UNITH, .ORD, .NUMBER, .MIXED, .AMPERS],
    [.TYPE, .DIRECT, .CITY, .QUALIF, .ORD, .NUMBER, .MIXED, .AMPERS], [], [], [.QUAD, .QUINT, .PROV, .NATION, .PCT, .PCH]]),
  (7, [[.RR], [.DOUBLE, .SINGLE, .TYPE, .ROAD, .DIRECT, .QUALIF, .ORD, .MILE, .NUMBER, .MIXED, .FRACT],
    [.DOUBLE, .SINGLE, .TYPE, .ROAD, .DIRECT, .QUALIF, .UNITH, .AMPERS], [.TYPE, .DIRECT, .PROV, .CITY, .QUALIF, .UNITH], []]),
  (7, [[.RR, .FRACT], [.DOUBLE, .SINGLE, .TYPE, .ROAD, .DIRECT, .QUALIF, .ORD, .MILE, .NUMBER, .MIXED, .FRACT],
    [.DOUBLE, .SINGLE, .TYPE, .ROAD, .DIRECT, .QUALIF, .UNITH, .AMPERS], [.TYPE, .DIRECT, .PROV, .QUALIF, .UNITH],
    [.TYPE, .DIRECT, .PROV, .CITY, .QUALIF], []]),
  (7, [[.RR, .NUMBER, .MIXED, .FRACT], [], [.DOUBLE, .SINGLE, .TYPE, .ROAD, .DIRECT, .CITY, .QUALIF, .NUMBER, .MIXED], [],
    [.PROV, .NATION, .PCH]]),
  (7, [[.DIRECT, .RR, .MILE, .NUMBER, .MIXED, .FRACT], [], [.SINGLE, .DIRECT, .CITY], [], [], [.QUAD, .PROV, .NATION, .PCT, .PCH]]),
  (8, [[.RR, .MIXED, .FRACT], [.DOUBLE, .SINGLE, .DIRECT, .QUALIF, .ORD, .MILE, .NUMBER, .MIXED, .FRACT, .SLASH],
    [.DOUBLE, .SINGLE, .TYPE, .ROAD, .DIRECT, .CITY, .QUALIF, .UNITH, .ORD, .NUMBER, .MIXED], [], [.QUINT, .PROV, .NATION, .PCH]]),
  (8, [[.RR, .MIXED, .FRACT], [.DOUBLE, .SINGLE, .TYPE, .ROAD, .DIRECT, .QUALIF, .ORD, .MILE, .NUMBER, .MIXED, .FRACT, .SLASH],
    [.TYPE, .ROAD, .DIRECT, .CITY, .QUALIF, .UNITH, .NUMBER, .AMPERS], [], [],
    [.QUAD, .QUINT, .PROV, .NATION, .UNITH, .NUMBER, .PCT, .PCH]]),
  (9, [[.RR, .MIXED, .FRACT], [.DOUBLE, .SINGLE, .TYPE, .ROAD, .DIRECT, .QUALIF, .ORD, .MILE, .NUMBER, .MIXED, .FRACT, .SLASH],
    [.TYPE, .ROAD, .DIRECT, .QUALIF, .AMPERS], [.DIRECT, .PROV, .CITY, .QUALIF, .UNITH, .NUMBER],
    [.TYPE, .DIRECT, .PROV, .CITY, .QUALIF, .UNITH], [], [.QUINT, .PROV, .NATION, .PCH]]),
  (9, [[.RR, .MIXED, .FRACT], [.DOUBLE, .SINGLE, .TYPE, .ROAD, .DIRECT, .QUALIF, .ORD, .MILE, .NUMBER, .MIXED, .FRACT, .SLASH],
    [.TYPE, .ROAD, .DIRECT, .CITY, .QUALIF, .UNITH, .AMPERS], [.DIRECT, .PROV, .CITY, .QUALIF, .UNITH, .NUMBER],
    [.TYPE, .DIRECT, .PROV, .CITY, .QUALIF, .UNITH], [], [.QUINT, .DIRECT, .PROV, .CITY, .NATION, .QUALIF, .UNITH, .NUMBER, .PCH],
    [.PROV]]),
  (10, [[.RR, .MIXED, .FRACT], [.DOUBLE, .SINGLE, .ROAD, .DIRECT, .QUALIF, .ORD, .MILE, .NUMBER, .MIXED, .FRACT],
    [.DOUBLE, .SINGLE, .TYPE, .ROAD, .DIRECT, .CITY, .QUALIF, .UNITH, .ORD, .NUMBER, .MIXED, .AMPERS],
    [.TYPE, .DIRECT, .PROV, .CITY, .QUALIF, .UNITH, .AMPERS], [], [.QUINT, .PROV, .NATION, .QUALIF, .UNITH, .NUMBER, .PCH]]),
  (10, [[.RR, .MIXED, .FRACT], [.DOUBLE, .SINGLE, .WORD, .ROAD, .DIRECT, .QUALIF, .ORD, .MILE, .NUMBER, .MIXED, .FRACT],
    [.DOUBLE, .SINGLE, .TYPE, .ROAD, .DIRECT, .CITY, .QUALIF, .UNITH, .ORD, .NUMBER, .MIXED, .AMPERS],
    [.TYPE, .DIRECT, .PROV, .CITY, .QUALIF, .UNITH, .AMPERS], [], [.QUALIF, .UNITH, .NUMBER, .PCH],
    [.QUAD, .QUINT, .PROV, .CITY, .NATION, .NUMBER, .PCH]]),
  (11, [[.RR, .MIXED, .FRACT],
    [.DOUBLE, .SINGLE, .TYPE, .ROAD, .DIRECT, .PROV, .QUALIF, .ORD, .MILE, .NUMBER, .MIXED, .FRACT, .SLASH],
    [.ROAD, .DIRECT, .CITY, .QUALIF, .UNITH, .AMPERS], [.TYPE, .DIRECT, .PROV, .CITY, .QUALIF, .UNITH, .ORD, .NUMBER, .MIXED], [],
    [.PROV, .CITY, .NATION, .QUALIF, .UNITH, .NUMBER, .PCH], [.QUAD, .PROV, .CITY, .NATION, .QUALIF, .PCH]]),
  (11, [[.RR, .MIXED, .FRACT],
    [.DOUBLE, .SINGLE, .TYPE, .ROAD, .DIRECT, .PROV, .QUALIF, .ORD, .MILE, .NUMBER, .MIXED, .FRACT, .SLASH],
    [.ROAD, .DIRECT, .CITY, .QUALIF, .UNITH, .AMPERS], [.TYPE, .DIRECT, .PROV, .CITY, .QUALIF, .UNITH, .ORD, .NUMBER, .MIXED],
    [.QUALIF, .UNITH], [.QUINT, .TYPE, .DIRECT, .PROV, .CITY, .NATION, .QUALIF, .UNITH, .NUMBER, .PCH],
    [.TYPE, .DIRECT, .PROV, .QUALIF, .UNITH], [.PROV, .CITY, .NATION, .QUALIF, .PCH]]),
  (12, [[.RR, .MIXED, .FRACT],
    [.DOUBLE, .SINGLE, .TYPE, .ROAD, .DIRECT, .PROV, .QUALIF, .ORD, .MILE, .NUMBER, .MIXED, .FRACT, .SLASH],
    [.ROAD, .DIRECT, .CITY, .QUALIF, .UNITH, .AMPERS], [.DIRECT, .QUALIF],
    [.TYPE, .DIRECT, .PROV, .CITY, .QUALIF, .UNITH, .NUMBER, .PCH],
    [.QUAD, .TYPE, .DIRECT, .CITY, .QUALIF, .UNITH, .NUMBER, .PCH, .AMPERS], [.QUAD, .PROV, .NATION, .PCH]]),
  (12, [[.RR, .MIXED, .FRACT],
    [.DOUBLE, .SINGLE, .TYPE, .ROAD, .DIRECT, .PROV, .QUALIF, .ORD, .MILE, .NUMBER, .MIXED, .FRACT, .SLASH],
    [.ROAD, .DIRECT, .CITY, .QUALIF, .UNITH, .AMPERS], [.DIRECT, .CITY, .QUALIF, .UNITH],
    [.TYPE, .DIRECT, .PROV, .CITY, .QUALIF, .UNITH, .NUMBER, .PCH], [.QUAD, .TYPE, .DIRECT, .PROV, .CITY, .QUALIF, .UNITH],
    [.QUAD, .TYPE, .DIRECT, .CITY, .QUALIF, .UNITH, .NUMBER, .PCH, .AMPERS], [.PROV, .NATION, .PCH]]),
  (12, [[.RR, .MIXED, .FRACT],
    [.DOUBLE, .SINGLE, .TYPE, .ROAD, .DIRECT, .PROV, .QUALIF, .ORD, .MILE, .NUMBER, .MIXED, .FRACT, .SLASH],
    [.ROAD, .DIRECT, .CITY, .QUALIF, .UNITH, .AMPERS], [.TYPE, .DIRECT, .PROV, .QUALIF, .UNITH, .ORD, .NUMBER, .MIXED], [],
    [.DIRECT, .PROV, .CITY, .NATION, .QUALIF, .UNITH, .NUMBER, .PCH], [.QUAD, .PROV, .NATION, .PCH]]),
  (12, [[.RR, .MIXED, .FRACT],
    [.DOUBLE, .SINGLE, .TYPE, .ROAD, .DIRECT, .PROV, .QUALIF, .ORD, .MILE, .NUMBER, .MIXED, .FRACT, .SLASH],
    [.ROAD, .DIRECT, .CITY, .QUALIF, .UNITH, .AMPERS], [.TYPE, .DIRECT, .PROV, .QUALIF, .UNITH, .ORD, .NUMBER, .MIXED],
    [.PROV, .QUALIF, .UNITH], [.TYPE, .DIRECT, .PROV, .CITY, .QUALIF, .UNITH], [.DIRECT, .PROV, .QUALIF, .UNITH],
    [.PROV, .NATION, .PCH]]),
  (13, [[.RR, .MIXED, .FRACT], [.DOUBLE, .SINGLE, .TYPE, .ROAD, .DIRECT, .QUALIF, .ORD, .MILE, .NUMBER, .MIXED, .FRACT, .SLASH],
    [.ROAD, .DIRECT, .CITY, .QUALIF, .UNITH, .AMPERS], [.TYPE, .DIRECT, .PROV, .CITY, .QUALIF, .UNITH],
    [.TYPE, .DIRECT, .PROV, .CITY, .QUALIF, .UNITH, .NUMBER, .PCH], [],
    [.QUINT, .DIRECT, .PROV, .CITY, .NATION, .QUALIF, .UNITH, .NUMBER, .PCH], [.PROV, .NATION, .QUALIF, .PCH]]),
  (13, [[.RR, .MIXED, .FRACT], [.DOUBLE, .SINGLE, .TYPE, .ROAD, .DIRECT, .QUALIF, .ORD, .MILE, .NUMBER, .MIXED, .FRACT, .SLASH],
    [.ROAD, .DIRECT, .CITY, .QUALIF, .UNITH, .AMPERS], [.TYPE, .DIRECT, .PROV, .CITY, .QUALIF, .UNITH],
    [.TYPE, .DIRECT, .PROV, .CITY, .QUALIF, .UNITH, .NUMBER, .PCH], [.PROV, .CITY, .QUALIF, .UNITH],
    [.TYPE, .DIRECT, .PROV, .CITY, .QUALIF, .UNITH], [.PROV], [.PROV, .NATION, .QUALIF, .PCH]]),
  (14, [[.RR, .MIXED, .FRACT], [.DOUBLE, .SINGLE, .TYPE, .ROAD, .DIRECT, .QUALIF, .ORD, .MILE, .NUMBER, .MIXED, .FRACT, .SLASH],
    [.ROAD, .DIRECT, .CITY, .QUALIF, .UNITH, .AMPERS], [.TYPE, .DIRECT, .PROV, .CITY, .QUALIF, .UNITH], [.QUALIF, .UNITH],
    [.QUINT, .TYPE, .DIRECT, .PROV, .CITY, .NATION, .QUALIF, .UNITH, .NUMBER, .PCH],
    [.TYPE, .DIRECT, .PROV, .CITY, .NATION, .QUALIF, .UNITH, .PCH], [.PROV, .CITY, .QUALIF, .NUMBER]]),
  (14, [[.RR, .MIXED, .FRACT], [.DOUBLE, .SINGLE, .TYPE, .ROAD, .DIRECT, .QUALIF, .ORD, .MILE, .NUMBER, .MIXED, .FRACT, .SLASH],
    [.ROAD, .DIRECT, .CITY, .QUALIF, .UNITH, .AMPERS], [.TYPE, .DIRECT, .PROV, .CITY, .QUALIF, .UNITH], [.DIRECT, .QUALIF, .UNITH],
    [.QUINT, .TYPE, .DIRECT, .PROV, .CITY, .QUALIF, .UNITH, .NUMBER, .PCH], [.TYPE, .DIRECT, .PROV, .CITY, .QUALIF, .UNITH],
    [.PROV, .CITY, .NATION, .QUALIF, .UNITH, .PCH], [.PROV, .CITY, .QUALIF, .NUMBER]]),
  (14, [[.RR, .MIXED, .FRACT], [.DOUBLE, .SINGLE, .TYPE, .ROAD, .DIRECT, .QUALIF, .ORD, .MILE, .NUMBER, .MIXED, .FRACT, .SLASH],
    [.ROAD, .DIRECT, .CITY, .QUALIF, .UNITH, .AMPERS], [.TYPE, .DIRECT, .PROV, .CITY, .QUALIF, .UNITH],
    [.TYPE, .DIRECT, .CITY, .QUALIF, .UNITH], [.TYPE, .DIRECT, .PROV, .CITY, .NATION, .QUALIF, .UNITH, .PCH],
    [.NATION, .UNITH, .NUMBER], [.QUAD, .QUINT, .DIRECT, .PROV, .CITY, .NATION, .QUALIF, .NUMBER, .PCH]]),
  (14, [[.RR, .MIXED, .FRACT], [.DOUBLE, .SINGLE, .TYPE, .ROAD, .DIRECT, .QUALIF, .ORD, .MILE, .NUMBER, .MIXED, .FRACT, .SLASH],
    [.ROAD, .DIRECT, .CITY, .QUALIF, .UNITH, .AMPERS], [.TYPE, .DIRECT, .PROV, .CITY, .QUALIF, .UNITH],
    [.TYPE, .DIRECT, .CITY, .QUALIF, .UNITH], [.TYPE, .DIRECT, .PROV, .CITY, .NATION, .QUALIF, .UNITH, .PCH],
    [.DIRECT, .PROV, .NATION, .QUALIF, .UNITH, .NUMBER], [.QUAD, .DIRECT, .PROV, .NATION, .QUALIF, .NUMBER], [.PROV, .NUMBER]]),
  (15, [[.RR, .MIXED, .FRACT], [.SINGLE, .WORD, .TYPE, .ROAD, .QUALIF, .ORD, .MILE, .NUMBER, .MIXED, .FRACT],
    [.DOUBLE, .SINGLE, .TYPE, .ROAD, .DIRECT, .CITY, .QUALIF, .ORD, .NUMBER, .MIXED, .AMPERS],
    [.WORD, .ROAD, .DIRECT, .PROV, .CITY, .QUALIF, .UNITH, .NUMBER, .AMPERS], [.DIRECT, .CITY, .QUALIF, .UNITH], [], [.PROV],
    [.QUAD, .PROV, .NATION, .PCT, .PCH]]),
  (15, [[.RR, .MIXED, .FRACT], [.SINGLE, .WORD, .TYPE, .ROAD, .QUALIF, .ORD, .MILE, .NUMBER, .MIXED, .FRACT],
    [.DOUBLE, .SINGLE, .TYPE, .ROAD, .DIRECT, .CITY, .QUALIF, .ORD, .NUMBER, .MIXED, .AMPERS],
    [.WORD, .ROAD, .DIRECT, .PROV, .CITY, .QUALIF, .UNITH, .NUMBER, .AMPERS], [.DIRECT, .CITY, .QUALIF, .UNITH], [], [], [.PROV],
    [.QUAD, .PROV, .NATION, .PCT, .PCH]]),
  (16, [[.RR, .MIXED, .FRACT], [.DOUBLE, .SINGLE, .TYPE, .ROAD, .DIRECT, .QUALIF, .ORD, .MILE, .NUMBER, .MIXED, .FRACT, .SLASH],
    [.ROAD, .DIRECT, .CITY, .QUALIF, .UNITH, .AMPERS], [.DIRECT, .QUALIF, .UNITH],
    [.QUINT, .TYPE, .DIRECT, .PROV, .CITY, .QUALIF, .UNITH, .NUMBER, .PCH], [.TYPE, .DIRECT, .PROV, .CITY, .QUALIF, .UNITH],
    [.TYPE, .DIRECT, .PROV, .CITY, .QUALIF], [.WORD, .TYPE, .DIRECT, .CITY, .QUALIF, .UNITH, .NUMBER], [.NATION, .PCH]]),
  (16, [[.RR, .MIXED, .FRACT], [.DOUBLE, .SINGLE, .TYPE, .ROAD, .DIRECT, .QUALIF, .ORD, .MILE, .NUMBER, .MIXED, .FRACT, .SLASH],
    [.ROAD, .DIRECT, .CITY, .QUALIF, .UNITH, .AMPERS], [.DIRECT, .CITY, .QUALIF, .UNITH],
    [.TYPE, .DIRECT, .PROV, .CITY, .NATION, .QUALIF, .UNITH, .NUMBER, .PCH],
    [.QUAD, .TYPE, .DIRECT, .PROV, .CITY, .NATION, .QUALIF, .UNITH], [.QUAD, .TYPE, .DIRECT, .PROV, .CITY, .QUALIF, .UNITH],
    [.TYPE, .DIRECT, .PROV, .CITY, .QUALIF], [.WORD, .TYPE, .DIRECT, .CITY, .QUALIF, .UNITH, .NUMBER], [.NATION, .PCH]]),
  (16, [[.RR, .MIXED, .FRACT], [.DOUBLE, .SINGLE, .TYPE, .ROAD, .DIRECT, .QUALIF, .ORD, .MILE, .NUMBER, .MIXED, .FRACT, .SLASH],
    [.ROAD, .DIRECT, .CITY, .QUALIF, .UNITH, .AMPERS], [.DIRECT, .PROV, .CITY, .QUALIF],
    [.WORD, .TYPE, .DIRECT, .PROV, .CITY, .QUALIF, .UNITH], [.TYPE, .DIRECT, .PROV, .CITY, .QUALIF], [], [.PROV],
    [.QUAD, .PROV, .NATION, .PCT, .PCH]]),
  (16, [[.RR, .MIXED, .FRACT], [.DOUBLE, .SINGLE, .TYPE, .ROAD, .DIRECT, .QUALIF, .ORD, .MILE, .NUMBER, .MIXED, .FRACT, .SLASH],
    [.ROAD, .DIRECT, .CITY, .QUALIF, .UNITH, .AMPERS], [.TYPE, .DIRECT, .PROV, .CITY, .QUALIF],
    [.WORD, .TYPE, .DIRECT, .PROV, .CITY, .QUALIF, .UNITH], [.TYPE, .DIRECT, .PROV, .CITY, .QUALIF], [], [.PROV],
    [.QUAD, .PROV, .NATION, .NUMBER, .PCT, .DASH], [.PROV, .NATION, .PCH]]),
  (17, [[.RR, .MIXED, .FRACT], [.DOUBLE, .SINGLE, .TYPE, .ROAD, .DIRECT, .QUALIF, .MILE, .NUMBER, .MIXED, .FRACT, .SLASH],
    [.WORD, .ROAD, .DIRECT, .PROV, .CITY, .QUALIF, .UNITH, .ORD, .NUMBER, .MIXED, .AMPERS],
    [.DIRECT, .CITY, .QUALIF, .ORD, .NUMBER, .MIXED, .AMPERS], [], [.PROV], [.QUAD, .PROV, .NATION, .PCT, .PCH]]),
  (17, [[.RR, .MIXED, .FRACT], [.DOUBLE, .SINGLE, .TYPE, .ROAD, .DIRECT, .QUALIF, .MILE, .NUMBER, .MIXED, .FRACT, .SLASH],
    [.WORD, .ROAD, .DIRECT, .PROV, .CITY, .QUALIF, .UNITH, .ORD, .NUMBER, .MIXED, .AMPERS],
    [.DIRECT, .CITY, .QUALIF, .UNITH, .ORD, .NUMBER, .MIXED, .AMPERS], [], [], [.PROV], [.QUAD, .PROV, .NATION, .PCT, .PCH]]),
  (18, [[.RR, .FRACT], [.DOUBLE, .SINGLE, .TYPE, .ROAD, .DIRECT, .QUALIF, .ORD, .MILE, .NUMBER, .MIXED, .FRACT],
    [.DOUBLE, .SINGLE, .TYPE, .ROAD, .DIRECT, .CITY, .QUALIF, .UNITH, .AMPERS],
    [.TYPE, .DIRECT, .PROV, .CITY, .QUALIF, .UNITH, .ORD, .NUMBER, .MIXED], [.TYPE, .DIRECT, .QUALIF, .UNITH, .ORD, .NUMBER, .MIXED],
    [.PROV, .NATION, .PCH]]),
  (18, [[.RR, .MIXED, .FRACT], [.DOUBLE, .SINGLE, .TYPE, .DIRECT, .QUALIF, .ORD, .MILE, .NUMBER, .MIXED, .FRACT],
    [.DOUBLE, .SINGLE, .TYPE, .ROAD, .DIRECT, .QUALIF, .UNITH, .ORD, .NUMBER, .MIXED, .AMPERS],
    [.TYPE, .DIRECT, .CITY, .QUALIF, .UNITH, .AMPERS],
    [.TYPE, .DIRECT, .PROV, .CITY, .NATION, .QUALIF, .UNITH, .ORD, .NUMBER, .MIXED, .PCH],
    [.QUAD, .TYPE, .DIRECT, .CITY, .NATION, .QUALIF, .UNITH, .ORD, .NUMBER, .MIXED], [.QUAD, .PROV, .NATION, .PCH]]),
  (18, [[.DIRECT, .RR, .MILE, .NUMBER, .MIXED, .FRACT], [], [.CITY, .ORD, .NUMBER, .MIXED], [], [.PROV],
    [.QUAD, .PROV, .NATION, .PCT, .PCH]]),
  (18, [[.DIRECT, .RR, .MILE, .NUMBER, .MIXED, .FRACT], [], [.SINGLE, .DIRECT, .CITY, .ORD, .NUMBER, .MIXED], [], [], [.PROV],
    [.QUAD, .PROV, .NATION, .PCT, .PCH]]),
  (19, [[.RR, .MIXED, .FRACT], [.DOUBLE, .SINGLE, .TYPE, .ROAD, .DIRECT, .QUALIF, .ORD, .MILE, .NUMBER, .MIXED, .FRACT, .SLASH],
    [.TYPE, .ROAD, .DIRECT, .CITY, .QUALIF, .UNITH, .ORD, .NUMBER, .MIXED, .AMPERS], [], [.PROV],
    [.QUAD, .PROV, .NATION, .PCT, .PCH]]),
  (19, [[.RR, .MIXED, .FRACT], [.DOUBLE, .SINGLE, .TYPE, .ROAD, .DIRECT, .QUALIF, .ORD, .MILE, .NUMBER, .MIXED, .FRACT, .SLASH],
    [.TYPE, .ROAD, .DIRECT, .CITY, .QUALIF, .UNITH, .ORD, .NUMBER, .MIXED, .AMPERS], [], [.DIRECT, .CITY, .QUALIF, .UNITH, .NUMBER],
    [.QUINT, .TYPE, .DIRECT, .PROV, .CITY, .NATION, .QUALIF, .UNITH, .NUMBER, .PCT, .PCH], [.QUAD, .PROV, .NATION, .PCH]]),
  (20, [[.RR, .MIXED, .FRACT], [.DOUBLE, .SINGLE, .TYPE, .ROAD, .DIRECT, .QUALIF, .ORD, .MILE, .NUMBER, .MIXED, .FRACT, .SLASH],
    [.TYPE, .ROAD, .DIRECT, .CITY, .QUALIF, .UNITH, .AMPERS], [.DIRECT, .PROV, .CITY, .QUALIF, .UNITH],
    [.TYPE, .DIRECT, .PROV, .CITY, .QUALIF, .UNITH, .NUMBER, .PCH], [],
    [.QUINT, .DIRECT, .PROV, .CITY, .NATION, .QUALIF, .UNITH, .NUMBER, .PCH], [.PROV, .NATION, .PCH]]),
  (20, [[.RR, .MIXED, .FRACT], [.DOUBLE, .SINGLE, .TYPE, .ROAD, .DIRECT, .QUALIF, .ORD, .MILE, .NUMBER, .MIXED, .FRACT, .SLASH],
    [.TYPE, .ROAD, .DIRECT, .CITY, .QUALIF, .UNITH, .AMPERS], [.DIRECT, .PROV, .CITY, .QUALIF, .UNITH],
    [.TYPE, .DIRECT, .PROV, .CITY, .QUALIF, .UNITH, .NUMBER, .PCH], [.PROV, .CITY, .QUALIF, .UNITH],
    [.TYPE, .DIRECT, .PROV, .CITY, .QUALIF, .UNITH], [.PROV], [.PROV, .NATION, .PCH]]),
  (21, [[.RR, .MIXED, .FRACT], [.DOUBLE, .SINGLE, .WORD, .ROAD, .DIRECT, .QUALIF, .ORD, .MILE, .NUMBER, .MIXED, .FRACT],
    [.DOUBLE, .SINGLE, .TYPE, .ROAD, .DIRECT, .CITY, .QUALIF, .UNITH, .ORD, .NUMBER, .MIXED, .AMPERS],
    [.TYPE, .ROAD, .DIRECT, .PROV, .CITY, .QUALIF, .UNITH, .AMPERS], [], [.PROV, .QUALIF, .NUMBER, .PCH],
    [.QUAD, .PROV, .CITY, .NATION, .QUALIF, .UNITH, .PCH]]),
  (21, [[.RR, .MIXED, .FRACT], [.DOUBLE, .SINGLE, .WORD, .ROAD, .DIRECT, .QUALIF, .ORD, .MILE, .NUMBER, .MIXED, .FRACT],
    [.DOUBLE, .SINGLE, .TYPE, .ROAD, .DIRECT, .CITY, .QUALIF, .UNITH, .ORD, .NUMBER, .MIXED, .AMPERS],
    [.TYPE, .ROAD, .DIRECT, .PROV, .CITY, .QUALIF, .UNITH, .AMPERS], [.UNITH],
    [.QUINT, .TYPE, .DIRECT, .PROV, .CITY, .QUALIF, .UNITH, .NUMBER, .PCH], [.TYPE, .DIRECT, .PROV, .QUALIF, .UNITH],
    [.PROV, .NATION, .PCH]]),
  (22, [[.RR, .MIXED, .FRACT], [.DOUBLE, .SINGLE, .TYPE, .ROAD, .DIRECT, .QUALIF, .ORD, .MILE, .NUMBER, .MIXED, .FRACT, .SLASH],
    [.ROAD, .DIRECT, .CITY, .QUALIF, .UNITH, .AMPERS], [.TYPE, .DIRECT, .PROV, .CITY, .QUALIF, .UNITH], [.QUALIF, .UNITH],
    [.QUINT, .TYPE, .DIRECT, .PROV, .CITY, .NATION, .QUALIF, .UNITH, .NUMBER, .PCH],
    [.QUINT, .TYPE, .DIRECT, .PROV, .NATION, .QUALIF, .UNITH, .NUMBER, .DASH], [.PROV, .NATION, .QUALIF]]),
  (22, [[.RR, .MIXED, .FRACT], [.DOUBLE, .SINGLE, .TYPE, .ROAD, .DIRECT, .QUALIF, .ORD, .MILE, .NUMBER, .MIXED, .FRACT, .SLASH],
    [.ROAD, .DIRECT, .CITY, .QUALIF, .UNITH, .AMPERS], [.TYPE, .DIRECT, .PROV, .CITY, .QUALIF, .UNITH], [.DIRECT, .QUALIF, .UNITH],
    [.QUINT, .TYPE, .DIRECT, .PROV, .CITY, .QUALIF, .UNITH, .NUMBER, .PCH], [.TYPE, .DIRECT, .PROV, .CITY, .QUALIF, .UNITH],
    [.QUINT, .PROV, .NATION, .QUALIF, .UNITH, .NUMBER, .DASH], [.PROV, .NATION, .QUALIF]]),
  (23, [[.RR, .MIXED, .FRACT], [.DOUBLE, .SINGLE, .TYPE, .ROAD, .DIRECT, .QUALIF, .ORD, .MILE, .NUMBER, .MIXED, .FRACT, .SLASH],
    [.ROAD, .DIRECT, .CITY, .QUALIF, .UNITH, .AMPERS], [.TYPE, .DIRECT, .QUALIF, .UNITH],
    [.TYPE, .DIRECT, .PROV, .QUALIF, .UNITH, .PCH], [.QUAD, .TYPE, .DIRECT, .CITY, .NATION, .QUALIF, .UNITH, .NUMBER],
    [.QUAD, .QUINT, .TYPE, .DIRECT, .PROV, .CITY, .NATION, .QUALIF, .UNITH, .NUMBER], [.PROV, .NATION]]),
  (23, [[.RR, .MIXED, .FRACT], [.DOUBLE, .SINGLE, .TYPE, .ROAD, .DIRECT, .QUALIF, .ORD, .MILE, .NUMBER, .MIXED, .FRACT, .SLASH],
    [.ROAD, .DIRECT, .CITY, .QUALIF, .UNITH, .AMPERS], [.TYPE, .DIRECT, .CITY, .QUALIF, .UNITH],
    [.QUINT, .TYPE, .DIRECT, .PROV, .CITY, .QUALIF, .UNITH, .NUMBER, .PCH], [.TYPE, .DIRECT, .PROV, .CITY, .QUALIF, .UNITH],
    [.TYPE, .DIRECT, .CITY, .QUALIF, .UNITH], [.QUINT, .DIRECT, .PROV, .CITY, .NATION, .QUALIF, .UNITH, .NUMBER], [.PROV, .NATION]]),
  (23, [[.RR, .MIXED, .FRACT], [.DOUBLE, .SINGLE, .TYPE, .ROAD, .DIRECT, .QUALIF, .ORD, .MILE, .NUMBER, .MIXED, .FRACT, .SLASH],
    [.ROAD, .DIRECT, .CITY, .QUALIF, .UNITH, .AMPERS], [.TYPE, .DIRECT, .PROV, .QUALIF, .UNITH], [.PROV, .QUALIF, .UNITH],
    [.TYPE, .DIRECT, .PROV, .CITY, .QUALIF, .UNITH], [.QUINT, .DIRECT, .PROV, .CITY, .NATION, .QUALIF, .UNITH, .NUMBER],
    [.PROV, .NATION]]),
  (23, [[.RR, .MIXED, .FRACT], [.DOUBLE, .SINGLE, .TYPE, .ROAD, .DIRECT, .QUALIF, .ORD, .MILE, .NUMBER, .MIXED, .FRACT, .SLASH],
    [.ROAD, .DIRECT, .CITY, .QUALIF, .UNITH, .AMPERS], [.TYPE, .DIRECT, .PROV, .QUALIF, .UNITH], [.DIRECT, .PROV, .QUALIF, .UNITH],
    [.TYPE, .DIRECT, .PROV, .QUALIF, .UNITH], [.TYPE, .DIRECT, .PROV, .CITY, .QUALIF, .UNITH],
    [.QUINT, .DIRECT, .PROV, .CITY, .NATION, .QUALIF, .UNITH, .NUMBER], [.PROV, .NATION]]),
  (24, [[.RR, .MIXED, .FRACT], [.DOUBLE, .SINGLE, .TYPE, .ROAD, .DIRECT, .QUALIF, .ORD, .MILE, .NUMBER, .MIXED, .FRACT, .SLASH],
    [.ROAD, .DIRECT, .CITY, .QUALIF, .UNITH, .AMPERS], [.TYPE, .DIRECT, .PROV, .CITY, .QUALIF, .UNITH],
    [.TYPE, .DIRECT, .PROV, .CITY, .QUALIF, .UNITH], [.PROV, .CITY, .QUALIF, .UNITH],
    [.TYPE, .DIRECT, .PROV, .CITY, .QUALIF, .UNITH], [.QUINT, .PROV, .CITY, .NATION, .QUALIF, .UNITH, .NUMBER],
    [.PROV, .CITY, .NATION, .QUALIF]]),
  (24, [[.RR, .MIXED, .FRACT], [.DOUBLE, .SINGLE, .TYPE, .ROAD, .DIRECT, .QUALIF, .ORD, .MILE, .NUMBER, .MIXED, .FRACT, .SLASH],
    [.ROAD, .DIRECT, .CITY, .QUALIF, .UNITH, .AMPERS], [.TYPE, .DIRECT, .PROV, .CITY, .QUALIF, .UNITH],
    [.TYPE, .DIRECT, .PROV, .CITY, .QUALIF, .UNITH], [.DIRECT, .PROV, .QUALIF, .UNITH], [.TYPE, .DIRECT, .PROV, .QUALIF, .UNITH],
    [.PROV], [.QUINT, .PROV, .CITY, .NATION, .QUALIF, .UNITH, .NUMBER], [.PROV, .CITY, .NATION, .QUALIF]]),
  (25, [[.RR, .MIXED, .FRACT], [.DOUBLE, .SINGLE, .TYPE, .ROAD, .DIRECT, .QUALIF, .ORD, .MILE, .NUMBER, .MIXED, .FRACT, .SLASH],
    [.ROAD, .DIRECT, .CITY, .QUALIF, .UNITH, .AMPERS], [.TYPE, .DIRECT, .PROV, .CITY, .QUALIF, .UNITH], [.DIRECT, .QUALIF, .UNITH],
    [.QUINT, .TYPE, .DIRECT, .PROV, .CITY, .QUALIF, .UNITH, .NUMBER, .PCH],
    [.QUINT, .TYPE, .DIRECT, .PROV, .CITY, .NATION, .QUALIF, .UNITH, .NUMBER], [.DIRECT, .PROV, .CITY, .NATION, .QUALIF, .UNITH],
    [.PROV]]),
  (25, [[.RR, .MIXED, .FRACT], [.DOUBLE, .SINGLE, .TYPE, .ROAD, .DIRECT, .QUALIF, .ORD, .MILE, .NUMBER, .MIXED, .FRACT, .SLASH],
    [.ROAD, .DIRECT, .CITY, .QUALIF, .UNITH, .AMPERS], [.TYPE, .DIRECT, .PROV, .CITY, .QUALIF, .UNITH],
    [.DIRECT, .CITY, .QUALIF, .UNITH], [.QUINT, .TYPE, .DIRECT, .PROV, .CITY, .NATION, .QUALIF, .UNITH, .NUMBER, .PCH],
    [.TYPE, .DIRECT, .PROV, .CITY, .QUALIF, .UNITH], [.QUINT, .PROV, .CITY, .NATION, .QUALIF, .UNITH, .NUMBER],
    [.DIRECT, .PROV, .CITY, .NATION, .QUALIF, .UNITH], [.PROV]]),
  (25, [[.RR, .MIXED, .FRACT], [.DOUBLE, .SINGLE, .TYPE, .ROAD, .DIRECT, .QUALIF, .ORD, .MILE, .NUMBER, .MIXED, .FRACT, .SLASH],
    [.ROAD, .DIRECT, .CITY, .QUALIF, .UNITH, .AMPERS], [.TYPE, .DIRECT, .PROV, .CITY, .QUALIF, .UNITH],
    [.TYPE, .DIRECT, .CITY, .QUALIF, .UNITH], [.QUINT, .TYPE, .DIRECT, .PROV, .CITY, .NATION, .QUALIF, .UNITH, .NUMBER],
    [.TYPE, .DIRECT, .PROV, .CITY, .NATION, .QUALIF, .UNITH], [], [.QUINT, .NATION, .NUMBER, .PCH]]),
  (25, [[.RR, .MIXED, .FRACT], [.DOUBLE, .SINGLE, .TYPE, .ROAD, .DIRECT, .QUALIF, .ORD, .MILE, .NUMBER, .MIXED, .FRACT, .SLASH],
    [.ROAD, .DIRECT, .CITY, .QUALIF, .UNITH, .AMPERS], [.TYPE, .DIRECT, .PROV, .CITY, .QUALIF, .UNITH],
    [.TYPE, .DIRECT, .CITY, .QUALIF, .UNITH], [.QUINT, .TYPE, .DIRECT, .PROV, .CITY, .NATION, .QUALIF, .UNITH, .NUMBER],
    [.TYPE, .DIRECT, .PROV, .CITY, .NATION, .QUALIF, .UNITH], [.PROV], [], [.QUINT, .NATION, .NUMBER, .PCH]]),
  (26, [[.RR, .MIXED, .FRACT], [.SINGLE, .WORD, .TYPE, .ROAD, .QUALIF, .ORD, .MILE, .NUMBER, .MIXED, .FRACT],
    [.DOUBLE, .SINGLE, .TYPE, .ROAD, .DIRECT, .CITY, .QUALIF, .ORD, .NUMBER, .MIXED, .AMPERS],
    [.WORD, .ROAD, .DIRECT, .PROV, .CITY, .QUALIF, .UNITH, .NUMBER, .AMPERS], [.DIRECT, .CITY, .QUALIF, .UNITH], [], [.PROV],
    [.QUINT, .WORD, .PROV, .NATION, .NUMBER], [.QUAD, .NATION]]),
  (26, [[.RR, .MIXED, .FRACT], [.SINGLE, .WORD, .TYPE, .ROAD, .QUALIF, .ORD, .MILE, .NUMBER, .MIXED, .FRACT],
    [.DOUBLE, .SINGLE, .TYPE, .ROAD, .DIRECT, .CITY, .QUALIF, .ORD, .NUMBER, .MIXED, .AMPERS],
    [.WORD, .ROAD, .DIRECT, .PROV, .CITY, .QUALIF, .UNITH, .NUMBER, .AMPERS], [.DIRECT, .CITY, .QUALIF, .UNITH], [], [], [.PROV],
    [.QUINT, .WORD, .PROV, .NATION, .NUMBER], [.QUAD, .NATION, .NUMBER]]),
  (27, [[.RR, .MIXED, .FRACT], [.DOUBLE, .SINGLE, .TYPE, .ROAD, .DIRECT, .QUALIF, .ORD, .MILE, .NUMBER, .MIXED, .FRACT, .SLASH],
    [.ROAD, .DIRECT, .CITY, .QUALIF, .UNITH, .AMPERS], [.TYPE, .DIRECT, .QUALIF, .UNITH],
    [.TYPE, .DIRECT, .PROV, .QUALIF, .UNITH, .NUMBER], [.QUAD, .TYPE, .DIRECT, .PROV, .CITY, .NATION, .QUALIF, .UNITH, .PCT],
    [.QUAD, .TYPE, .DIRECT, .PROV, .CITY, .QUALIF], [.WORD, .TYPE, .DIRECT, .CITY, .QUALIF, .UNITH, .NUMBER],
    [.QUINT, .NATION, .NUMBER], [.NATION]]),
  (27, [[.RR, .MIXED, .FRACT], [.DOUBLE, .SINGLE, .TYPE, .ROAD, .DIRECT, .QUALIF, .ORD, .MILE, .NUMBER, .MIXED, .FRACT, .SLASH],
    [.ROAD, .DIRECT, .CITY, .QUALIF, .UNITH, .AMPERS], [.TYPE, .DIRECT, .QUALIF, .UNITH], [.TYPE, .DIRECT, .PROV, .QUALIF, .UNITH],
    [.TYPE, .DIRECT, .PROV, .CITY, .NATION, .QUALIF, .UNITH, .NUMBER, .PCT, .DASH], [.TYPE, .DIRECT, .PROV, .CITY, .QUALIF, .UNITH],
    [.TYPE, .DIRECT, .PROV, .CITY, .QUALIF], [.WORD, .TYPE, .DIRECT, .CITY, .QUALIF, .UNITH, .NUMBER], [.QUINT, .NATION, .NUMBER],
    [.NATION]]),
  (27, [[.RR, .MIXED, .FRACT], [.DOUBLE, .SINGLE, .TYPE, .ROAD, .DIRECT, .QUALIF, .ORD, .MILE, .NUMBER, .MIXED, .FRACT, .SLASH],
    [.ROAD, .DIRECT, .CITY, .QUALIF, .UNITH, .AMPERS], [.TYPE, .DIRECT, .PROV, .CITY, .QUALIF],
    [.WORD, .TYPE, .DIRECT, .PROV, .CITY, .QUALIF, .UNITH], [.TYPE, .DIRECT, .PROV, .CITY, .QUALIF], [], [.PROV],
    [.QUAD, .QUINT, .PROV, .NATION, .NUMBER, .PCT], [.QUAD, .PROV, .NATION, .NUMBER]]),
  (27, [[.RR, .MIXED, .FRACT], [.DOUBLE, .SINGLE, .TYPE, .ROAD, .DIRECT, .QUALIF, .ORD, .MILE, .NUMBER, .MIXED, .FRACT, .SLASH],
    [.ROAD, .DIRECT, .CITY, .QUALIF, .UNITH, .AMPERS], [.TYPE, .DIRECT, .PROV, .CITY, .QUALIF],
    [.WORD, .TYPE, .DIRECT, .PROV, .CITY, .QUALIF, .UNITH], [.TYPE, .DIRECT, .PROV, .CITY, .QUALIF], [], [.PROV, .NUMBER, .PCH],
    [.QUAD, .PROV, .NATION], [.QUAD, .QUINT, .PROV, .NATION, .NUMBER], [.PROV, .NATION]]),
  (28, [[.RR, .MIXED, .FRACT], [.DOUBLE, .SINGLE, .WORD, .TYPE, .ROAD, .DIRECT, .QUALIF, .MILE, .NUMBER, .MIXED, .FRACT, .SLASH],
    [.WORD, .ROAD, .DIRECT, .PROV, .CITY, .QUALIF, .ORD, .NUMBER, .MIXED],
    [.TYPE, .DIRECT, .CITY, .QUALIF, .UNITH, .ORD, .NUMBER, .MIXED, .AMPERS], [], [.PROV], [.QUINT, .NUMBER],
    [.QUAD, .QUINT, .PROV, .NATION, .NUMBER, .PCH]]),
  (28, [[.RR, .MIXED, .FRACT], [.DOUBLE, .SINGLE, .WORD, .TYPE, .ROAD, .DIRECT, .QUALIF, .MILE, .NUMBER, .MIXED, .FRACT, .SLASH],
    [.WORD, .ROAD, .DIRECT, .PROV, .CITY, .QUALIF, .ORD, .NUMBER, .MIXED],
    [.TYPE, .DIRECT, .CITY, .QUALIF, .UNITH, .ORD, .NUMBER, .MIXED, .AMPERS], [], [], [.PROV],
    [.QUINT, .PROV, .NATION, .NUMBER, .PCT], [.QUAD, .PROV, .NATION, .NUMBER]]),
  (29, [[.RR, .MIXED, .FRACT], [.DOUBLE, .SINGLE, .TYPE, .ROAD, .DIRECT, .QUALIF, .MILE, .NUMBER, .FRACT],
    [.DOUBLE, .SINGLE, .TYPE, .ROAD, .DIRECT, .QUALIF, .UNITH, .AMPERS], [.TYPE, .DIRECT, .PROV, .CITY, .QUALIF, .UNITH],
    [.TYPE, .DIRECT, .QUALIF, .UNITH], [.QUINT, .TYPE, .DIRECT, .PROV, .NATION, .QUALIF, .UNITH, .NUMBER], [.PROV, .NATION]]),
  (29, [[.RR, .MIXED, .FRACT], [.DOUBLE, .SINGLE, .TYPE, .ROAD, .DIRECT, .QUALIF, .MILE, .NUMBER, .MIXED, .FRACT],
    [.DOUBLE, .SINGLE, .TYPE, .ROAD, .DIRECT, .QUALIF, .UNITH, .AMPERS], [.TYPE, .DIRECT, .CITY, .QUALIF, .UNITH],
    [.QUINT, .TYPE, .DIRECT, .PROV, .CITY, .NATION, .QUALIF, .UNITH, .NUMBER, .PCH], [.TYPE, .DIRECT, .CITY, .QUALIF, .UNITH],
    [.QUINT, .TYPE, .DIRECT, .PROV, .CITY, .NATION, .QUALIF, .UNITH, .NUMBER], [.PROV, .NATION]]),
  (29, [[.DIRECT, .RR, .MILE, .NUMBER, .MIXED, .FRACT], [], [.CITY], [], [.PROV], [.QUINT, .PROV], [.QUAD, .PROV, .NATION]]),
  (29, [[.DIRECT, .RR, .MILE, .NUMBER, .MIXED, .FRACT], [], [.CITY], [], [], [.PROV], [.QUINT, .PROV],
    [.QUAD, .PROV, .NATION, .NUMBER]]),
  (30, [[.RR, .MIXED, .FRACT], [.DOUBLE, .SINGLE, .TYPE, .ROAD, .DIRECT, .QUALIF, .ORD, .MILE, .NUMBER, .MIXED, .FRACT, .SLASH],
    [.TYPE, .ROAD, .DIRECT, .CITY, .QUALIF, .UNITH, .ORD, .NUMBER, .MIXED, .AMPERS], [],
    [.DIRECT, .PROV, .QUALIF, .UNITH, .NUMBER, .PCH],
    [.QUAD, .QUINT, .TYPE, .DIRECT, .PROV, .CITY, .NATION, .QUALIF, .UNITH, .NUMBER], [.QUAD, .PROV, .NATION]]),
  (30, [[.RR, .MIXED, .FRACT], [.DOUBLE, .SINGLE, .TYPE, .ROAD, .DIRECT, .QUALIF, .ORD, .MILE, .NUMBER, .MIXED, .FRACT, .SLASH],
    [.TYPE, .ROAD, .DIRECT, .CITY, .QUALIF, .UNITH, .ORD, .NUMBER, .MIXED, .AMPERS], [.QUALIF, .UNITH],
    [.TYPE, .DIRECT, .CITY, .QUALIF, .UNITH, .NUMBER, .PCH],
    [.QUAD, .QUINT, .TYPE, .DIRECT, .PROV, .CITY, .NATION, .QUALIF, .UNITH, .NUMBER, .PCH],
    [.QUAD, .QUINT, .TYPE, .DIRECT, .PROV, .NATION, .QUALIF, .UNITH, .NUMBER], [.PROV, .NATION]]),
  (31, [[.RR, .MIXED, .FRACT], [.DOUBLE, .SINGLE, .TYPE, .ROAD, .DIRECT, .QUALIF, .ORD, .MILE, .NUMBER, .MIXED, .FRACT, .SLASH],
    [.TYPE, .ROAD, .DIRECT, .CITY, .QUALIF, .UNITH, .AMPERS], [.DIRECT, .PROV, .CITY, .QUALIF, .UNITH],
    [.TYPE, .DIRECT, .PROV, .CITY, .QUALIF, .UNITH], [.PROV, .CITY, .QUALIF, .UNITH],
    [.TYPE, .DIRECT, .PROV, .CITY, .QUALIF, .UNITH], [.QUINT, .PROV, .CITY, .NATION, .QUALIF, .UNITH, .NUMBER],
    [.PROV, .CITY, .NATION]]),
  (31, [[.RR, .MIXED, .FRACT], [.DOUBLE, .SINGLE, .TYPE, .ROAD, .DIRECT, .QUALIF, .ORD, .MILE, .NUMBER, .MIXED, .FRACT, .SLASH],
    [.TYPE, .ROAD, .DIRECT, .CITY, .QUALIF, .UNITH, .AMPERS], [.DIRECT, .PROV, .CITY, .QUALIF, .UNITH],
    [.TYPE, .DIRECT, .PROV, .CITY, .QUALIF, .UNITH], [.DIRECT, .PROV, .QUALIF, .UNITH], [.TYPE, .DIRECT, .PROV, .QUALIF, .UNITH],
    [.PROV], [.QUINT, .PROV, .CITY, .NATION, .QUALIF, .UNITH, .NUMBER], [.PROV, .CITY, .NATION]]),
  (32, [[.RR, .MIXED, .FRACT], [.DOUBLE, .SINGLE, .WORD, .ROAD, .DIRECT, .QUALIF, .ORD, .MILE, .NUMBER, .MIXED, .FRACT],
    [.DOUBLE, .SINGLE, .TYPE, .ROAD, .DIRECT, .CITY, .QUALIF, .UNITH, .ORD, .NUMBER, .MIXED, .AMPERS],
    [.TYPE, .ROAD, .DIRECT, .PROV, .CITY, .QUALIF, .UNITH, .AMPERS], [.UNITH],
    [.QUINT, .TYPE, .DIRECT, .PROV, .CITY, .QUALIF, .UNITH, .NUMBER, .PCH],
    [.QUINT, .TYPE, .DIRECT, .PROV, .NATION, .QUALIF, .UNITH, .NUMBER], [.PROV, .NATION]]),
  (32, [[.RR, .MIXED, .FRACT], [.DOUBLE, .SINGLE, .WORD, .ROAD, .DIRECT, .QUALIF, .ORD, .MILE, .NUMBER, .MIXED, .FRACT],
    [.DOUBLE, .SINGLE, .TYPE, .ROAD, .DIRECT, .CITY, .QUALIF, .UNITH, .ORD, .NUMBER, .MIXED, .AMPERS],
    [.TYPE, .ROAD, .DIRECT, .PROV, .CITY, .QUALIF, .UNITH, .AMPERS], [.DIRECT, .QUALIF, .UNITH],
    [.TYPE, .DIRECT, .PROV, .QUALIF, .UNITH, .NUMBER, .PCH], [.QUAD, .TYPE, .DIRECT, .PROV, .CITY, .QUALIF, .UNITH],
    [.QUAD, .QUINT, .TYPE, .DIRECT, .PROV, .CITY, .NATION, .QUALIF, .UNITH, .NUMBER], [.PROV, .NATION]])]

def vatican : List (Nat × List (List InType)) := [
  (1, [[.TYPE, .PLACEN, .BOXH], [], [.DOUBLE, .SINGLE], [], [.NATION]]),
  (1, [[.TYPE, .PLACEN, .BOXH], [], [], [], [], [.CITY, .NATION]]),
  (2, [[.TYPE, .PLACEN, .BOXH], [], [], [.QUINT, .DOUBLE, .SINGLE, .CITY, .NUMBER], [], []]),
  (2, [[.TYPE, .PLACEN, .BOXH], [], [], [.DOUBLE, .SINGLE, .CITY, .NUMBER, .DASH], [], [], []]),
  (4, [[.PLACEN], [.NUMBER], [], [.DOUBLE, .SINGLE], [], [.NATION]]),
  (4, [[.PLACEN], [.NUMBER], [], [], [], [], [.CITY, .NATION]]),
  (5, [[.PLACEN], [], [], [], [.QUINT, .DOUBLE, .SINGLE, .CITY, .NUMBER], [], []]),
  (5, [[.PLACEN], [], [], [], [.DOUBLE, .SINGLE, .CITY, .NUMBER, .DASH], [], [], []]),
  (6, [[], [.TYPE, .BOXH], [], [], [.CITY, .NATION]]),
  (6, [[], [], [.TYPE, .NUMBER, .DASH], [.QUINT, .TYPE, .CITY, .BOXH], [.DOUBLE, .SINGLE, .TYPE, .CITY, .NATION],
    [.DOUBLE, .SINGLE, .CITY, .NATION, .NUMBER]])]

end AS.ApartTable
