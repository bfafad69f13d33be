import Verif.Lemmas.Forms
/-
The grammars that come with the sources, with numbers in place of the names of sections. Written by tools/forms.py.
-/
namespace AS.FormData

def andorra : Coded where
  metas := [
    (c!"ADDRESS", [[1, 2]]),
    (c!"micro", [[6, 5], [6, 5, 7]]),
    (c!"macro", [[4, 9, 10, 11], [4, 9, 11], [4, 9], [9, 10, 11], [9, 11], [9]])]
  rules := [
    (c!"placename", [
      ⟨[.PLACEN], [.BLDNG], c!"0.7"⟩,
      ⟨[.PLACEN, .WORD], [.BLDNG, .BLDNG], c!"0.6"⟩,
      ⟨[.PLACEN, .WORD, .WORD], [.BLDNG, .BLDNG, .BLDNG], c!"0.5"⟩,
      ⟨[.PLACEN, .WORD, .WORD, .WORD], [.BLDNG, .BLDNG, .BLDNG, .BLDNG], c!"0.4"⟩,
      ⟨[.BUILDT], [.BLDNG], c!"0.7"⟩,
      ⟨[.BUILDT, .WORD], [.BLDNG, .BLDNG], c!"0.6"⟩,
      ⟨[.BUILDT, .WORD, .WORD], [.BLDNG, .BLDNG, .BLDNG], c!"0.5"⟩,
      ⟨[.BUILDT, .WORD, .WORD, .WORD], [.BLDNG, .BLDNG, .BLDNG, .BLDNG], c!"0.4"⟩]),
    (c!"postal", [
      ⟨[.MIXED], [.POSTAL], c!"0.7"⟩,
      ⟨[.NUMBER], [.POSTAL], c!"0.4"⟩,
      ⟨[.DOUBLE, .NUMBER], [.IGNORE, .POSTAL], c!"0.4"⟩]),
    (c!"streetname", [
      ⟨[.TYPE, .WORD], [.PRETYP, .STREET], c!"0.7"⟩,
      ⟨[.TYPE, .WORD, .WORD], [.PRETYP, .STREET, .STREET], c!"0.6"⟩,
      ⟨[.TYPE, .WORD, .WORD, .WORD], [.PRETYP, .STREET, .STREET, .STREET], c!"0.5"⟩,
      ⟨[.TYPE, .WORD, .WORD, .WORD, .WORD], [.PRETYP, .STREET, .STREET, .STREET, .STREET], c!"0.4"⟩,
      ⟨[.WORD], [.STREET], c!"0.4"⟩,
      ⟨[.WORD, .WORD], [.STREET, .STREET], c!"0.3"⟩,
      ⟨[.WORD, .WORD, .WORD], [.STREET, .STREET, .STREET], c!"0.2"⟩,
      ⟨[.WORD, .WORD, .WORD, .WORD], [.STREET, .STREET, .STREET, .STREET], c!"0.1"⟩]),
    (c!"housenumber", [
      ⟨[.NUMBER], [.HOUSE], c!"0.5"⟩,
      ⟨[.NUMBER, .NUMBER], [.HOUSE, .HOUSE], c!"0.5"⟩,
      ⟨[.NUMBER, .DASH, .NUMBER], [.HOUSE, .IGNORE, .HOUSE], c!"0.5"⟩]),
    (c!"unit", [
      ⟨[.UNITH, .UNITT], [.UNITH, .UNITT], c!"0.8"⟩,
      ⟨[.UNITH, .WORD], [.UNITH, .BADTOKEN], c!"0.7"⟩,
      ⟨[.UNITH, .NUMBER], [.UNITH, .UNITT], c!"0.7"⟩,
      ⟨[.UNITH, .MIXED], [.UNITH, .UNITT], c!"0.7"⟩,
      ⟨[.UNITH, .WORD, .WORD], [.UNITH, .UNITT, .UNITT], c!"0.4"⟩]),
    (c!"pobox", [
      ⟨[.BOXH, .NUMBER], [.BOXH, .BOXT], c!"0.7"⟩]),
    (c!"city", [
      ⟨[.CITY], [.CITY], c!"0.9"⟩,
      ⟨[.WORD], [.CITY], c!"0.5"⟩,
      ⟨[.WORD, .WORD], [.CITY, .CITY], c!"0.3"⟩]),
    (c!"region", [
      ⟨[.PROV], [.PROV], c!"0.9"⟩]),
    (c!"country", [
      ⟨[.NATION], [.NATION], c!"0.9"⟩])]

def australia : Coded where
  metas := [
    (c!"ADDRESS", [[1, 5]]),
    (c!"micro", [[8, 2], [7, 8, 2], [14]]),
    (c!"streetname", [[3, 9, 4], [3, 9], [9, 4], [9]]),
    (c!"prefixtype", [[10, 12], [10], [12]]),
    (c!"suffixtype", [[13, 11], [13], [11]]),
    (c!"macro", [[15, 17, 16, 18], [15, 17, 18], [15, 17, 16], [15, 17]])]
  rules := [
    (c!"placename", [
      ⟨[.PLACEN], [.BLDNG], c!"0.7"⟩,
      ⟨[.PLACEN, .WORD], [.BLDNG, .BLDNG], c!"0.6"⟩,
      ⟨[.PLACEN, .WORD, .WORD], [.BLDNG, .BLDNG, .BLDNG], c!"0.5"⟩,
      ⟨[.PLACEN, .WORD, .WORD, .WORD], [.BLDNG, .BLDNG, .BLDNG, .BLDNG], c!"0.4"⟩,
      ⟨[.BUILDT], [.BLDNG], c!"0.7"⟩,
      ⟨[.BUILDT, .WORD], [.BLDNG, .BLDNG], c!"0.6"⟩,
      ⟨[.BUILDT, .WORD, .WORD], [.BLDNG, .BLDNG, .BLDNG], c!"0.5"⟩,
      ⟨[.BUILDT, .WORD, .WORD, .WORD], [.BLDNG, .BLDNG, .BLDNG, .BLDNG], c!"0.4"⟩]),
    (c!"unit", [
      ⟨[.UNITH], [.UNITH], c!"0.5"⟩,
      ⟨[.UNITH, .NUMBER], [.UNITH, .UNITT], c!"0.4"⟩,
      ⟨[.UNITH, .WORD], [.UNITH, .UNITT], c!"0.4"⟩,
      ⟨[.UNITH, .WORD, .WORD], [.UNITH, .UNITT, .UNITT], c!"0.4"⟩]),
    (c!"housenumber", [
      ⟨[.NUMBER], [.HOUSE], c!"0.3"⟩,
      ⟨[.NUMBER, .SLASH, .NUMBER], [.IGNORE, .IGNORE, .HOUSE], c!"0.3"⟩,
      ⟨[.NUMBER, .DASH, .NUMBER], [.HOUSE, .IGNORE, .IGNORE], c!"0.3"⟩]),
    (c!"basename", [
      ⟨[.WORD], [.STREET], c!"0.4"⟩,
      ⟨[.WORD, .WORD], [.STREET, .STREET], c!"0.3"⟩,
      ⟨[.WORD, .WORD, .WORD], [.STREET, .STREET, .STREET], c!"0.2"⟩,
      ⟨[.WORD, .WORD, .WORD, .WORD], [.STREET, .STREET, .STREET, .STREET], c!"0.1"⟩]),
    (c!"prefix", [
      ⟨[.QUALIF, .DIRECT], [.QUALIF, .PREDIR], c!"0.8"⟩,
      ⟨[.DIRECT, .QUALIF], [.PREDIR, .QUALIF], c!"0.8"⟩,
      ⟨[.QUALIF], [.QUALIF], c!"0.8"⟩,
      ⟨[.DIRECT], [.PREDIR], c!"0.7"⟩]),
    (c!"suffix", [
      ⟨[.DIRECT, .QUALIF], [.SUFDIR, .QUALIF], c!"0.8"⟩,
      ⟨[.QUALIF, .DIRECT], [.QUALIF, .SUFDIR], c!"0.8"⟩,
      ⟨[.DIRECT], [.SUFDIR], c!"0.7"⟩,
      ⟨[.QUALIF], [.QUALIF], c!"0.8"⟩]),
    (c!"ptype", [
      ⟨[.TYPE], [.PRETYP], c!"0.7"⟩]),
    (c!"stype", [
      ⟨[.TYPE], [.SUFTYP], c!"0.7"⟩]),
    (c!"pobox", [
      ⟨[.NUMBER, .SINGLE, .TYPE], [.BOXT, .BOXH, .BOXH], c!"0.2"⟩,
      ⟨[.BOXH, .NUMBER], [.BOXH, .BOXT], c!"0.8"⟩]),
    (c!"city", [
      ⟨[.DIRECT, .CITY], [.CITY, .CITY], c!"0.6"⟩,
      ⟨[.CITY], [.CITY], c!"0.8"⟩,
      ⟨[.DIRECT, .WORD, .WORD, .WORD, .WORD], [.CITY, .CITY, .CITY, .CITY, .CITY], c!"0.3"⟩,
      ⟨[.DIRECT, .WORD, .WORD, .WORD], [.CITY, .CITY, .CITY, .CITY], c!"0.4"⟩,
      ⟨[.DIRECT, .WORD, .WORD], [.CITY, .CITY, .CITY], c!"0.5"⟩,
      ⟨[.DIRECT, .WORD], [.CITY, .CITY], c!"0.5"⟩,
      ⟨[.WORD, .WORD, .WORD, .WORD], [.CITY, .CITY, .CITY, .CITY], c!"0.3"⟩,
      ⟨[.WORD, .WORD, .WORD], [.CITY, .CITY, .CITY], c!"0.2"⟩,
      ⟨[.WORD, .WORD], [.CITY, .CITY], c!"0.2"⟩,
      ⟨[.WORD], [.CITY], c!"0.2"⟩]),
    (c!"postal", [
      ⟨[.QUAD], [.POSTAL], c!"0.7"⟩,
      ⟨[.NUMBER], [.POSTAL], c!"0.6"⟩]),
    (c!"prov", [
      ⟨[.PROV], [.PROV], c!"0.8"⟩]),
    (c!"nation", [
      ⟨[.NATION], [.NATION], c!"0.8"⟩])]

def austria : Coded where
  metas := [
    (c!"ADDRESS", [[1, 2]]),
    (c!"micro", [[5, 6], [5, 6, 7], [8]]),
    (c!"macro", [[4, 9, 10, 11], [4, 9, 11], [4, 9]])]
  rules := [
    (c!"placename", [
      ⟨[.PLACEN], [.BLDNG], c!"0.7"⟩,
      ⟨[.PLACEN, .WORD], [.BLDNG, .BLDNG], c!"0.6"⟩,
      ⟨[.PLACEN, .WORD, .WORD], [.BLDNG, .BLDNG, .BLDNG], c!"0.5"⟩,
      ⟨[.PLACEN, .WORD, .WORD, .WORD], [.BLDNG, .BLDNG, .BLDNG, .BLDNG], c!"0.4"⟩,
      ⟨[.BUILDT], [.BLDNG], c!"0.7"⟩,
      ⟨[.BUILDT, .WORD], [.BLDNG, .BLDNG], c!"0.6"⟩,
      ⟨[.BUILDT, .WORD, .WORD], [.BLDNG, .BLDNG, .BLDNG], c!"0.5"⟩,
      ⟨[.BUILDT, .WORD, .WORD, .WORD], [.BLDNG, .BLDNG, .BLDNG, .BLDNG], c!"0.4"⟩]),
    (c!"postal", [
      ⟨[.QUAD], [.POSTAL], c!"0.7"⟩,
      ⟨[.NUMBER], [.POSTAL], c!"0.4"⟩,
      ⟨[.SINGLE, .QUAD], [.IGNORE, .POSTAL], c!"0.7"⟩,
      ⟨[.SINGLE, .NUMBER], [.IGNORE, .POSTAL], c!"0.4"⟩,
      ⟨[.SINGLE, .DASH, .QUAD], [.IGNORE, .IGNORE, .POSTAL], c!"0.7"⟩,
      ⟨[.SINGLE, .DASH, .NUMBER], [.IGNORE, .IGNORE, .POSTAL], c!"0.4"⟩]),
    (c!"streetname", [
      ⟨[.WORD, .TYPE], [.STREET, .SUFTYP], c!"0.7"⟩,
      ⟨[.WORD, .WORD, .TYPE], [.STREET, .STREET, .SUFTYP], c!"0.6"⟩,
      ⟨[.WORD, .WORD, .WORD, .TYPE], [.STREET, .STREET, .STREET, .SUFTYP], c!"0.5"⟩,
      ⟨[.WORD, .WORD, .WORD, .WORD, .TYPE], [.STREET, .STREET, .STREET, .STREET, .SUFTYP], c!"0.4"⟩,
      ⟨[.WORD], [.STREET], c!"0.4"⟩,
      ⟨[.WORD, .WORD], [.STREET, .STREET], c!"0.3"⟩,
      ⟨[.WORD, .WORD, .WORD], [.STREET, .STREET, .STREET], c!"0.2"⟩,
      ⟨[.WORD, .WORD, .WORD, .WORD], [.STREET, .STREET, .STREET, .STREET], c!"0.1"⟩]),
    (c!"housenumber", [
      ⟨[.NUMBER], [.HOUSE], c!"0.5"⟩,
      ⟨[.NUMBER, .SINGLE], [.HOUSE, .IGNORE], c!"0.6"⟩,
      ⟨[.NUMBER, .DOUBLE], [.HOUSE, .IGNORE], c!"0.5"⟩,
      ⟨[.NUMBER, .DASH, .NUMBER], [.HOUSE, .IGNORE, .IGNORE], c!"0.7"⟩,
      ⟨[.NUMBER, .SLASH, .NUMBER], [.HOUSE, .IGNORE, .IGNORE], c!"0.7"⟩,
      ⟨[.NUMBER, .PUNCT, .NUMBER], [.HOUSE, .IGNORE, .IGNORE], c!"0.7"⟩]),
    (c!"unit", [
      ⟨[.UNITH, .UNITT], [.UNITH, .UNITT], c!"0.8"⟩,
      ⟨[.UNITH, .WORD], [.UNITH, .BADTOKEN], c!"0.7"⟩,
      ⟨[.UNITH, .NUMBER], [.UNITH, .UNITT], c!"0.7"⟩,
      ⟨[.UNITH, .MIXED], [.UNITH, .UNITT], c!"0.7"⟩,
      ⟨[.UNITH, .WORD, .WORD], [.UNITH, .UNITT, .UNITT], c!"0.4"⟩]),
    (c!"pobox", [
      ⟨[.BOXH, .NUMBER], [.BOXH, .BOXT], c!"0.7"⟩]),
    (c!"city", [
      ⟨[.CITY], [.CITY], c!"0.9"⟩,
      ⟨[.WORD], [.CITY], c!"0.5"⟩,
      ⟨[.WORD, .WORD], [.CITY, .CITY], c!"0.3"⟩]),
    (c!"region", [
      ⟨[.PROV], [.PROV], c!"0.9"⟩]),
    (c!"country", [
      ⟨[.NATION], [.NATION], c!"0.9"⟩])]

def belgium : Coded where
  metas := [
    (c!"ADDRESS", [[1, 2]]),
    (c!"micro", [[5, 6], [5, 6, 7], [8]]),
    (c!"macro", [[4, 9, 10, 11], [4, 9, 11], [4, 9]])]
  rules := [
    (c!"placename", [
      ⟨[.PLACEN], [.BLDNG], c!"0.7"⟩,
      ⟨[.PLACEN, .WORD], [.BLDNG, .BLDNG], c!"0.6"⟩,
      ⟨[.PLACEN, .WORD, .WORD], [.BLDNG, .BLDNG, .BLDNG], c!"0.5"⟩,
      ⟨[.PLACEN, .WORD, .WORD, .WORD], [.BLDNG, .BLDNG, .BLDNG, .BLDNG], c!"0.4"⟩,
      ⟨[.BUILDT], [.BLDNG], c!"0.7"⟩,
      ⟨[.BUILDT, .WORD], [.BLDNG, .BLDNG], c!"0.6"⟩,
      ⟨[.BUILDT, .WORD, .WORD], [.BLDNG, .BLDNG, .BLDNG], c!"0.5"⟩,
      ⟨[.BUILDT, .WORD, .WORD, .WORD], [.BLDNG, .BLDNG, .BLDNG, .BLDNG], c!"0.4"⟩]),
    (c!"postal", [
      ⟨[.QUAD], [.POSTAL], c!"0.7"⟩,
      ⟨[.NUMBER], [.POSTAL], c!"0.4"⟩,
      ⟨[.SINGLE, .QUAD], [.IGNORE, .POSTAL], c!"0.7"⟩,
      ⟨[.SINGLE, .NUMBER], [.IGNORE, .POSTAL], c!"0.4"⟩,
      ⟨[.SINGLE, .DASH, .QUAD], [.IGNORE, .IGNORE, .POSTAL], c!"0.7"⟩,
      ⟨[.SINGLE, .DASH, .NUMBER], [.IGNORE, .IGNORE, .POSTAL], c!"0.4"⟩]),
    (c!"streetname", [
      ⟨[.WORD, .TYPE], [.STREET, .SUFTYP], c!"0.7"⟩,
      ⟨[.WORD, .WORD, .TYPE], [.STREET, .STREET, .SUFTYP], c!"0.6"⟩,
      ⟨[.WORD, .WORD, .WORD, .TYPE], [.STREET, .STREET, .STREET, .SUFTYP], c!"0.5"⟩,
      ⟨[.WORD, .WORD, .WORD, .WORD, .TYPE], [.STREET, .STREET, .STREET, .STREET, .SUFTYP], c!"0.4"⟩,
      ⟨[.WORD], [.STREET], c!"0.4"⟩,
      ⟨[.WORD, .WORD], [.STREET, .STREET], c!"0.3"⟩,
      ⟨[.WORD, .WORD, .WORD], [.STREET, .STREET, .STREET], c!"0.2"⟩,
      ⟨[.WORD, .WORD, .WORD, .WORD], [.STREET, .STREET, .STREET, .STREET], c!"0.1"⟩]),
    (c!"housenumber", [
      ⟨[.NUMBER], [.HOUSE], c!"0.5"⟩,
      ⟨[.NUMBER, .DASH, .NUMBER], [.HOUSE, .IGNORE, .UNITT], c!"0.5"⟩,
      ⟨[.NUMBER, .NUMBER], [.HOUSE, .UNITT], c!"0.2"⟩]),
    (c!"unit", [
      ⟨[.UNITH, .NUMBER], [.UNITH, .UNITT], c!"0.7"⟩,
      ⟨[.UNITH, .NUMBER, .SINGLE], [.UNITH, .UNITT, .BADTOKEN], c!"0.7"⟩,
      ⟨[.UNITH, .WORD], [.UNITH, .UNITT], c!"0.7"⟩,
      ⟨[.UNITH, .MIXED], [.UNITH, .UNITT], c!"0.7"⟩]),
    (c!"pobox", [
      ⟨[.BOXH, .NUMBER], [.BOXH, .BOXT], c!"0.7"⟩]),
    (c!"city", [
      ⟨[.CITY], [.CITY], c!"0.9"⟩,
      ⟨[.WORD], [.CITY], c!"0.5"⟩,
      ⟨[.WORD, .WORD], [.CITY, .CITY], c!"0.3"⟩]),
    (c!"region", [
      ⟨[.PROV], [.PROV], c!"0.9"⟩]),
    (c!"country", [
      ⟨[.NATION], [.NATION], c!"0.9"⟩])]

def canada : Coded where
  metas := [
    (c!"ADDRESS", [[1, 2]]),
    (c!"micro", [[10, 4], [10, 4, 9], [10, 4, 17], [9]]),
    (c!"macro", [[18, 20, 19, 21], [18, 20, 21], [18, 20, 19], [18, 20]]),
    (c!"building", [[7, 8], [8, 7]]),
    (c!"street", [[5, 11, 6], [12, 16, 11, 13], [12, 16, 11], [16, 11, 13], [5, 11], [16, 11], [11, 6], [11]]),
    (c!"prefixtype", [[12, 14], [12], [14]]),
    (c!"suffixtype", [[15, 13], [15], [13]])]
  rules := [
    (c!"buildt", [
      ⟨[.BUILDT], [.BLDNG], c!"0.4"⟩,
      ⟨[.PLACEN], [.BLDNG], c!"0.4"⟩]),
    (c!"buildn", [
      ⟨[.WORD], [.BLDNG], c!"0.4"⟩,
      ⟨[.WORD, .WORD], [.BLDNG, .BLDNG], c!"0.3"⟩,
      ⟨[.WORD, .WORD, .WORD], [.BLDNG, .BLDNG, .BLDNG], c!"0.2"⟩,
      ⟨[.WORD, .WORD, .WORD, .WORD], [.BLDNG, .BLDNG, .BLDNG, .BLDNG], c!"0.1"⟩]),
    (c!"pobox", [
      ⟨[.BOXH, .NUMBER], [.BOXH, .BOXT], c!"0.7"⟩,
      ⟨[.BOXH, .NUMBER, .BOXH, .NUMBER], [.BOXH, .BOXT, .BOXT, .BOXT], c!"0.8"⟩,
      ⟨[.BOXH, .NUMBER, .BOXH, .SINGLE], [.BOXH, .BOXT, .BOXT, .BOXT], c!"0.8"⟩,
      ⟨[.BOXH, .NUMBER, .BOXH, .WORD], [.BOXH, .BOXT, .BOXT, .BOXT], c!"0.8"⟩,
      ⟨[.BOXH, .NUMBER, .BOXH, .MIXED], [.BOXH, .BOXT, .BOXT, .BOXT], c!"0.8"⟩,
      ⟨[.BOXH, .WORD], [.BOXH, .BOXT], c!"0.7"⟩]),
    (c!"housenumber", [
      ⟨[.NUMBER], [.HOUSE], c!"0.7"⟩,
      ⟨[.MIXED], [.HOUSE], c!"0.7"⟩,
      ⟨[.NUMBER, .SINGLE], [.HOUSE, .IGNORE], c!"0.5"⟩,
      ⟨[.NUMBER, .NUMBER, .SLASH, .NUMBER], [.HOUSE, .IGNORE, .IGNORE, .IGNORE], c!"0.7"⟩,
      ⟨[.NUMBER, .FRACT], [.HOUSE, .IGNORE], c!"0.7"⟩,
      ⟨[.NUMBER, .DASH, .NUMBER], [.HOUSE, .IGNORE, .IGNORE], c!"0.7"⟩,
      ⟨[.NUMBER, .DASH, .NUMBER, .SINGLE], [.HOUSE, .IGNORE, .IGNORE, .IGNORE], c!"0.7"⟩,
      ⟨[.NUMBER, .DASH, .NUMBER, .DOUBLE], [.HOUSE, .IGNORE, .IGNORE, .IGNORE], c!"0.7"⟩,
      ⟨[.NUMBER, .DASH, .MIXED], [.HOUSE, .IGNORE, .IGNORE], c!"0.7"⟩,
      ⟨[.NUMBER, .DASH, .NUMBER, .NUMBER, .SLASH, .NUMBER], [.HOUSE, .IGNORE, .IGNORE, .IGNORE, .IGNORE, .IGNORE], c!"0.7"⟩,
      ⟨[.NUMBER, .DASH, .NUMBER, .FRACT], [.HOUSE, .IGNORE, .IGNORE, .IGNORE], c!"0.7"⟩]),
    (c!"basename", [
      ⟨[.SINGLE, .AMPERS, .SINGLE, .WORD, .WORD], [.STREET, .STREET, .STREET, .STREET, .STREET], c!"0.5"⟩,
      ⟨[.SINGLE, .AMPERS, .SINGLE, .WORD], [.STREET, .STREET, .STREET, .STREET], c!"0.5"⟩,
      ⟨[.SINGLE, .AMPERS, .SINGLE], [.STREET, .STREET, .STREET], c!"0.5"⟩,
      ⟨[.WORD, .AMPERS, .WORD], [.STREET, .STREET, .STREET], c!"0.5"⟩,
      ⟨[.WORD, .WORD, .WORD, .WORD, .WORD], [.STREET, .STREET, .STREET, .STREET, .STREET], c!"0.1"⟩,
      ⟨[.WORD, .WORD, .WORD, .WORD], [.STREET, .STREET, .STREET, .STREET], c!"0.1"⟩,
      ⟨[.WORD, .WORD, .WORD], [.STREET, .STREET, .STREET], c!"0.1"⟩,
      ⟨[.WORD, .WORD], [.STREET, .STREET], c!"0.1"⟩,
      ⟨[.ORD], [.STREET], c!"0.4"⟩,
      ⟨[.NUMBER, .SINGLE], [.STREET, .STREET], c!"0.3"⟩,
      ⟨[.NUMBER, .DOUBLE], [.STREET, .STREET], c!"0.3"⟩,
      ⟨[.NUMBER], [.STREET], c!"0.3"⟩,
      ⟨[.SINGLE], [.STREET], c!"0.3"⟩,
      ⟨[.DOUBLE], [.STREET], c!"0.3"⟩,
      ⟨[.MIXED], [.STREET], c!"0.3"⟩,
      ⟨[.WORD], [.STREET], c!"0.2"⟩]),
    (c!"prefix", [
      ⟨[.QUALIF, .DIRECT], [.QUALIF, .PREDIR], c!"0.8"⟩,
      ⟨[.DIRECT, .QUALIF], [.PREDIR, .QUALIF], c!"0.8"⟩,
      ⟨[.QUALIF], [.QUALIF], c!"0.8"⟩,
      ⟨[.DIRECT], [.PREDIR], c!"0.7"⟩]),
    (c!"suffix", [
      ⟨[.DIRECT, .QUALIF], [.SUFDIR, .QUALIF], c!"0.8"⟩,
      ⟨[.QUALIF, .DIRECT], [.QUALIF, .SUFDIR], c!"0.8"⟩,
      ⟨[.DIRECT], [.SUFDIR], c!"0.7"⟩,
      ⟨[.QUALIF], [.QUALIF], c!"0.8"⟩]),
    (c!"ptype", [
      ⟨[.TYPE], [.PRETYP], c!"0.7"⟩]),
    (c!"stype", [
      ⟨[.TYPE], [.SUFTYP], c!"0.7"⟩]),
    (c!"road", [
      ⟨[.PROV, .ROAD], [.EXTRA, .PRETYP], c!"0.8"⟩,
      ⟨[.ROAD], [.PRETYP], c!"0.8"⟩]),
    (c!"unit", [
      ⟨[.UNITH, .MIXED], [.UNITH, .UNITT], c!"0.6"⟩,
      ⟨[.UNITH, .UNITH], [.UNITH, .UNITT], c!"0.6"⟩,
      ⟨[.UNITH, .WORD, .WORD, .WORD], [.UNITH, .UNITT, .UNITT, .UNITT], c!"0.4"⟩,
      ⟨[.UNITH, .WORD, .WORD], [.UNITH, .UNITT, .UNITT], c!"0.4"⟩,
      ⟨[.UNITH, .WORD], [.UNITH, .UNITT], c!"0.4"⟩]),
    (c!"city", [
      ⟨[.DIRECT, .CITY], [.CITY, .CITY], c!"0.6"⟩,
      ⟨[.CITY], [.CITY], c!"0.8"⟩,
      ⟨[.DIRECT, .WORD, .WORD, .WORD, .WORD], [.CITY, .CITY, .CITY, .CITY, .CITY], c!"0.3"⟩,
      ⟨[.DIRECT, .WORD, .WORD, .WORD], [.CITY, .CITY, .CITY, .CITY], c!"0.4"⟩,
      ⟨[.DIRECT, .WORD, .WORD], [.CITY, .CITY, .CITY], c!"0.5"⟩,
      ⟨[.DIRECT, .WORD], [.CITY, .CITY], c!"0.5"⟩,
      ⟨[.WORD, .WORD, .WORD, .WORD], [.CITY, .CITY, .CITY, .CITY], c!"0.3"⟩,
      ⟨[.WORD, .WORD, .WORD], [.CITY, .CITY, .CITY], c!"0.2"⟩,
      ⟨[.WORD, .WORD], [.CITY, .CITY], c!"0.2"⟩,
      ⟨[.WORD], [.CITY], c!"0.2"⟩]),
    (c!"postal", [
      ⟨[.MIXED], [.POSTAL], c!"0.7"⟩,
      ⟨[.MIXED, .MIXED], [.POSTAL, .POSTAL], c!"0.8"⟩]),
    (c!"prov", [
      ⟨[.PROV], [.PROV], c!"0.8"⟩]),
    (c!"country", [
      ⟨[.NATION], [.NATION], c!"0.8"⟩])]

def denmark : Coded where
  metas := [
    (c!"ADDRESS", [[1, 2]]),
    (c!"micro", [[4, 5], [4, 5, 6], [7]]),
    (c!"macro", [[3, 8, 9], [3, 8]])]
  rules := [
    (c!"postal", [
      ⟨[.QUAD], [.POSTAL], c!"0.8"⟩,
      ⟨[.DOUBLE, .QUAD], [.IGNORE, .POSTAL], c!"0.8"⟩,
      ⟨[.DOUBLE, .DASH, .QUAD], [.IGNORE, .IGNORE, .POSTAL], c!"0.8"⟩]),
    (c!"streetname", [
      ⟨[.WORD, .TYPE], [.STREET, .SUFTYP], c!"0.7"⟩,
      ⟨[.WORD, .WORD, .TYPE], [.STREET, .STREET, .SUFTYP], c!"0.6"⟩,
      ⟨[.WORD, .WORD, .WORD, .TYPE], [.STREET, .STREET, .STREET, .SUFTYP], c!"0.5"⟩,
      ⟨[.WORD, .WORD, .WORD, .WORD, .TYPE], [.STREET, .STREET, .STREET, .STREET, .SUFTYP], c!"0.4"⟩,
      ⟨[.WORD], [.STREET], c!"0.4"⟩,
      ⟨[.WORD, .WORD], [.STREET, .STREET], c!"0.3"⟩,
      ⟨[.WORD, .WORD, .WORD], [.STREET, .STREET, .STREET], c!"0.2"⟩,
      ⟨[.WORD, .WORD, .WORD, .WORD], [.STREET, .STREET, .STREET, .STREET], c!"0.1"⟩]),
    (c!"housenumber", [
      ⟨[.NUMBER], [.HOUSE], c!"0.5"⟩,
      ⟨[.NUMBER, .SINGLE], [.HOUSE, .HOUSE], c!"0.6"⟩,
      ⟨[.MIXED], [.HOUSE], c!"0.4"⟩]),
    (c!"unit", [
      ⟨[.COMMA, .NUMBER], [.IGNORE, .UNITT], c!"0.5"⟩,
      ⟨[.COMMA, .NUMBER, .COMMA, .WORD], [.IGNORE, .UNITT, .IGNORE, .EXTRA], c!"0.7"⟩,
      ⟨[.COMMA, .NUMBER, .COMMA, .WORD, .WORD], [.IGNORE, .UNITT, .IGNORE, .EXTRA, .EXTRA], c!"0.7"⟩,
      ⟨[.NUMBER], [.UNITT], c!"0.5"⟩,
      ⟨[.NUMBER, .WORD], [.UNITT, .EXTRA], c!"0.7"⟩,
      ⟨[.NUMBER, .WORD, .WORD], [.UNITT, .EXTRA, .EXTRA], c!"0.7"⟩]),
    (c!"pobox", [
      ⟨[.BOXH, .NUMBER], [.BOXH, .BOXT], c!"0.7"⟩]),
    (c!"city", [
      ⟨[.CITY], [.CITY], c!"0.9"⟩,
      ⟨[.WORD], [.CITY], c!"0.5"⟩,
      ⟨[.WORD, .WORD], [.CITY, .CITY], c!"0.3"⟩,
      ⟨[.WORD, .WORD, .WORD], [.CITY, .CITY, .CITY], c!"0.3"⟩,
      ⟨[.WORD, .WORD, .WORD, .WORD], [.CITY, .CITY, .CITY, .CITY], c!"0.3"⟩]),
    (c!"country", [
      ⟨[.NATION], [.NATION], c!"0.9"⟩])]

def finland : Coded where
  metas := [
    (c!"ADDRESS", [[1, 2]]),
    (c!"micro", [[6, 7], [6, 7, 8], [9]]),
    (c!"macro", [[5, 3, 11], [5, 3], [3, 11], [3]]),
    (c!"citywords", [[10, 3], [10]])]
  rules := [
    (c!"placename", [
      ⟨[.PLACEN, .WORD], [.BLDNG, .BLDNG], c!"0.5"⟩,
      ⟨[.WORD, .PLACEN], [.BLDNG, .BLDNG], c!"0.5"⟩,
      ⟨[.PLACEN, .WORD, .PLACEN], [.BLDNG, .BLDNG, .BLDNG], c!"0.5"⟩,
      ⟨[.WORD, .PLACEN, .PLACEN], [.BLDNG, .BLDNG, .BLDNG], c!"0.5"⟩,
      ⟨[.PLACEN, .WORD, .WORD], [.BLDNG, .BLDNG, .BLDNG], c!"0.5"⟩,
      ⟨[.WORD, .WORD, .PLACEN], [.BLDNG, .BLDNG, .BLDNG], c!"0.5"⟩,
      ⟨[.PLACEN, .WORD, .WORD, .PLACEN], [.BLDNG, .BLDNG, .BLDNG, .BLDNG], c!"0.5"⟩,
      ⟨[.WORD, .WORD, .PLACEN, .PLACEN], [.BLDNG, .BLDNG, .BLDNG, .BLDNG], c!"0.5"⟩,
      ⟨[.PLACEN, .WORD, .WORD, .WORD], [.BLDNG, .BLDNG, .BLDNG, .BLDNG], c!"0.5"⟩,
      ⟨[.WORD, .WORD, .WORD, .PLACEN], [.BLDNG, .BLDNG, .BLDNG, .BLDNG], c!"0.5"⟩,
      ⟨[.PLACEN, .WORD, .WORD, .WORD, .PLACEN], [.BLDNG, .BLDNG, .BLDNG, .BLDNG, .BLDNG], c!"0.5"⟩,
      ⟨[.WORD, .WORD, .WORD, .PLACEN, .PLACEN], [.BLDNG, .BLDNG, .BLDNG, .BLDNG, .BLDNG], c!"0.5"⟩]),
    (c!"postal", [
      ⟨[.QUINT], [.POSTAL], c!"0.7"⟩,
      ⟨[.NUMBER], [.POSTAL], c!"0.5"⟩,
      ⟨[.NATION, .QUINT], [.IGNORE, .POSTAL], c!"0.7"⟩,
      ⟨[.NATION, .NUMBER], [.IGNORE, .POSTAL], c!"0.5"⟩,
      ⟨[.NATION, .DASH, .QUINT], [.IGNORE, .IGNORE, .POSTAL], c!"0.7"⟩,
      ⟨[.NATION, .DASH, .NUMBER], [.IGNORE, .IGNORE, .POSTAL], c!"0.5"⟩]),
    (c!"streetname", [
      ⟨[.WORD, .TYPE], [.STREET, .SUFTYP], c!"0.7"⟩,
      ⟨[.WORD, .WORD, .TYPE], [.STREET, .STREET, .SUFTYP], c!"0.6"⟩,
      ⟨[.WORD, .WORD, .WORD, .TYPE], [.STREET, .STREET, .STREET, .SUFTYP], c!"0.5"⟩,
      ⟨[.WORD, .WORD, .WORD, .WORD, .TYPE], [.STREET, .STREET, .STREET, .STREET, .SUFTYP], c!"0.4"⟩,
      ⟨[.WORD], [.STREET], c!"0.4"⟩,
      ⟨[.WORD, .WORD], [.STREET, .STREET], c!"0.3"⟩,
      ⟨[.WORD, .WORD, .WORD], [.STREET, .STREET, .STREET], c!"0.2"⟩,
      ⟨[.WORD, .WORD, .WORD, .WORD], [.STREET, .STREET, .STREET, .STREET], c!"0.1"⟩]),
    (c!"housenumber", [
      ⟨[.NUMBER], [.HOUSE], c!"0.5"⟩,
      ⟨[.NUMBER, .SINGLE], [.HOUSE, .IGNORE], c!"0.6"⟩,
      ⟨[.NUMBER, .DOUBLE], [.HOUSE, .IGNORE], c!"0.5"⟩,
      ⟨[.MIXED], [.HOUSE], c!"0.4"⟩,
      ⟨[.NUMBER, .DASH, .NUMBER], [.HOUSE, .IGNORE, .IGNORE], c!"0.7"⟩]),
    (c!"unit", [
      ⟨[.NUMBER], [.UNITT], c!"0.4"⟩,
      ⟨[.NUMBER, .WORD], [.UNITT, .UNITT], c!"0.4"⟩,
      ⟨[.NUMBER, .WORD, .WORD], [.UNITT, .UNITT, .UNITT], c!"0.3"⟩]),
    (c!"pobox", [
      ⟨[.BOXH, .NUMBER], [.BOXH, .BOXT], c!"0.7"⟩,
      ⟨[.BOXH, .WORD], [.BOXH, .BOXT], c!"0.7"⟩]),
    (c!"city", [
      ⟨[.CITY], [.CITY], c!"0.9"⟩,
      ⟨[.WORD], [.CITY], c!"0.5"⟩]),
    (c!"country", [
      ⟨[.NATION], [.NATION], c!"0.9"⟩])]

def france : Coded where
  metas := [
    (c!"ADDRESS", [[1, 2], [9, 1, 2]]),
    (c!"micro", [[7, 6], [7, 6, 8], [9]]),
    (c!"macro", [[5, 3, 11], [5, 3]]),
    (c!"citywords", [[10, 3], [10]])]
  rules := [
    (c!"placename", [
      ⟨[.PLACEN], [.BLDNG], c!"0.7"⟩,
      ⟨[.PLACEN, .WORD], [.BLDNG, .BLDNG], c!"0.6"⟩,
      ⟨[.PLACEN, .WORD, .WORD], [.BLDNG, .BLDNG, .BLDNG], c!"0.5"⟩,
      ⟨[.PLACEN, .WORD, .WORD, .WORD], [.BLDNG, .BLDNG, .BLDNG, .BLDNG], c!"0.4"⟩]),
    (c!"postal", [
      ⟨[.QUINT], [.POSTAL], c!"0.7"⟩,
      ⟨[.NUMBER], [.POSTAL], c!"0.4"⟩,
      ⟨[.NATION, .QUINT], [.IGNORE, .POSTAL], c!"0.7"⟩,
      ⟨[.NATION, .NUMBER], [.IGNORE, .POSTAL], c!"0.4"⟩,
      ⟨[.NATION, .DASH, .QUINT], [.IGNORE, .IGNORE, .POSTAL], c!"0.7"⟩,
      ⟨[.NATION, .DASH, .NUMBER], [.IGNORE, .IGNORE, .POSTAL], c!"0.4"⟩]),
    (c!"streetname", [
      ⟨[.TYPE, .WORD], [.PRETYP, .STREET], c!"0.7"⟩,
      ⟨[.TYPE, .WORD, .WORD], [.PRETYP, .STREET, .STREET], c!"0.6"⟩,
      ⟨[.TYPE, .WORD, .WORD, .WORD], [.PRETYP, .STREET, .STREET, .STREET], c!"0.5"⟩,
      ⟨[.TYPE, .WORD, .WORD, .WORD, .WORD], [.PRETYP, .STREET, .STREET, .STREET, .STREET], c!"0.4"⟩,
      ⟨[.WORD], [.STREET], c!"0.4"⟩,
      ⟨[.WORD, .WORD], [.STREET, .STREET], c!"0.3"⟩,
      ⟨[.WORD, .WORD, .WORD], [.STREET, .STREET, .STREET], c!"0.2"⟩,
      ⟨[.WORD, .WORD, .WORD, .WORD], [.STREET, .STREET, .STREET, .STREET], c!"0.1"⟩]),
    (c!"housenumber", [
      ⟨[.NUMBER], [.HOUSE], c!"0.5"⟩,
      ⟨[.NUMBER, .SLASH, .NUMBER], [.HOUSE, .IGNORE, .UNITT], c!"0.7"⟩,
      ⟨[.NUMBER, .DASH, .NUMBER], [.HOUSE, .IGNORE, .UNITT], c!"0.7"⟩]),
    (c!"unit", [
      ⟨[.UNITH, .UNITT], [.UNITH, .UNITT], c!"0.8"⟩,
      ⟨[.UNITH, .WORD], [.UNITH, .BADTOKEN], c!"0.7"⟩,
      ⟨[.UNITH, .NUMBER], [.UNITH, .UNITT], c!"0.7"⟩,
      ⟨[.UNITH, .MIXED], [.UNITH, .UNITT], c!"0.7"⟩,
      ⟨[.UNITH, .WORD, .WORD], [.UNITH, .UNITT, .UNITT], c!"0.4"⟩]),
    (c!"pobox", [
      ⟨[.BOXH, .NUMBER], [.BOXH, .BOXT], c!"0.7"⟩]),
    (c!"city", [
      ⟨[.CITY], [.CITY], c!"0.9"⟩,
      ⟨[.WORD], [.CITY], c!"0.5"⟩,
      ⟨[.CITY, .BOXH], [.CITY, .EXTRA], c!"0.9"⟩,
      ⟨[.WORD, .BOXH], [.CITY, .EXTRA], c!"0.5"⟩,
      ⟨[.CITY, .BOXH, .NUMBER], [.CITY, .EXTRA, .EXTRA], c!"0.9"⟩,
      ⟨[.WORD, .BOXH, .NUMBER], [.CITY, .EXTRA, .EXTRA], c!"0.5"⟩]),
    (c!"country", [
      ⟨[.NATION], [.NATION], c!"0.9"⟩])]

def germany : Coded where
  metas := [
    (c!"ADDRESS", [[1, 2]]),
    (c!"micro", [[6, 7], [6, 7, 8], [9]]),
    (c!"macro", [[5, 3, 11, 12], [5, 3, 12], [5, 3, 11], [5, 3]]),
    (c!"citywords", [[10, 3], [10]])]
  rules := [
    (c!"placename", [
      ⟨[.PLACEN], [.BLDNG], c!"0.7"⟩,
      ⟨[.PLACEN, .WORD], [.BLDNG, .BLDNG], c!"0.6"⟩,
      ⟨[.PLACEN, .WORD, .WORD], [.BLDNG, .BLDNG, .BLDNG], c!"0.5"⟩,
      ⟨[.PLACEN, .WORD, .WORD, .WORD], [.BLDNG, .BLDNG, .BLDNG, .BLDNG], c!"0.4"⟩,
      ⟨[.BUILDT], [.BLDNG], c!"0.7"⟩,
      ⟨[.BUILDT, .WORD], [.BLDNG, .BLDNG], c!"0.6"⟩,
      ⟨[.BUILDT, .WORD, .WORD], [.BLDNG, .BLDNG, .BLDNG], c!"0.5"⟩,
      ⟨[.BUILDT, .WORD, .WORD, .WORD], [.BLDNG, .BLDNG, .BLDNG, .BLDNG], c!"0.4"⟩]),
    (c!"postal", [
      ⟨[.QUINT], [.POSTAL], c!"0.7"⟩,
      ⟨[.NUMBER], [.POSTAL], c!"0.4"⟩,
      ⟨[.SINGLE, .QUINT], [.IGNORE, .POSTAL], c!"0.7"⟩,
      ⟨[.SINGLE, .NUMBER], [.IGNORE, .POSTAL], c!"0.4"⟩]),
    (c!"streetname", [
      ⟨[.WORD, .TYPE], [.STREET, .SUFTYP], c!"0.7"⟩,
      ⟨[.TYPE, .TYPE], [.STREET, .SUFTYP], c!"0.7"⟩,
      ⟨[.WORD, .WORD, .TYPE], [.STREET, .STREET, .SUFTYP], c!"0.6"⟩,
      ⟨[.WORD, .WORD, .WORD, .TYPE], [.STREET, .STREET, .STREET, .SUFTYP], c!"0.5"⟩,
      ⟨[.WORD, .WORD, .WORD, .WORD, .TYPE], [.STREET, .STREET, .STREET, .STREET, .SUFTYP], c!"0.4"⟩,
      ⟨[.WORD], [.STREET], c!"0.4"⟩,
      ⟨[.WORD, .WORD], [.STREET, .STREET], c!"0.3"⟩,
      ⟨[.WORD, .WORD, .WORD], [.STREET, .STREET, .STREET], c!"0.2"⟩,
      ⟨[.WORD, .WORD, .WORD, .WORD], [.STREET, .STREET, .STREET, .STREET], c!"0.1"⟩]),
    (c!"housenumber", [
      ⟨[.NUMBER], [.HOUSE], c!"0.5"⟩,
      ⟨[.NUMBER, .SINGLE], [.HOUSE, .HOUSE], c!"0.6"⟩,
      ⟨[.NUMBER, .DOUBLE], [.HOUSE, .HOUSE], c!"0.5"⟩,
      ⟨[.MIXED], [.HOUSE], c!"0.4"⟩,
      ⟨[.FRACT], [.HOUSE], c!"0.7"⟩,
      ⟨[.NUMBER, .SLASH, .MIXED], [.HOUSE, .HOUSE, .HOUSE], c!"0.7"⟩,
      ⟨[.FRACT, .SINGLE], [.HOUSE, .HOUSE], c!"0.8"⟩,
      ⟨[.FRACT, .DOUBLE], [.HOUSE, .HOUSE], c!"0.7"⟩,
      ⟨[.NUMBER, .SINGLE, .SINGLE], [.HOUSE, .HOUSE, .HOUSE], c!"0.7"⟩]),
    (c!"unit", [
      ⟨[.UNITH, .UNITT], [.UNITH, .UNITT], c!"0.8"⟩,
      ⟨[.UNITH, .WORD], [.UNITH, .BADTOKEN], c!"0.7"⟩,
      ⟨[.UNITH, .NUMBER], [.UNITH, .UNITT], c!"0.7"⟩,
      ⟨[.UNITH, .MIXED], [.UNITH, .UNITT], c!"0.7"⟩,
      ⟨[.UNITH, .WORD, .WORD], [.UNITH, .UNITT, .UNITT], c!"0.4"⟩]),
    (c!"pobox", [
      ⟨[.BOXH, .NUMBER], [.BOXH, .BOXT], c!"0.7"⟩]),
    (c!"city", [
      ⟨[.DIRECT], [.CITY], c!"0.5"⟩,
      ⟨[.CITY], [.CITY], c!"0.9"⟩,
      ⟨[.WORD], [.CITY], c!"0.5"⟩]),
    (c!"region", [
      ⟨[.PROV], [.PROV], c!"0.9"⟩]),
    (c!"country", [
      ⟨[.NATION], [.NATION], c!"0.9"⟩])]

def greatbritain : Coded where
  metas := [
    (c!"ADDRESS", [[1, 2], [3, 1, 2]]),
    (c!"micro", [[10, 4], [17, 10, 4], [9]]),
    (c!"macro", [[18, 20, 19, 21], [18, 20, 21], [18, 20, 19], [18, 20], [18, 19, 21], [18, 21], [18, 19]]),
    (c!"building", [[7, 8], [8, 7]]),
    (c!"street", [[5, 11, 6], [12, 16, 11, 13], [12, 16, 11], [16, 11, 13], [5, 11], [16, 11], [11, 6], [11]]),
    (c!"prefixtype", [[12, 14], [12], [14]]),
    (c!"suffixtype", [[15, 13], [15], [13]])]
  rules := [
    (c!"buildt", [
      ⟨[.BUILDT], [.BLDNG], c!"0.4"⟩,
      ⟨[.PLACEN], [.BLDNG], c!"0.4"⟩]),
    (c!"buildn", [
      ⟨[.WORD], [.BLDNG], c!"0.4"⟩,
      ⟨[.WORD, .WORD], [.BLDNG, .BLDNG], c!"0.3"⟩,
      ⟨[.WORD, .WORD, .WORD], [.BLDNG, .BLDNG, .BLDNG], c!"0.2"⟩,
      ⟨[.WORD, .WORD, .WORD, .WORD], [.BLDNG, .BLDNG, .BLDNG, .BLDNG], c!"0.1"⟩]),
    (c!"pobox", [
      ⟨[.BOXH, .NUMBER], [.BOXH, .BOXT], c!"0.7"⟩]),
    (c!"housenumber", [
      ⟨[.NUMBER], [.HOUSE], c!"0.6"⟩,
      ⟨[.NUMBER, .SINGLE], [.HOUSE, .HOUSE], c!"0.7"⟩,
      ⟨[.MIXED], [.HOUSE], c!"0.7"⟩,
      ⟨[.NUMBER, .DASH, .NUMBER], [.HOUSE, .IGNORE, .IGNORE], c!"0.7"⟩]),
    (c!"basename", [
      ⟨[.SINGLE, .AMPERS, .SINGLE, .WORD, .WORD], [.STREET, .STREET, .STREET, .STREET, .STREET], c!"0.5"⟩,
      ⟨[.SINGLE, .AMPERS, .SINGLE, .WORD], [.STREET, .STREET, .STREET, .STREET], c!"0.5"⟩,
      ⟨[.SINGLE, .AMPERS, .SINGLE], [.STREET, .STREET, .STREET], c!"0.5"⟩,
      ⟨[.WORD, .AMPERS, .WORD], [.STREET, .STREET, .STREET], c!"0.5"⟩,
      ⟨[.WORD, .WORD, .WORD, .WORD, .WORD], [.STREET, .STREET, .STREET, .STREET, .STREET], c!"0.1"⟩,
      ⟨[.WORD, .WORD, .WORD, .WORD], [.STREET, .STREET, .STREET, .STREET], c!"0.1"⟩,
      ⟨[.WORD, .WORD, .WORD], [.STREET, .STREET, .STREET], c!"0.1"⟩,
      ⟨[.WORD, .WORD], [.STREET, .STREET], c!"0.1"⟩,
      ⟨[.ORD], [.STREET], c!"0.4"⟩,
      ⟨[.NUMBER, .SINGLE], [.STREET, .STREET], c!"0.3"⟩,
      ⟨[.NUMBER, .DOUBLE], [.STREET, .STREET], c!"0.3"⟩,
      ⟨[.NUMBER], [.STREET], c!"0.3"⟩,
      ⟨[.SINGLE], [.STREET], c!"0.3"⟩,
      ⟨[.DOUBLE], [.STREET], c!"0.3"⟩,
      ⟨[.MIXED], [.STREET], c!"0.3"⟩,
      ⟨[.WORD], [.STREET], c!"0.2"⟩]),
    (c!"prefix", [
      ⟨[.QUALIF, .DIRECT], [.QUALIF, .PREDIR], c!"0.8"⟩,
      ⟨[.DIRECT, .QUALIF], [.PREDIR, .QUALIF], c!"0.8"⟩,
      ⟨[.QUALIF], [.QUALIF], c!"0.8"⟩,
      ⟨[.DIRECT], [.PREDIR], c!"0.7"⟩]),
    (c!"suffix", [
      ⟨[.DIRECT, .QUALIF], [.SUFDIR, .QUALIF], c!"0.8"⟩,
      ⟨[.QUALIF, .DIRECT], [.QUALIF, .SUFDIR], c!"0.8"⟩,
      ⟨[.DIRECT], [.SUFDIR], c!"0.7"⟩,
      ⟨[.QUALIF], [.QUALIF], c!"0.8"⟩]),
    (c!"ptype", [
      ⟨[.TYPE], [.PRETYP], c!"0.7"⟩]),
    (c!"stype", [
      ⟨[.TYPE], [.SUFTYP], c!"0.7"⟩]),
    (c!"road", [
      ⟨[.PROV, .ROAD], [.EXTRA, .PRETYP], c!"0.8"⟩,
      ⟨[.ROAD], [.PRETYP], c!"0.8"⟩]),
    (c!"unit", [
      ⟨[.ORD, .UNITH], [.UNITT, .UNITH], c!"0.7"⟩,
      ⟨[.UNITT, .UNITH], [.UNITT, .UNITH], c!"0.7"⟩,
      ⟨[.UNITH, .UNITT], [.UNITH, .UNITT], c!"0.7"⟩,
      ⟨[.NUMBER, .SINGLE, .WORD, .PLACEN], [.UNITT, .UNITT, .UNITH, .UNITH], c!"0.3"⟩]),
    (c!"city", [
      ⟨[.DIRECT, .CITY], [.CITY, .CITY], c!"0.6"⟩,
      ⟨[.CITY], [.CITY], c!"0.8"⟩,
      ⟨[.DIRECT, .WORD, .WORD, .WORD, .WORD], [.CITY, .CITY, .CITY, .CITY, .CITY], c!"0.3"⟩,
      ⟨[.DIRECT, .WORD, .WORD, .WORD], [.CITY, .CITY, .CITY, .CITY], c!"0.4"⟩,
      ⟨[.DIRECT, .WORD, .WORD], [.CITY, .CITY, .CITY], c!"0.5"⟩,
      ⟨[.DIRECT, .WORD], [.CITY, .CITY], c!"0.5"⟩,
      ⟨[.WORD, .WORD, .WORD, .WORD], [.CITY, .CITY, .CITY, .CITY], c!"0.3"⟩,
      ⟨[.WORD, .WORD, .WORD], [.CITY, .CITY, .CITY], c!"0.2"⟩,
      ⟨[.WORD, .WORD], [.CITY, .CITY], c!"0.2"⟩,
      ⟨[.WORD], [.CITY], c!"0.2"⟩]),
    (c!"postal", [
      ⟨[.MIXED], [.POSTAL], c!"0.7"⟩,
      ⟨[.MIXED, .MIXED], [.POSTAL, .POSTAL], c!"0.8"⟩]),
    (c!"prov", [
      ⟨[.PROV], [.PROV], c!"0.8"⟩]),
    (c!"country", [
      ⟨[.NATION], [.NATION], c!"0.8"⟩])]

def ireland : Coded where
  metas := [
    (c!"ADDRESS", [[1, 2]]),
    (c!"micro", [[12, 5], [19, 12, 5], [11]]),
    (c!"macro", [[3, 22, 21, 23], [3, 22, 23], [3, 22, 21], [3, 22], [3, 21, 23], [3, 23], [3, 21], [3]]),
    (c!"citywords", [[20, 3], [20, 8], [20]]),
    (c!"building", [[9, 10], [10, 9], [10, 9, 9]]),
    (c!"street", [[6, 13, 7], [14, 18, 13, 15], [14, 18, 13], [18, 13, 15], [6, 13], [18, 13], [13, 7], [13]]),
    (c!"prefixtype", [[14, 16], [14], [16]]),
    (c!"suffixtype", [[17, 15], [17], [15]])]
  rules := [
    (c!"cityext", [
      ⟨[.NUMBER], [.POSTAL], c!"0.5"⟩,
      ⟨[.NUMBER, .SINGLE], [.POSTAL, .POSTAL], c!"0.5"⟩]),
    (c!"buildt", [
      ⟨[.BUILDT], [.BLDNG], c!"0.4"⟩,
      ⟨[.PLACEN], [.BLDNG], c!"0.4"⟩]),
    (c!"buildn", [
      ⟨[.WORD], [.BLDNG], c!"0.4"⟩,
      ⟨[.WORD, .WORD], [.BLDNG, .BLDNG], c!"0.3"⟩,
      ⟨[.WORD, .WORD, .WORD], [.BLDNG, .BLDNG, .BLDNG], c!"0.2"⟩,
      ⟨[.WORD, .WORD, .WORD, .WORD], [.BLDNG, .BLDNG, .BLDNG, .BLDNG], c!"0.1"⟩]),
    (c!"pobox", [
      ⟨[.BOXH, .NUMBER], [.BOXH, .BOXT], c!"0.7"⟩]),
    (c!"housenumber", [
      ⟨[.NUMBER], [.HOUSE], c!"0.6"⟩,
      ⟨[.NUMBER, .SINGLE], [.HOUSE, .HOUSE], c!"0.7"⟩,
      ⟨[.MIXED], [.HOUSE], c!"0.7"⟩,
      ⟨[.NUMBER, .DASH, .NUMBER], [.HOUSE, .IGNORE, .IGNORE], c!"0.7"⟩]),
    (c!"basename", [
      ⟨[.SINGLE, .AMPERS, .SINGLE, .WORD, .WORD], [.STREET, .STREET, .STREET, .STREET, .STREET], c!"0.5"⟩,
      ⟨[.SINGLE, .AMPERS, .SINGLE, .WORD], [.STREET, .STREET, .STREET, .STREET], c!"0.5"⟩,
      ⟨[.SINGLE, .AMPERS, .SINGLE], [.STREET, .STREET, .STREET], c!"0.5"⟩,
      ⟨[.WORD, .AMPERS, .WORD], [.STREET, .STREET, .STREET], c!"0.5"⟩,
      ⟨[.WORD, .WORD, .WORD, .WORD, .WORD], [.STREET, .STREET, .STREET, .STREET, .STREET], c!"0.1"⟩,
      ⟨[.WORD, .WORD, .WORD, .WORD], [.STREET, .STREET, .STREET, .STREET], c!"0.1"⟩,
      ⟨[.WORD, .WORD, .WORD], [.STREET, .STREET, .STREET], c!"0.1"⟩,
      ⟨[.WORD, .WORD], [.STREET, .STREET], c!"0.1"⟩,
      ⟨[.ORD], [.STREET], c!"0.4"⟩,
      ⟨[.NUMBER, .SINGLE], [.STREET, .STREET], c!"0.3"⟩,
      ⟨[.NUMBER, .DOUBLE], [.STREET, .STREET], c!"0.3"⟩,
      ⟨[.NUMBER], [.STREET], c!"0.3"⟩,
      ⟨[.SINGLE], [.STREET], c!"0.3"⟩,
      ⟨[.DOUBLE], [.STREET], c!"0.3"⟩,
      ⟨[.MIXED], [.STREET], c!"0.3"⟩,
      ⟨[.WORD], [.STREET], c!"0.2"⟩]),
    (c!"prefix", [
      ⟨[.QUALIF, .DIRECT], [.QUALIF, .PREDIR], c!"0.8"⟩,
      ⟨[.DIRECT, .QUALIF], [.PREDIR, .QUALIF], c!"0.8"⟩,
      ⟨[.QUALIF], [.QUALIF], c!"0.8"⟩,
      ⟨[.DIRECT], [.PREDIR], c!"0.7"⟩]),
    (c!"suffix", [
      ⟨[.DIRECT, .QUALIF], [.SUFDIR, .QUALIF], c!"0.8"⟩,
      ⟨[.QUALIF, .DIRECT], [.QUALIF, .SUFDIR], c!"0.8"⟩,
      ⟨[.DIRECT], [.SUFDIR], c!"0.7"⟩,
      ⟨[.QUALIF], [.QUALIF], c!"0.8"⟩]),
    (c!"ptype", [
      ⟨[.TYPE], [.PRETYP], c!"0.7"⟩]),
    (c!"stype", [
      ⟨[.TYPE], [.SUFTYP], c!"0.7"⟩]),
    (c!"road", [
      ⟨[.PROV, .ROAD], [.EXTRA, .PRETYP], c!"0.8"⟩,
      ⟨[.ROAD], [.PRETYP], c!"0.8"⟩]),
    (c!"unit", [
      ⟨[.ORD, .UNITH], [.UNITT, .UNITH], c!"0.7"⟩,
      ⟨[.UNITT, .UNITH], [.UNITT, .UNITH], c!"0.7"⟩,
      ⟨[.UNITH, .UNITT], [.UNITH, .UNITT], c!"0.7"⟩,
      ⟨[.NUMBER, .SINGLE, .WORD, .PLACEN], [.UNITT, .UNITT, .UNITH, .UNITH], c!"0.3"⟩]),
    (c!"city", [
      ⟨[.DIRECT, .CITY], [.CITY, .CITY], c!"0.6"⟩,
      ⟨[.CITY], [.CITY], c!"0.8"⟩,
      ⟨[.DIRECT, .WORD, .WORD, .WORD, .WORD], [.CITY, .CITY, .CITY, .CITY, .CITY], c!"0.3"⟩,
      ⟨[.DIRECT, .WORD, .WORD, .WORD], [.CITY, .CITY, .CITY, .CITY], c!"0.4"⟩,
      ⟨[.DIRECT, .WORD, .WORD], [.CITY, .CITY, .CITY], c!"0.5"⟩,
      ⟨[.DIRECT, .WORD], [.CITY, .CITY], c!"0.5"⟩,
      ⟨[.WORD, .WORD, .WORD, .WORD], [.CITY, .CITY, .CITY, .CITY], c!"0.3"⟩,
      ⟨[.WORD, .WORD, .WORD], [.CITY, .CITY, .CITY], c!"0.2"⟩,
      ⟨[.WORD, .WORD], [.CITY, .CITY], c!"0.2"⟩,
      ⟨[.WORD], [.CITY], c!"0.2"⟩]),
    (c!"postal", [
      ⟨[.MIXED], [.POSTAL], c!"0.7"⟩,
      ⟨[.MIXED, .MIXED], [.POSTAL, .POSTAL], c!"0.8"⟩]),
    (c!"prov", [
      ⟨[.PROV], [.PROV], c!"0.8"⟩]),
    (c!"country", [
      ⟨[.NATION], [.NATION], c!"0.8"⟩])]

def italy : Coded where
  metas := [
    (c!"ADDRESS", [[1, 2]]),
    (c!"micro", [[7, 8], [9, 7, 8], [10]]),
    (c!"macro", [[6, 3, 11, 12], [6, 3, 12], [6, 3, 11], [6, 3]]),
    (c!"citywords", [[4, 3], [4]])]
  rules := [
    (c!"city", [
      ⟨[.CITY], [.CITY], c!"0.9"⟩,
      ⟨[.WORD], [.CITY], c!"0.5"⟩]),
    (c!"placename", [
      ⟨[.PLACEN], [.BLDNG], c!"0.7"⟩,
      ⟨[.PLACEN, .WORD], [.BLDNG, .BLDNG], c!"0.6"⟩,
      ⟨[.PLACEN, .WORD, .WORD], [.BLDNG, .BLDNG, .BLDNG], c!"0.5"⟩,
      ⟨[.PLACEN, .WORD, .WORD, .WORD], [.BLDNG, .BLDNG, .BLDNG, .BLDNG], c!"0.4"⟩,
      ⟨[.BUILDT], [.BLDNG], c!"0.7"⟩,
      ⟨[.BUILDT, .WORD], [.BLDNG, .BLDNG], c!"0.6"⟩,
      ⟨[.BUILDT, .WORD, .WORD], [.BLDNG, .BLDNG, .BLDNG], c!"0.5"⟩,
      ⟨[.BUILDT, .WORD, .WORD, .WORD], [.BLDNG, .BLDNG, .BLDNG, .BLDNG], c!"0.4"⟩]),
    (c!"postal", [
      ⟨[.QUINT], [.POSTAL], c!"0.7"⟩,
      ⟨[.NUMBER], [.POSTAL], c!"0.4"⟩,
      ⟨[.SINGLE, .QUINT], [.IGNORE, .POSTAL], c!"0.7"⟩,
      ⟨[.SINGLE, .NUMBER], [.IGNORE, .POSTAL], c!"0.4"⟩]),
    (c!"streetname", [
      ⟨[.TYPE, .WORD], [.PRETYP, .STREET], c!"0.7"⟩,
      ⟨[.TYPE, .WORD, .WORD], [.PRETYP, .STREET, .STREET], c!"0.6"⟩,
      ⟨[.TYPE, .WORD, .WORD, .WORD], [.PRETYP, .STREET, .STREET, .STREET], c!"0.5"⟩,
      ⟨[.TYPE, .WORD, .WORD, .WORD, .WORD], [.PRETYP, .STREET, .STREET, .STREET, .STREET], c!"0.4"⟩,
      ⟨[.WORD], [.STREET], c!"0.4"⟩,
      ⟨[.WORD, .WORD], [.STREET, .STREET], c!"0.3"⟩,
      ⟨[.WORD, .WORD, .WORD], [.STREET, .STREET, .STREET], c!"0.2"⟩,
      ⟨[.WORD, .WORD, .WORD, .WORD], [.STREET, .STREET, .STREET, .STREET], c!"0.1"⟩]),
    (c!"housenumber", [
      ⟨[.NUMBER], [.HOUSE], c!"0.5"⟩,
      ⟨[.NUMBER, .SINGLE], [.HOUSE, .HOUSE], c!"0.6"⟩,
      ⟨[.NUMBER, .DOUBLE], [.HOUSE, .HOUSE], c!"0.5"⟩,
      ⟨[.NUMBER, .SLASH, .SINGLE], [.HOUSE, .HOUSE, .HOUSE], c!"0.7"⟩,
      ⟨[.NUMBER, .DASH, .NUMBER], [.HOUSE, .HOUSE, .HOUSE], c!"0.7"⟩,
      ⟨[.NUMBER, .SLASH, .NUMBER], [.HOUSE, .HOUSE, .HOUSE], c!"0.7"⟩,
      ⟨[.NUMBER, .SLASH, .NUMBER, .SINGLE], [.HOUSE, .HOUSE, .HOUSE, .HOUSE], c!"0.7"⟩,
      ⟨[.RR, .NUMBER], [.HOUSE, .HOUSE], c!"0.8"⟩,
      ⟨[.RR, .NUMBER, .NUMBER], [.HOUSE, .HOUSE, .HOUSE], c!"0.8"⟩]),
    (c!"unit", [
      ⟨[.UNITH, .NUMBER], [.UNITH, .UNITT], c!"0.7"⟩,
      ⟨[.UNITH, .NUMBER, .SINGLE], [.UNITH, .UNITT, .UNITT], c!"0.7"⟩,
      ⟨[.UNITH, .NUMBER, .UNITH, .NUMBER], [.UNITH, .UNITT, .UNITH, .UNITT], c!"0.7"⟩,
      ⟨[.UNITH, .WORD], [.UNITH, .UNITT], c!"0.7"⟩,
      ⟨[.UNITH, .NUMBER, .SINGLE, .UNITH, .NUMBER], [.UNITH, .UNITT, .UNITT, .UNITH, .UNITT], c!"0.7"⟩]),
    (c!"pobox", [
      ⟨[.BOXH, .NUMBER], [.BOXH, .BOXT], c!"0.7"⟩]),
    (c!"region", [
      ⟨[.PROV], [.PROV], c!"0.9"⟩]),
    (c!"country", [
      ⟨[.NATION], [.NATION], c!"0.9"⟩])]

def liechtenstein : Coded where
  metas := [
    (c!"ADDRESS", [[1, 2]]),
    (c!"micro", [[6, 7], [6, 7, 8], [9]]),
    (c!"macro", [[5, 3, 11], [5, 3]]),
    (c!"citywords", [[10, 3], [10]])]
  rules := [
    (c!"placename", [
      ⟨[.PLACEN], [.BLDNG], c!"0.7"⟩,
      ⟨[.PLACEN, .WORD], [.BLDNG, .BLDNG], c!"0.6"⟩,
      ⟨[.PLACEN, .WORD, .WORD], [.BLDNG, .BLDNG, .BLDNG], c!"0.5"⟩,
      ⟨[.PLACEN, .WORD, .WORD, .WORD], [.BLDNG, .BLDNG, .BLDNG, .BLDNG], c!"0.4"⟩,
      ⟨[.BUILDT], [.BLDNG], c!"0.7"⟩,
      ⟨[.BUILDT, .WORD], [.BLDNG, .BLDNG], c!"0.6"⟩,
      ⟨[.BUILDT, .WORD, .WORD], [.BLDNG, .BLDNG, .BLDNG], c!"0.5"⟩,
      ⟨[.BUILDT, .WORD, .WORD, .WORD], [.BLDNG, .BLDNG, .BLDNG, .BLDNG], c!"0.4"⟩]),
    (c!"postal", [
      ⟨[.QUAD], [.POSTAL], c!"0.7"⟩,
      ⟨[.NUMBER], [.POSTAL], c!"0.4"⟩,
      ⟨[.DOUBLE, .QUAD], [.IGNORE, .POSTAL], c!"0.7"⟩,
      ⟨[.DOUBLE, .NUMBER], [.IGNORE, .POSTAL], c!"0.4"⟩]),
    (c!"streetname", [
      ⟨[.WORD, .TYPE], [.STREET, .SUFTYP], c!"0.7"⟩,
      ⟨[.WORD, .WORD, .TYPE], [.STREET, .STREET, .SUFTYP], c!"0.6"⟩,
      ⟨[.WORD, .WORD, .WORD, .TYPE], [.STREET, .STREET, .STREET, .SUFTYP], c!"0.5"⟩,
      ⟨[.WORD, .WORD, .WORD, .WORD, .TYPE], [.STREET, .STREET, .STREET, .STREET, .SUFTYP], c!"0.4"⟩,
      ⟨[.WORD], [.STREET], c!"0.4"⟩,
      ⟨[.WORD, .WORD], [.STREET, .STREET], c!"0.3"⟩,
      ⟨[.WORD, .WORD, .WORD], [.STREET, .STREET, .STREET], c!"0.2"⟩,
      ⟨[.WORD, .WORD, .WORD, .WORD], [.STREET, .STREET, .STREET, .STREET], c!"0.1"⟩]),
    (c!"housenumber", [
      ⟨[.NUMBER], [.HOUSE], c!"0.5"⟩,
      ⟨[.NUMBER, .SINGLE], [.HOUSE, .HOUSE], c!"0.6"⟩,
      ⟨[.NUMBER, .DOUBLE], [.HOUSE, .HOUSE], c!"0.5"⟩]),
    (c!"unit", [
      ⟨[.UNITH, .WORD], [.UNITH, .BADTOKEN], c!"0.7"⟩,
      ⟨[.UNITH, .NUMBER], [.UNITH, .UNITT], c!"0.7"⟩,
      ⟨[.UNITH, .NUMBER, .SINGLE], [.UNITH, .UNITT, .UNITT], c!"0.7"⟩,
      ⟨[.UNITH, .NUMBER, .DOUBLE], [.UNITH, .UNITT, .UNITT], c!"0.7"⟩,
      ⟨[.UNITH, .WORD, .WORD], [.UNITH, .UNITT, .UNITT], c!"0.4"⟩]),
    (c!"pobox", [
      ⟨[.BOXH, .NUMBER], [.BOXH, .BOXT], c!"0.7"⟩]),
    (c!"city", [
      ⟨[.CITY], [.CITY], c!"0.9"⟩,
      ⟨[.WORD], [.CITY], c!"0.5"⟩]),
    (c!"country", [
      ⟨[.NATION], [.NATION], c!"0.9"⟩])]

def luxembourg : Coded where
  metas := [
    (c!"ADDRESS", [[1, 2]]),
    (c!"micro", [[7, 6], [7, 6, 8], [9]]),
    (c!"macro", [[5, 3, 11], [5, 3]]),
    (c!"citywords", [[10, 3], [10]])]
  rules := [
    (c!"placename", [
      ⟨[.PLACEN], [.BLDNG], c!"0.7"⟩,
      ⟨[.PLACEN, .WORD], [.BLDNG, .BLDNG], c!"0.6"⟩,
      ⟨[.PLACEN, .WORD, .WORD], [.BLDNG, .BLDNG, .BLDNG], c!"0.5"⟩,
      ⟨[.PLACEN, .WORD, .WORD, .WORD], [.BLDNG, .BLDNG, .BLDNG, .BLDNG], c!"0.4"⟩,
      ⟨[.BUILDT], [.BLDNG], c!"0.7"⟩,
      ⟨[.BUILDT, .WORD], [.BLDNG, .BLDNG], c!"0.6"⟩,
      ⟨[.BUILDT, .WORD, .WORD], [.BLDNG, .BLDNG, .BLDNG], c!"0.5"⟩,
      ⟨[.BUILDT, .WORD, .WORD, .WORD], [.BLDNG, .BLDNG, .BLDNG, .BLDNG], c!"0.4"⟩]),
    (c!"postal", [
      ⟨[.QUAD], [.POSTAL], c!"0.7"⟩,
      ⟨[.NUMBER], [.POSTAL], c!"0.4"⟩,
      ⟨[.SINGLE, .QUAD], [.IGNORE, .POSTAL], c!"0.7"⟩,
      ⟨[.SINGLE, .NUMBER], [.IGNORE, .POSTAL], c!"0.4"⟩,
      ⟨[.SINGLE, .DASH, .QUAD], [.IGNORE, .IGNORE, .POSTAL], c!"0.7"⟩,
      ⟨[.SINGLE, .DASH, .NUMBER], [.IGNORE, .IGNORE, .POSTAL], c!"0.4"⟩]),
    (c!"streetname", [
      ⟨[.TYPE, .WORD], [.PRETYP, .STREET], c!"0.7"⟩,
      ⟨[.TYPE, .WORD, .WORD], [.PRETYP, .STREET, .STREET], c!"0.6"⟩,
      ⟨[.TYPE, .WORD, .WORD, .WORD], [.PRETYP, .STREET, .STREET, .STREET], c!"0.5"⟩,
      ⟨[.TYPE, .WORD, .WORD, .WORD, .WORD], [.PRETYP, .STREET, .STREET, .STREET, .STREET], c!"0.4"⟩,
      ⟨[.WORD, .TYPE], [.STREET, .SUFTYP], c!"0.7"⟩,
      ⟨[.WORD, .WORD, .TYPE], [.STREET, .STREET, .SUFTYP], c!"0.6"⟩,
      ⟨[.WORD, .WORD, .WORD, .TYPE], [.STREET, .STREET, .STREET, .SUFTYP], c!"0.5"⟩,
      ⟨[.WORD, .WORD, .WORD, .WORD, .TYPE], [.STREET, .STREET, .STREET, .STREET, .SUFTYP], c!"0.4"⟩,
      ⟨[.WORD], [.STREET], c!"0.4"⟩,
      ⟨[.WORD, .WORD], [.STREET, .STREET], c!"0.3"⟩,
      ⟨[.WORD, .WORD, .WORD], [.STREET, .STREET, .STREET], c!"0.2"⟩,
      ⟨[.WORD, .WORD, .WORD, .WORD], [.STREET, .STREET, .STREET, .STREET], c!"0.1"⟩]),
    (c!"housenumber", [
      ⟨[.NUMBER], [.HOUSE], c!"0.5"⟩,
      ⟨[.NUMBER, .SINGLE], [.HOUSE, .HOUSE], c!"0.6"⟩,
      ⟨[.NUMBER, .DOUBLE], [.HOUSE, .HOUSE], c!"0.5"⟩,
      ⟨[.MIXED], [.HOUSE], c!"0.4"⟩,
      ⟨[.FRACT], [.HOUSE], c!"0.7"⟩,
      ⟨[.NUMBER, .SLASH, .MIXED], [.HOUSE, .HOUSE, .HOUSE], c!"0.7"⟩,
      ⟨[.FRACT, .SINGLE], [.HOUSE, .HOUSE], c!"0.8"⟩,
      ⟨[.FRACT, .DOUBLE], [.HOUSE, .HOUSE], c!"0.7"⟩,
      ⟨[.NUMBER, .SINGLE, .SINGLE], [.HOUSE, .HOUSE, .HOUSE], c!"0.7"⟩]),
    (c!"unit", [
      ⟨[.UNITH, .UNITT], [.UNITH, .UNITT], c!"0.8"⟩,
      ⟨[.UNITH, .WORD], [.UNITH, .BADTOKEN], c!"0.7"⟩,
      ⟨[.UNITH, .NUMBER], [.UNITH, .UNITT], c!"0.7"⟩,
      ⟨[.UNITH, .MIXED], [.UNITH, .UNITT], c!"0.7"⟩,
      ⟨[.UNITH, .WORD, .WORD], [.UNITH, .UNITT, .UNITT], c!"0.4"⟩]),
    (c!"pobox", [
      ⟨[.BOXH, .NUMBER], [.BOXH, .BOXT], c!"0.7"⟩]),
    (c!"city", [
      ⟨[.CITY], [.CITY], c!"0.9"⟩,
      ⟨[.WORD], [.CITY], c!"0.5"⟩]),
    (c!"country", [
      ⟨[.NATION], [.NATION], c!"0.9"⟩])]

def monaco : Coded where
  metas := [
    (c!"ADDRESS", [[1, 2], [9, 1, 2]]),
    (c!"micro", [[7, 6], [7, 6, 8], [9]]),
    (c!"macro", [[5, 3, 11], [5, 3]]),
    (c!"citywords", [[10, 3], [10]])]
  rules := [
    (c!"placename", [
      ⟨[.PLACEN], [.BLDNG], c!"0.7"⟩,
      ⟨[.PLACEN, .WORD], [.BLDNG, .BLDNG], c!"0.6"⟩,
      ⟨[.PLACEN, .WORD, .WORD], [.BLDNG, .BLDNG, .BLDNG], c!"0.5"⟩,
      ⟨[.PLACEN, .WORD, .WORD, .WORD], [.BLDNG, .BLDNG, .BLDNG, .BLDNG], c!"0.4"⟩]),
    (c!"postal", [
      ⟨[.QUINT], [.POSTAL], c!"0.7"⟩,
      ⟨[.NUMBER], [.POSTAL], c!"0.4"⟩,
      ⟨[.NATION, .QUINT], [.IGNORE, .POSTAL], c!"0.7"⟩,
      ⟨[.NATION, .NUMBER], [.IGNORE, .POSTAL], c!"0.4"⟩,
      ⟨[.NATION, .DASH, .QUINT], [.IGNORE, .IGNORE, .POSTAL], c!"0.7"⟩,
      ⟨[.NATION, .DASH, .NUMBER], [.IGNORE, .IGNORE, .POSTAL], c!"0.4"⟩]),
    (c!"streetname", [
      ⟨[.TYPE, .WORD], [.PRETYP, .STREET], c!"0.7"⟩,
      ⟨[.TYPE, .WORD, .WORD], [.PRETYP, .STREET, .STREET], c!"0.6"⟩,
      ⟨[.TYPE, .WORD, .WORD, .WORD], [.PRETYP, .STREET, .STREET, .STREET], c!"0.5"⟩,
      ⟨[.TYPE, .WORD, .WORD, .WORD, .WORD], [.PRETYP, .STREET, .STREET, .STREET, .STREET], c!"0.4"⟩,
      ⟨[.WORD], [.STREET], c!"0.4"⟩,
      ⟨[.WORD, .WORD], [.STREET, .STREET], c!"0.3"⟩,
      ⟨[.WORD, .WORD, .WORD], [.STREET, .STREET, .STREET], c!"0.2"⟩,
      ⟨[.WORD, .WORD, .WORD, .WORD], [.STREET, .STREET, .STREET, .STREET], c!"0.1"⟩]),
    (c!"housenumber", [
      ⟨[.NUMBER], [.HOUSE], c!"0.5"⟩,
      ⟨[.NUMBER, .SLASH, .NUMBER], [.HOUSE, .IGNORE, .UNITT], c!"0.7"⟩,
      ⟨[.NUMBER, .DASH, .NUMBER], [.HOUSE, .IGNORE, .UNITT], c!"0.7"⟩]),
    (c!"unit", [
      ⟨[.UNITH, .UNITT], [.UNITH, .UNITT], c!"0.8"⟩,
      ⟨[.UNITH, .WORD], [.UNITH, .BADTOKEN], c!"0.7"⟩,
      ⟨[.UNITH, .NUMBER], [.UNITH, .UNITT], c!"0.7"⟩,
      ⟨[.UNITH, .MIXED], [.UNITH, .UNITT], c!"0.7"⟩,
      ⟨[.UNITH, .WORD, .WORD], [.UNITH, .UNITT, .UNITT], c!"0.4"⟩]),
    (c!"pobox", [
      ⟨[.BOXH, .NUMBER], [.BOXH, .BOXT], c!"0.7"⟩]),
    (c!"city", [
      ⟨[.CITY], [.CITY], c!"0.9"⟩,
      ⟨[.WORD], [.CITY], c!"0.5"⟩,
      ⟨[.CITY, .BOXH], [.CITY, .EXTRA], c!"0.9"⟩,
      ⟨[.WORD, .BOXH], [.CITY, .EXTRA], c!"0.5"⟩,
      ⟨[.CITY, .BOXH, .NUMBER], [.CITY, .EXTRA, .EXTRA], c!"0.9"⟩,
      ⟨[.WORD, .BOXH, .NUMBER], [.CITY, .EXTRA, .EXTRA], c!"0.5"⟩]),
    (c!"country", [
      ⟨[.NATION], [.NATION], c!"0.9"⟩])]

def netherlands : Coded where
  metas := [
    (c!"ADDRESS", [[1, 2]]),
    (c!"micro", [[5, 10], [5, 10, 11], [12]]),
    (c!"macro", [[7, 3, 14, 15], [7, 3, 15], [7, 3, 14], [7, 3]]),
    (c!"citywords", [[13, 3], [13]]),
    (c!"placename", [[6], [6, 11]]),
    (c!"streetname", [[9], [8, 9]])]
  rules := [
    (c!"building", [
      ⟨[.PLACEN], [.BLDNG], c!"0.7"⟩,
      ⟨[.WORD, .PLACEN], [.BLDNG, .BLDNG], c!"0.6"⟩,
      ⟨[.WORD, .WORD, .PLACEN], [.BLDNG, .BLDNG, .BLDNG], c!"0.5"⟩,
      ⟨[.WORD, .WORD, .WORD, .PLACEN], [.BLDNG, .BLDNG, .BLDNG, .BLDNG], c!"0.4"⟩,
      ⟨[.PLACEN], [.BLDNG], c!"0.7"⟩,
      ⟨[.PLACEN, .WORD], [.BLDNG, .BLDNG], c!"0.6"⟩,
      ⟨[.PLACEN, .WORD, .WORD], [.BLDNG, .BLDNG, .BLDNG], c!"0.5"⟩,
      ⟨[.PLACEN, .WORD, .WORD, .WORD], [.BLDNG, .BLDNG, .BLDNG, .BLDNG], c!"0.4"⟩]),
    (c!"postal", [
      ⟨[.QUAD], [.POSTAL], c!"0.7"⟩,
      ⟨[.QUAD, .DOUBLE], [.POSTAL, .POSTAL], c!"0.7"⟩,
      ⟨[.NUMBER], [.POSTAL], c!"0.4"⟩,
      ⟨[.NATION, .QUAD], [.IGNORE, .POSTAL], c!"0.7"⟩,
      ⟨[.NATION, .QUAD, .DOUBLE], [.IGNORE, .POSTAL, .POSTAL], c!"0.7"⟩,
      ⟨[.NATION, .NUMBER], [.IGNORE, .POSTAL], c!"0.4"⟩,
      ⟨[.NATION, .DASH, .QUAD], [.IGNORE, .IGNORE, .POSTAL], c!"0.7"⟩,
      ⟨[.NATION, .DASH, .QUAD, .DOUBLE], [.IGNORE, .IGNORE, .POSTAL, .POSTAL], c!"0.7"⟩,
      ⟨[.NATION, .DASH, .NUMBER], [.IGNORE, .IGNORE, .POSTAL], c!"0.4"⟩]),
    (c!"prefix", [
      ⟨[.NUMBER, .SINGLE], [.STREET, .STREET], c!"0.3"⟩,
      ⟨[.NUMBER], [.STREET], c!"0.3"⟩]),
    (c!"basename", [
      ⟨[.WORD, .TYPE], [.STREET, .SUFTYP], c!"0.7"⟩,
      ⟨[.WORD, .WORD, .TYPE], [.STREET, .STREET, .SUFTYP], c!"0.6"⟩,
      ⟨[.WORD, .WORD, .WORD, .TYPE], [.STREET, .STREET, .STREET, .SUFTYP], c!"0.5"⟩,
      ⟨[.WORD, .WORD, .WORD, .WORD, .TYPE], [.STREET, .STREET, .STREET, .STREET, .SUFTYP], c!"0.4"⟩,
      ⟨[.WORD], [.STREET], c!"0.4"⟩,
      ⟨[.WORD, .WORD], [.STREET, .STREET], c!"0.3"⟩,
      ⟨[.WORD, .WORD, .WORD], [.STREET, .STREET, .STREET], c!"0.2"⟩,
      ⟨[.WORD, .WORD, .WORD, .WORD], [.STREET, .STREET, .STREET, .STREET], c!"0.1"⟩]),
    (c!"housenumber", [
      ⟨[.NUMBER], [.HOUSE], c!"0.5"⟩,
      ⟨[.NUMBER, .SINGLE], [.HOUSE, .HOUSE], c!"0.6"⟩,
      ⟨[.NUMBER, .DOUBLE], [.HOUSE, .HOUSE], c!"0.5"⟩,
      ⟨[.FRACT], [.HOUSE], c!"0.7"⟩,
      ⟨[.NUMBER, .SLASH, .NUMBER], [.HOUSE, .HOUSE, .HOUSE], c!"0.7"⟩,
      ⟨[.NUMBER, .SLASH, .SINGLE], [.HOUSE, .HOUSE, .HOUSE], c!"0.7"⟩,
      ⟨[.NUMBER, .SLASH, .NUMBER, .SINGLE], [.HOUSE, .HOUSE, .HOUSE, .HOUSE], c!"0.7"⟩,
      ⟨[.NUMBER, .DASH, .NUMBER], [.HOUSE, .HOUSE, .HOUSE], c!"0.7"⟩,
      ⟨[.NUMBER, .DASH, .SINGLE], [.HOUSE, .HOUSE, .HOUSE], c!"0.7"⟩,
      ⟨[.NUMBER, .DASH, .NUMBER, .SINGLE], [.HOUSE, .HOUSE, .HOUSE, .HOUSE], c!"0.7"⟩,
      ⟨[.FRACT, .SINGLE], [.HOUSE, .HOUSE], c!"0.8"⟩,
      ⟨[.FRACT, .DOUBLE], [.HOUSE, .HOUSE], c!"0.7"⟩,
      ⟨[.NUMBER, .SINGLE, .SINGLE], [.HOUSE, .HOUSE, .HOUSE], c!"0.7"⟩]),
    (c!"unit", [
      ⟨[.UNITH, .UNITT], [.UNITH, .UNITT], c!"0.8"⟩,
      ⟨[.UNITH, .WORD], [.UNITH, .BADTOKEN], c!"0.7"⟩,
      ⟨[.UNITH, .NUMBER], [.UNITH, .UNITT], c!"0.7"⟩,
      ⟨[.UNITH, .MIXED], [.UNITH, .UNITT], c!"0.7"⟩,
      ⟨[.UNITH, .WORD, .WORD], [.UNITH, .UNITT, .UNITT], c!"0.4"⟩,
      ⟨[.WORD, .NUMBER, .SINGLE], [.UNITH, .UNITT, .UNITT], c!"0.3"⟩]),
    (c!"pobox", [
      ⟨[.BOXH, .NUMBER], [.BOXH, .BOXT], c!"0.7"⟩,
      ⟨[.WORD, .NUMBER], [.BOXH, .BOXT], c!"0.3"⟩,
      ⟨[.NUMBER, .WORD], [.BOXT, .BOXH], c!"0.3"⟩]),
    (c!"city", [
      ⟨[.CITY], [.CITY], c!"0.9"⟩,
      ⟨[.WORD], [.CITY], c!"0.5"⟩]),
    (c!"region", [
      ⟨[.PROV], [.PROV], c!"0.9"⟩]),
    (c!"country", [
      ⟨[.NATION], [.NATION], c!"0.9"⟩])]

def newzealand : Coded where
  metas := [
    (c!"ADDRESS", [[1, 5]]),
    (c!"micro", [[9, 2], [8, 9, 2], [9, 2, 15], [8, 9, 2, 15], [15]]),
    (c!"streetname", [[3, 10, 4], [3, 10], [10, 4], [10]]),
    (c!"prefixtype", [[11, 13], [11], [13]]),
    (c!"suffixtype", [[14, 12], [14], [12]]),
    (c!"macro", [[6, 18, 17, 19], [6, 18, 19], [6, 18, 17], [6, 18]]),
    (c!"citywords", [[16, 6], [16]])]
  rules := [
    (c!"placename", [
      ⟨[.PLACEN], [.BLDNG], c!"0.7"⟩,
      ⟨[.PLACEN, .WORD], [.BLDNG, .BLDNG], c!"0.6"⟩,
      ⟨[.PLACEN, .WORD, .WORD], [.BLDNG, .BLDNG, .BLDNG], c!"0.5"⟩,
      ⟨[.PLACEN, .WORD, .WORD, .WORD], [.BLDNG, .BLDNG, .BLDNG, .BLDNG], c!"0.4"⟩,
      ⟨[.BUILDT], [.BLDNG], c!"0.7"⟩,
      ⟨[.BUILDT, .WORD], [.BLDNG, .BLDNG], c!"0.6"⟩,
      ⟨[.BUILDT, .WORD, .WORD], [.BLDNG, .BLDNG, .BLDNG], c!"0.5"⟩,
      ⟨[.BUILDT, .WORD, .WORD, .WORD], [.BLDNG, .BLDNG, .BLDNG, .BLDNG], c!"0.4"⟩]),
    (c!"unit", [
      ⟨[.NUMBER, .DASH], [.UNITT, .IGNORE], c!"0.7"⟩,
      ⟨[.UNITH], [.UNITH], c!"0.5"⟩,
      ⟨[.UNITH, .NUMBER], [.UNITH, .UNITT], c!"0.4"⟩,
      ⟨[.UNITH, .WORD], [.UNITH, .UNITT], c!"0.4"⟩,
      ⟨[.UNITH, .WORD, .WORD], [.UNITH, .UNITT, .UNITT], c!"0.4"⟩]),
    (c!"housenumber", [
      ⟨[.NUMBER], [.HOUSE], c!"0.3"⟩,
      ⟨[.NUMBER, .SINGLE], [.HOUSE, .HOUSE], c!"0.3"⟩,
      ⟨[.NUMBER, .SLASH, .NUMBER], [.IGNORE, .IGNORE, .HOUSE], c!"0.3"⟩,
      ⟨[.NUMBER, .DASH, .NUMBER], [.HOUSE, .IGNORE, .IGNORE], c!"0.3"⟩]),
    (c!"basename", [
      ⟨[.WORD], [.STREET], c!"0.4"⟩,
      ⟨[.WORD, .WORD], [.STREET, .STREET], c!"0.3"⟩,
      ⟨[.WORD, .WORD, .WORD], [.STREET, .STREET, .STREET], c!"0.2"⟩,
      ⟨[.WORD, .WORD, .WORD, .WORD], [.STREET, .STREET, .STREET, .STREET], c!"0.1"⟩]),
    (c!"prefix", [
      ⟨[.QUALIF, .DIRECT], [.QUALIF, .PREDIR], c!"0.8"⟩,
      ⟨[.DIRECT, .QUALIF], [.PREDIR, .QUALIF], c!"0.8"⟩,
      ⟨[.QUALIF], [.QUALIF], c!"0.8"⟩,
      ⟨[.DIRECT], [.PREDIR], c!"0.7"⟩]),
    (c!"suffix", [
      ⟨[.DIRECT, .QUALIF], [.SUFDIR, .QUALIF], c!"0.8"⟩,
      ⟨[.QUALIF, .DIRECT], [.QUALIF, .SUFDIR], c!"0.8"⟩,
      ⟨[.DIRECT], [.SUFDIR], c!"0.7"⟩,
      ⟨[.QUALIF], [.QUALIF], c!"0.8"⟩]),
    (c!"ptype", [
      ⟨[.TYPE], [.PRETYP], c!"0.7"⟩]),
    (c!"stype", [
      ⟨[.TYPE], [.SUFTYP], c!"0.7"⟩]),
    (c!"pobox", [
      ⟨[.NUMBER, .SINGLE, .TYPE], [.BOXT, .BOXH, .BOXH], c!"0.2"⟩,
      ⟨[.BOXH, .NUMBER], [.BOXH, .BOXT], c!"0.8"⟩,
      ⟨[.BOXH, .NUMBER, .NUMBER], [.BOXH, .BOXT, .BOXT], c!"0.8"⟩]),
    (c!"city", [
      ⟨[.DIRECT], [.CITY], c!"0.5"⟩,
      ⟨[.CITY], [.CITY], c!"0.9"⟩,
      ⟨[.WORD], [.CITY], c!"0.5"⟩]),
    (c!"postal", [
      ⟨[.QUAD], [.POSTAL], c!"0.7"⟩,
      ⟨[.NUMBER], [.POSTAL], c!"0.6"⟩]),
    (c!"prov", [
      ⟨[.PROV], [.PROV], c!"0.8"⟩,
      ⟨[.WORD], [.PROV], c!"0.4"⟩]),
    (c!"nation", [
      ⟨[.NATION], [.NATION], c!"0.8"⟩])]

def norway : Coded where
  metas := [
    (c!"ADDRESS", [[1, 2]]),
    (c!"micro", [[6, 7], [6, 7, 8], [9]]),
    (c!"macro", [[5, 3, 11], [5, 3]]),
    (c!"citywords", [[10, 3], [10]])]
  rules := [
    (c!"placename", [
      ⟨[.PLACEN], [.BLDNG], c!"0.7"⟩,
      ⟨[.PLACEN, .WORD], [.BLDNG, .BLDNG], c!"0.6"⟩,
      ⟨[.PLACEN, .WORD, .WORD], [.BLDNG, .BLDNG, .BLDNG], c!"0.5"⟩,
      ⟨[.PLACEN, .WORD, .WORD, .WORD], [.BLDNG, .BLDNG, .BLDNG, .BLDNG], c!"0.4"⟩,
      ⟨[.BUILDT], [.BLDNG], c!"0.7"⟩,
      ⟨[.BUILDT, .SINGLE, .NUMBER], [.BLDNG, .BLDNG, .BLDNG], c!"0.6"⟩,
      ⟨[.BUILDT, .WORD, .NUMBER], [.BLDNG, .BLDNG, .BLDNG], c!"0.5"⟩]),
    (c!"postal", [
      ⟨[.QUAD], [.POSTAL], c!"0.7"⟩,
      ⟨[.NUMBER], [.POSTAL], c!"0.4"⟩,
      ⟨[.NATION, .QUAD], [.IGNORE, .POSTAL], c!"0.7"⟩,
      ⟨[.NATION, .NUMBER], [.IGNORE, .POSTAL], c!"0.4"⟩,
      ⟨[.NATION, .DASH, .QUAD], [.IGNORE, .IGNORE, .POSTAL], c!"0.7"⟩,
      ⟨[.NATION, .DASH, .NUMBER], [.IGNORE, .IGNORE, .POSTAL], c!"0.4"⟩]),
    (c!"streetname", [
      ⟨[.WORD, .TYPE], [.STREET, .SUFTYP], c!"0.7"⟩,
      ⟨[.WORD, .WORD, .TYPE], [.STREET, .STREET, .SUFTYP], c!"0.6"⟩,
      ⟨[.WORD, .WORD, .WORD, .TYPE], [.STREET, .STREET, .STREET, .SUFTYP], c!"0.5"⟩,
      ⟨[.WORD, .WORD, .WORD, .WORD, .TYPE], [.STREET, .STREET, .STREET, .STREET, .SUFTYP], c!"0.4"⟩,
      ⟨[.WORD], [.STREET], c!"0.4"⟩,
      ⟨[.WORD, .WORD], [.STREET, .STREET], c!"0.3"⟩,
      ⟨[.WORD, .WORD, .WORD], [.STREET, .STREET, .STREET], c!"0.2"⟩,
      ⟨[.WORD, .WORD, .WORD, .WORD], [.STREET, .STREET, .STREET, .STREET], c!"0.1"⟩]),
    (c!"housenumber", [
      ⟨[.NUMBER], [.HOUSE], c!"0.5"⟩,
      ⟨[.NUMBER, .SINGLE], [.HOUSE, .HOUSE], c!"0.6"⟩,
      ⟨[.NUMBER, .DOUBLE], [.HOUSE, .HOUSE], c!"0.5"⟩,
      ⟨[.NUMBER, .SLASH, .NUMBER], [.HOUSE, .HOUSE, .HOUSE], c!"0.7"⟩,
      ⟨[.NUMBER, .DASH, .NUMBER], [.HOUSE, .HOUSE, .HOUSE], c!"0.7"⟩,
      ⟨[.NUMBER, .SLASH, .NUMBER, .SINGLE], [.HOUSE, .HOUSE, .HOUSE, .HOUSE], c!"0.7"⟩,
      ⟨[.NUMBER, .DASH, .NUMBER, .SINGLE], [.HOUSE, .HOUSE, .HOUSE, .HOUSE], c!"0.7"⟩,
      ⟨[.NUMBER, .SINGLE, .SINGLE], [.HOUSE, .HOUSE, .HOUSE], c!"0.7"⟩]),
    (c!"unit", [
      ⟨[.UNITH, .UNITT], [.UNITH, .UNITT], c!"0.8"⟩,
      ⟨[.UNITH, .WORD], [.UNITH, .BADTOKEN], c!"0.7"⟩,
      ⟨[.UNITH, .NUMBER], [.UNITH, .UNITT], c!"0.7"⟩,
      ⟨[.UNITH, .MIXED], [.UNITH, .UNITT], c!"0.7"⟩,
      ⟨[.UNITH, .WORD, .WORD], [.UNITH, .UNITT, .UNITT], c!"0.4"⟩]),
    (c!"pobox", [
      ⟨[.BOXH, .NUMBER], [.BOXH, .BOXT], c!"0.7"⟩,
      ⟨[.BOXH, .NUMBER, .WORD], [.BOXH, .BOXT, .BOXT], c!"0.7"⟩,
      ⟨[.BOXH, .NUMBER, .WORD, .WORD], [.BOXH, .BOXT, .BOXT, .BOXT], c!"0.7"⟩]),
    (c!"city", [
      ⟨[.DIRECT], [.CITY], c!"0.5"⟩,
      ⟨[.CITY], [.CITY], c!"0.9"⟩,
      ⟨[.WORD], [.CITY], c!"0.5"⟩]),
    (c!"country", [
      ⟨[.NATION], [.NATION], c!"0.9"⟩])]

def portugal : Coded where
  metas := [
    (c!"ADDRESS", [[1, 2]]),
    (c!"micro", [[8, 9], [10, 8, 9], [11]]),
    (c!"macro", [[3, 7, 4, 13, 14], [3, 7, 4, 14], [3, 7, 4, 13], [3, 7, 4], [7, 4, 13, 14], [7, 4, 14], [7, 4, 13], [7, 4]]),
    (c!"locality", [[5, 3], [5]]),
    (c!"citywords", [[12, 4], [12]])]
  rules := [
    (c!"word", [
      ⟨[.WORD], [.EXTRA], c!"0.3"⟩]),
    (c!"placename", [
      ⟨[.PLACEN], [.BLDNG], c!"0.7"⟩,
      ⟨[.PLACEN, .WORD], [.BLDNG, .BLDNG], c!"0.6"⟩,
      ⟨[.PLACEN, .WORD, .WORD], [.BLDNG, .BLDNG, .BLDNG], c!"0.5"⟩,
      ⟨[.PLACEN, .WORD, .WORD, .WORD], [.BLDNG, .BLDNG, .BLDNG, .BLDNG], c!"0.4"⟩]),
    (c!"postal", [
      ⟨[.QUAD], [.POSTAL], c!"0.7"⟩,
      ⟨[.NUMBER], [.POSTAL], c!"0.4"⟩,
      ⟨[.QUAD, .DASH, .NUMBER], [.POSTAL, .IGNORE, .POSTAL], c!"0.7"⟩,
      ⟨[.NUMBER, .DASH, .NUMBER], [.POSTAL, .IGNORE, .POSTAL], c!"0.4"⟩,
      ⟨[.SINGLE, .QUAD], [.IGNORE, .POSTAL], c!"0.7"⟩,
      ⟨[.SINGLE, .NUMBER], [.IGNORE, .POSTAL], c!"0.4"⟩,
      ⟨[.SINGLE, .QUAD, .DASH, .NUMBER], [.IGNORE, .POSTAL, .IGNORE, .POSTAL], c!"0.7"⟩,
      ⟨[.SINGLE, .NUMBER, .DASH, .NUMBER], [.IGNORE, .POSTAL, .IGNORE, .POSTAL], c!"0.4"⟩]),
    (c!"streetname", [
      ⟨[.TYPE, .WORD], [.PRETYP, .STREET], c!"0.7"⟩,
      ⟨[.TYPE, .WORD, .WORD], [.PRETYP, .STREET, .STREET], c!"0.6"⟩,
      ⟨[.TYPE, .WORD, .WORD, .WORD], [.PRETYP, .STREET, .STREET, .STREET], c!"0.5"⟩,
      ⟨[.TYPE, .WORD, .WORD, .WORD, .WORD], [.PRETYP, .STREET, .STREET, .STREET, .STREET], c!"0.4"⟩,
      ⟨[.WORD], [.STREET], c!"0.4"⟩,
      ⟨[.WORD, .WORD], [.STREET, .STREET], c!"0.3"⟩,
      ⟨[.WORD, .WORD, .WORD], [.STREET, .STREET, .STREET], c!"0.2"⟩,
      ⟨[.WORD, .WORD, .WORD, .WORD], [.STREET, .STREET, .STREET, .STREET], c!"0.1"⟩]),
    (c!"housenumber", [
      ⟨[.NUMBER], [.HOUSE], c!"0.5"⟩,
      ⟨[.NUMBER, .SINGLE], [.HOUSE, .HOUSE], c!"0.6"⟩,
      ⟨[.NUMBER, .DOUBLE], [.HOUSE, .HOUSE], c!"0.5"⟩,
      ⟨[.NUMBER, .DASH, .SINGLE], [.HOUSE, .HOUSE, .HOUSE], c!"0.7"⟩,
      ⟨[.NUMBER, .DASH, .NUMBER], [.HOUSE, .HOUSE, .HOUSE], c!"0.7"⟩,
      ⟨[.NUMBER, .DASH, .NUMBER, .SINGLE], [.HOUSE, .HOUSE, .HOUSE, .HOUSE], c!"0.7"⟩,
      ⟨[.NUMBER, .SLASH, .SINGLE], [.HOUSE, .HOUSE, .HOUSE], c!"0.7"⟩,
      ⟨[.NUMBER, .SLASH, .NUMBER], [.HOUSE, .HOUSE, .HOUSE], c!"0.7"⟩,
      ⟨[.NUMBER, .SLASH, .NUMBER, .SINGLE], [.HOUSE, .HOUSE, .HOUSE, .HOUSE], c!"0.7"⟩]),
    (c!"unit", [
      ⟨[.UNITH, .NUMBER], [.UNITH, .UNITT], c!"0.7"⟩,
      ⟨[.UNITH, .NUMBER, .SINGLE], [.UNITH, .UNITT, .UNITT], c!"0.7"⟩,
      ⟨[.UNITH, .NUMBER, .UNITH, .NUMBER], [.UNITH, .UNITT, .UNITH, .UNITT], c!"0.7"⟩,
      ⟨[.UNITH, .WORD], [.UNITH, .UNITT], c!"0.7"⟩,
      ⟨[.UNITH, .NUMBER, .SINGLE, .UNITH, .NUMBER], [.UNITH, .UNITT, .UNITT, .UNITH, .UNITT], c!"0.7"⟩]),
    (c!"pobox", [
      ⟨[.BOXH, .NUMBER], [.BOXH, .BOXT], c!"0.7"⟩]),
    (c!"city", [
      ⟨[.CITY], [.CITY], c!"0.9"⟩,
      ⟨[.WORD], [.CITY], c!"0.5"⟩]),
    (c!"region", [
      ⟨[.PROV], [.PROV], c!"0.9"⟩]),
    (c!"country", [
      ⟨[.NATION], [.NATION], c!"0.9"⟩])]

def sanMarino : Coded where
  metas := [
    (c!"ADDRESS", [[1, 2]]),
    (c!"micro", [[6, 7], [8]]),
    (c!"macro", [[5, 3, 10], [5, 3]]),
    (c!"citywords", [[9, 3], [9]])]
  rules := [
    (c!"placename", [
      ⟨[.PLACEN], [.BLDNG], c!"0.7"⟩,
      ⟨[.PLACEN, .WORD], [.BLDNG, .BLDNG], c!"0.6"⟩,
      ⟨[.PLACEN, .WORD, .WORD], [.BLDNG, .BLDNG, .BLDNG], c!"0.5"⟩,
      ⟨[.PLACEN, .WORD, .WORD, .WORD], [.BLDNG, .BLDNG, .BLDNG, .BLDNG], c!"0.4"⟩,
      ⟨[.BUILDT], [.BLDNG], c!"0.7"⟩,
      ⟨[.BUILDT, .WORD], [.BLDNG, .BLDNG], c!"0.6"⟩,
      ⟨[.BUILDT, .WORD, .WORD], [.BLDNG, .BLDNG, .BLDNG], c!"0.5"⟩,
      ⟨[.BUILDT, .WORD, .WORD, .WORD], [.BLDNG, .BLDNG, .BLDNG, .BLDNG], c!"0.4"⟩]),
    (c!"postal", [
      ⟨[.QUINT], [.POSTAL], c!"0.7"⟩,
      ⟨[.NUMBER], [.POSTAL], c!"0.4"⟩]),
    (c!"streetname", [
      ⟨[.WORD, .TYPE], [.STREET, .SUFTYP], c!"0.7"⟩,
      ⟨[.WORD, .WORD, .TYPE], [.STREET, .STREET, .SUFTYP], c!"0.6"⟩,
      ⟨[.WORD, .WORD, .WORD, .TYPE], [.STREET, .STREET, .STREET, .SUFTYP], c!"0.5"⟩,
      ⟨[.WORD, .WORD, .WORD, .WORD, .TYPE], [.STREET, .STREET, .STREET, .STREET, .SUFTYP], c!"0.4"⟩,
      ⟨[.TYPE, .WORD], [.PRETYP, .STREET], c!"0.7"⟩,
      ⟨[.TYPE, .WORD, .WORD], [.PRETYP, .STREET, .STREET], c!"0.6"⟩,
      ⟨[.TYPE, .WORD, .WORD, .WORD], [.PRETYP, .STREET, .STREET, .STREET], c!"0.5"⟩,
      ⟨[.TYPE, .WORD, .WORD, .WORD, .WORD], [.PRETYP, .STREET, .STREET, .STREET, .STREET], c!"0.4"⟩,
      ⟨[.WORD], [.STREET], c!"0.4"⟩,
      ⟨[.WORD, .WORD], [.STREET, .STREET], c!"0.3"⟩,
      ⟨[.WORD, .WORD, .WORD], [.STREET, .STREET, .STREET], c!"0.2"⟩,
      ⟨[.WORD, .WORD, .WORD, .WORD], [.STREET, .STREET, .STREET, .STREET], c!"0.1"⟩]),
    (c!"housenumber", [
      ⟨[.NUMBER], [.HOUSE], c!"0.5"⟩,
      ⟨[.NUMBER, .SINGLE], [.HOUSE, .HOUSE], c!"0.6"⟩,
      ⟨[.NUMBER, .DOUBLE], [.HOUSE, .HOUSE], c!"0.5"⟩,
      ⟨[.NUMBER, .NUMBER], [.HOUSE, .HOUSE], c!"0.5"⟩,
      ⟨[.NUMBER, .DASH, .NUMBER], [.HOUSE, .HOUSE, .HOUSE], c!"0.7"⟩,
      ⟨[.NUMBER, .SLASH, .SINGLE], [.HOUSE, .HOUSE, .HOUSE], c!"0.7"⟩,
      ⟨[.NUMBER, .SLASH, .NUMBER], [.HOUSE, .HOUSE, .HOUSE], c!"0.7"⟩,
      ⟨[.NUMBER, .SLASH, .NUMBER, .SINGLE], [.HOUSE, .HOUSE, .HOUSE, .HOUSE], c!"0.7"⟩]),
    (c!"pobox", [
      ⟨[.BOXH, .NUMBER], [.BOXH, .BOXT], c!"0.7"⟩]),
    (c!"city", [
      ⟨[.CITY], [.CITY], c!"0.9"⟩,
      ⟨[.WORD], [.CITY], c!"0.5"⟩]),
    (c!"country", [
      ⟨[.NATION], [.NATION], c!"0.9"⟩])]

def spain : Coded where
  metas := [
    (c!"ADDRESS", [[1, 2], [3, 1, 2], [3, 2]]),
    (c!"micro", [[10, 11], [10, 11, 12], [10, 11, 12, 12], [13]]),
    (c!"macro", [[9, 4, 14, 15], [9, 4, 15], [9, 4, 14], [9, 4], [9, 6, 14, 15], [9, 6, 15], [9, 6, 14], [9, 6]]),
    (c!"locality", [[5, 3], [5]]),
    (c!"citywords", [[7, 4], [7]])]
  rules := [
    (c!"locword", [
      ⟨[.WORD], [.EXTRA], c!"0.3"⟩]),
    (c!"city", [
      ⟨[.CITY], [.CITY], c!"0.8"⟩]),
    (c!"c_word", [
      ⟨[.WORD], [.CITY], c!"0.5"⟩]),
    (c!"placename", [
      ⟨[.PLACEN], [.BLDNG], c!"0.7"⟩,
      ⟨[.PLACEN, .WORD], [.BLDNG, .BLDNG], c!"0.6"⟩,
      ⟨[.PLACEN, .WORD, .WORD], [.BLDNG, .BLDNG, .BLDNG], c!"0.5"⟩,
      ⟨[.PLACEN, .WORD, .WORD, .WORD], [.BLDNG, .BLDNG, .BLDNG, .BLDNG], c!"0.4"⟩]),
    (c!"postal", [
      ⟨[.QUINT], [.POSTAL], c!"0.7"⟩,
      ⟨[.NUMBER], [.POSTAL], c!"0.4"⟩,
      ⟨[.SINGLE, .QUINT], [.IGNORE, .POSTAL], c!"0.7"⟩,
      ⟨[.SINGLE, .NUMBER], [.IGNORE, .POSTAL], c!"0.4"⟩,
      ⟨[.SINGLE, .DASH, .QUINT], [.IGNORE, .IGNORE, .POSTAL], c!"0.7"⟩,
      ⟨[.SINGLE, .DASH, .NUMBER], [.IGNORE, .IGNORE, .POSTAL], c!"0.4"⟩]),
    (c!"streetname", [
      ⟨[.TYPE, .WORD], [.PRETYP, .STREET], c!"0.7"⟩,
      ⟨[.TYPE, .WORD, .WORD], [.PRETYP, .STREET, .STREET], c!"0.6"⟩,
      ⟨[.TYPE, .WORD, .WORD, .WORD], [.PRETYP, .STREET, .STREET, .STREET], c!"0.5"⟩,
      ⟨[.TYPE, .WORD, .WORD, .WORD, .WORD], [.PRETYP, .STREET, .STREET, .STREET, .STREET], c!"0.4"⟩,
      ⟨[.WORD], [.STREET], c!"0.4"⟩,
      ⟨[.WORD, .WORD], [.STREET, .STREET], c!"0.3"⟩,
      ⟨[.WORD, .WORD, .WORD], [.STREET, .STREET, .STREET], c!"0.2"⟩,
      ⟨[.WORD, .WORD, .WORD, .WORD], [.STREET, .STREET, .STREET, .STREET], c!"0.1"⟩]),
    (c!"housenumber", [
      ⟨[.NUMBER], [.HOUSE], c!"0.5"⟩,
      ⟨[.NUMBER, .DASH, .NUMBER], [.HOUSE, .HOUSE, .HOUSE], c!"0.7"⟩,
      ⟨[.NUMBER, .DASH, .NUMBER, .SINGLE], [.HOUSE, .HOUSE, .HOUSE, .HOUSE], c!"0.7"⟩,
      ⟨[.NUMBER, .DASH, .NUMBER, .UNITH], [.HOUSE, .IGNORE, .UNITT, .IGNORE], c!"0.7"⟩,
      ⟨[.NUMBER, .WORD, .SINGLE], [.HOUSE, .UNITT, .UNITT], c!"0.5"⟩]),
    (c!"unit", [
      ⟨[.UNITH, .NUMBER], [.UNITH, .UNITT], c!"0.7"⟩,
      ⟨[.NUMBER, .UNITH], [.UNITT, .UNITH], c!"0.7"⟩,
      ⟨[.NUMBER, .UNITH, .SINGLE], [.UNITT, .UNITH, .UNITT], c!"0.7"⟩,
      ⟨[.UNITH, .NUMBER, .NUMBER, .UNITH], [.UNITH, .UNITT, .UNITT, .IGNORE], c!"0.7"⟩,
      ⟨[.UNITH, .NUMBER, .WORD], [.UNITH, .UNITT, .UNITT], c!"0.7"⟩,
      ⟨[.UNITH, .NUMBER, .SINGLE], [.UNITH, .UNITT, .UNITT], c!"0.7"⟩,
      ⟨[.UNITH, .NUMBER, .NUMBER, .UNITH, .SINGLE], [.UNITH, .UNITT, .UNITT, .IGNORE, .UNITT], c!"0.7"⟩,
      ⟨[.UNITH, .NUMBER, .WORD, .SINGLE], [.UNITH, .UNITT, .UNITT, .UNITT], c!"0.7"⟩]),
    (c!"pobox", [
      ⟨[.BOXH, .NUMBER], [.BOXH, .BOXT], c!"0.7"⟩]),
    (c!"prov", [
      ⟨[.PROV], [.PROV], c!"0.9"⟩]),
    (c!"nation", [
      ⟨[.NATION], [.NATION], c!"0.9"⟩])]

def sweden : Coded where
  metas := [
    (c!"ADDRESS", [[1, 2]]),
    (c!"micro", [[6, 7], [6, 7, 8], [9]]),
    (c!"macro", [[5, 3, 11], [5, 3]]),
    (c!"citywords", [[10, 3], [10]])]
  rules := [
    (c!"placename", [
      ⟨[.PLACEN], [.BLDNG], c!"0.7"⟩,
      ⟨[.PLACEN, .WORD], [.BLDNG, .BLDNG], c!"0.6"⟩,
      ⟨[.PLACEN, .WORD, .WORD], [.BLDNG, .BLDNG, .BLDNG], c!"0.5"⟩,
      ⟨[.PLACEN, .WORD, .WORD, .WORD], [.BLDNG, .BLDNG, .BLDNG, .BLDNG], c!"0.4"⟩,
      ⟨[.BUILDT], [.BLDNG], c!"0.7"⟩,
      ⟨[.BUILDT, .WORD], [.BLDNG, .BLDNG], c!"0.6"⟩,
      ⟨[.BUILDT, .WORD, .WORD], [.BLDNG, .BLDNG, .BLDNG], c!"0.5"⟩,
      ⟨[.BUILDT, .WORD, .WORD, .WORD], [.BLDNG, .BLDNG, .BLDNG, .BLDNG], c!"0.4"⟩]),
    (c!"postal", [
      ⟨[.QUINT], [.POSTAL], c!"0.7"⟩,
      ⟨[.NUMBER], [.POSTAL], c!"0.4"⟩,
      ⟨[.NUMBER, .NUMBER], [.POSTAL, .POSTAL], c!"0.4"⟩,
      ⟨[.NATION, .DASH, .QUINT], [.IGNORE, .IGNORE, .POSTAL], c!"0.7"⟩,
      ⟨[.NATION, .DASH, .NUMBER], [.IGNORE, .IGNORE, .POSTAL], c!"0.4"⟩,
      ⟨[.NATION, .DASH, .NUMBER, .NUMBER], [.IGNORE, .IGNORE, .POSTAL, .POSTAL], c!"0.4"⟩]),
    (c!"streetname", [
      ⟨[.WORD, .TYPE], [.STREET, .SUFTYP], c!"0.7"⟩,
      ⟨[.WORD, .WORD, .TYPE], [.STREET, .STREET, .SUFTYP], c!"0.6"⟩,
      ⟨[.WORD, .WORD, .WORD, .TYPE], [.STREET, .STREET, .STREET, .SUFTYP], c!"0.5"⟩,
      ⟨[.WORD, .WORD, .WORD, .WORD, .TYPE], [.STREET, .STREET, .STREET, .STREET, .SUFTYP], c!"0.4"⟩,
      ⟨[.WORD], [.STREET], c!"0.4"⟩,
      ⟨[.WORD, .WORD], [.STREET, .STREET], c!"0.3"⟩,
      ⟨[.WORD, .WORD, .WORD], [.STREET, .STREET, .STREET], c!"0.2"⟩,
      ⟨[.WORD, .WORD, .WORD, .WORD], [.STREET, .STREET, .STREET, .STREET], c!"0.1"⟩]),
    (c!"housenumber", [
      ⟨[.NUMBER], [.HOUSE], c!"0.5"⟩]),
    (c!"unit", [
      ⟨[.UNITH, .UNITT], [.UNITH, .UNITT], c!"0.8"⟩,
      ⟨[.UNITH, .WORD], [.UNITH, .BADTOKEN], c!"0.7"⟩,
      ⟨[.UNITH, .NUMBER], [.UNITH, .UNITT], c!"0.7"⟩,
      ⟨[.UNITH, .MIXED], [.UNITH, .UNITT], c!"0.7"⟩,
      ⟨[.UNITH, .WORD, .WORD], [.UNITH, .UNITT, .UNITT], c!"0.4"⟩]),
    (c!"pobox", [
      ⟨[.BOXH, .NUMBER], [.BOXH, .BOXT], c!"0.7"⟩]),
    (c!"city", [
      ⟨[.CITY], [.CITY], c!"0.9"⟩,
      ⟨[.WORD], [.CITY], c!"0.5"⟩]),
    (c!"country", [
      ⟨[.NATION], [.NATION], c!"0.9"⟩])]

def switzerland : Coded where
  metas := [
    (c!"ADDRESS", [[1, 2], [1, 10, 2]]),
    (c!"micro", [[7, 8], [7, 8, 9], [10]]),
    (c!"macro", [[6, 3, 11, 12], [6, 3, 12], [6, 3, 11], [6, 3]]),
    (c!"citywords", [[4, 3], [4]])]
  rules := [
    (c!"city", [
      ⟨[.DIRECT], [.CITY], c!"0.5"⟩,
      ⟨[.CITY], [.CITY], c!"0.9"⟩,
      ⟨[.WORD], [.CITY], c!"0.5"⟩]),
    (c!"placename", [
      ⟨[.PLACEN], [.BLDNG], c!"0.7"⟩,
      ⟨[.PLACEN, .WORD], [.BLDNG, .BLDNG], c!"0.6"⟩,
      ⟨[.PLACEN, .WORD, .WORD], [.BLDNG, .BLDNG, .BLDNG], c!"0.5"⟩,
      ⟨[.PLACEN, .WORD, .WORD, .WORD], [.BLDNG, .BLDNG, .BLDNG, .BLDNG], c!"0.4"⟩]),
    (c!"postal", [
      ⟨[.QUAD], [.POSTAL], c!"0.7"⟩,
      ⟨[.NUMBER], [.POSTAL], c!"0.4"⟩]),
    (c!"streetname", [
      ⟨[.TYPE, .WORD], [.PRETYP, .STREET], c!"0.7"⟩,
      ⟨[.TYPE, .WORD, .WORD], [.PRETYP, .STREET, .STREET], c!"0.6"⟩,
      ⟨[.TYPE, .WORD, .WORD, .WORD], [.PRETYP, .STREET, .STREET, .STREET], c!"0.5"⟩,
      ⟨[.TYPE, .WORD, .WORD, .WORD, .WORD], [.PRETYP, .STREET, .STREET, .STREET, .STREET], c!"0.5"⟩,
      ⟨[.WORD, .TYPE], [.STREET, .SUFTYP], c!"0.7"⟩,
      ⟨[.WORD, .WORD, .TYPE], [.STREET, .STREET, .SUFTYP], c!"0.6"⟩,
      ⟨[.WORD, .WORD, .WORD, .TYPE], [.STREET, .STREET, .STREET, .SUFTYP], c!"0.5"⟩,
      ⟨[.WORD, .WORD, .WORD, .WORD, .TYPE], [.STREET, .STREET, .STREET, .STREET, .SUFTYP], c!"0.4"⟩,
      ⟨[.WORD], [.STREET], c!"0.4"⟩,
      ⟨[.WORD, .WORD], [.STREET, .STREET], c!"0.3"⟩,
      ⟨[.WORD, .WORD, .WORD], [.STREET, .STREET, .STREET], c!"0.2"⟩,
      ⟨[.WORD, .WORD, .WORD, .WORD], [.STREET, .STREET, .STREET, .STREET], c!"0.1"⟩]),
    (c!"housenumber", [
      ⟨[.NUMBER], [.HOUSE], c!"0.5"⟩,
      ⟨[.NUMBER, .SINGLE], [.HOUSE, .HOUSE], c!"0.6"⟩,
      ⟨[.NUMBER, .DOUBLE], [.HOUSE, .HOUSE], c!"0.5"⟩]),
    (c!"unit", [
      ⟨[.UNITH, .UNITT], [.UNITH, .UNITT], c!"0.8"⟩,
      ⟨[.UNITH, .WORD], [.UNITH, .BADTOKEN], c!"0.7"⟩,
      ⟨[.UNITH, .NUMBER], [.UNITH, .UNITT], c!"0.7"⟩,
      ⟨[.UNITH, .MIXED], [.UNITH, .UNITT], c!"0.7"⟩,
      ⟨[.UNITH, .WORD, .WORD], [.UNITH, .UNITT, .UNITT], c!"0.4"⟩]),
    (c!"pobox", [
      ⟨[.BOXH, .NUMBER], [.BOXH, .BOXT], c!"0.7"⟩]),
    (c!"region", [
      ⟨[.PROV], [.PROV], c!"0.9"⟩,
      ⟨[.NUMBER], [.IGNORE], c!"0.3"⟩]),
    (c!"country", [
      ⟨[.NATION], [.NATION], c!"0.9"⟩])]

def usa : Coded where
  metas := [
    (c!"ADDRESS", [[2, 3]]),
    (c!"building", [[7, 8]]),
    (c!"micro", [[10, 4, 18], [10, 4], [16], [16, 9], [9]]),
    (c!"macro", [[19, 21, 20, 22], [19, 21, 20], [19, 21, 22], [19, 21]]),
    (c!"street", [[5, 11, 6], [12, 17, 11, 13], [12, 17, 11], [17, 11, 13], [5, 11], [17, 11], [11, 6], [11]]),
    (c!"prefixtype", [[12, 14], [12], [14]]),
    (c!"suffixtype", [[15, 13], [15], [13]])]
  rules := [
    (c!"buildt", [
      ⟨[.BUILDT], [.BLDNG], c!"0.4"⟩,
      ⟨[.PLACEN], [.BLDNG], c!"0.4"⟩]),
    (c!"buildn", [
      ⟨[.WORD], [.BLDNG], c!"0.4"⟩,
      ⟨[.WORD, .WORD], [.BLDNG, .BLDNG], c!"0.3"⟩,
      ⟨[.WORD, .WORD, .WORD], [.BLDNG, .BLDNG, .BLDNG], c!"0.2"⟩,
      ⟨[.WORD, .WORD, .WORD, .WORD], [.BLDNG, .BLDNG, .BLDNG, .BLDNG], c!"0.1"⟩]),
    (c!"pobox", [
      ⟨[.BOXH, .NUMBER], [.BOXH, .BOXT], c!"0.7"⟩,
      ⟨[.BOXH, .NUMBER, .SINGLE], [.BOXH, .BOXT, .BOXT], c!"0.7"⟩]),
    (c!"housenum", [
      ⟨[.NUMBER, .SLASH, .SINGLE], [.HOUSE, .HOUSE, .HOUSE], c!"0.3"⟩,
      ⟨[.NUMBER, .SLASH, .DOUBLE], [.HOUSE, .HOUSE, .HOUSE], c!"0.3"⟩,
      ⟨[.NUMBER, .FRACT], [.HOUSE, .HOUSE], c!"0.3"⟩,
      ⟨[.NUMBER, .SINGLE], [.HOUSE, .HOUSE], c!"0.3"⟩,
      ⟨[.NUMBER, .DOUBLE], [.HOUSE, .HOUSE], c!"0.3"⟩,
      ⟨[.MILE, .NUMBER], [.HOUSE, .HOUSE], c!"0.1"⟩,
      ⟨[.NUMBER, .MILE], [.HOUSE, .HOUSE], c!"0.1"⟩,
      ⟨[.NUMBER], [.HOUSE], c!"0.3"⟩,
      ⟨[.FRACT], [.HOUSE], c!"0.3"⟩,
      ⟨[.MIXED], [.HOUSE], c!"0.3"⟩,
      ⟨[.DIRECT, .NUMBER, .DIRECT, .NUMBER], [.HOUSE, .HOUSE, .HOUSE, .HOUSE], c!"0.4"⟩,
      ⟨[.DIRECT, .NUMBER, .NUMBER], [.HOUSE, .HOUSE, .HOUSE], c!"0.4"⟩,
      ⟨[.DIRECT, .NUMBER], [.HOUSE, .HOUSE], c!"0.4"⟩]),
    (c!"basename", [
      ⟨[.SINGLE, .AMPERS, .SINGLE, .WORD, .WORD], [.STREET, .STREET, .STREET, .STREET, .STREET], c!"0.5"⟩,
      ⟨[.SINGLE, .AMPERS, .SINGLE, .WORD], [.STREET, .STREET, .STREET, .STREET], c!"0.5"⟩,
      ⟨[.SINGLE, .AMPERS, .SINGLE], [.STREET, .STREET, .STREET], c!"0.5"⟩,
      ⟨[.WORD, .AMPERS, .WORD], [.STREET, .STREET, .STREET], c!"0.5"⟩,
      ⟨[.WORD, .WORD, .WORD, .WORD, .WORD], [.STREET, .STREET, .STREET, .STREET, .STREET], c!"0.1"⟩,
      ⟨[.WORD, .WORD, .WORD, .WORD], [.STREET, .STREET, .STREET, .STREET], c!"0.1"⟩,
      ⟨[.WORD, .WORD, .WORD], [.STREET, .STREET, .STREET], c!"0.1"⟩,
      ⟨[.WORD, .WORD], [.STREET, .STREET], c!"0.1"⟩,
      ⟨[.ORD], [.STREET], c!"0.4"⟩,
      ⟨[.SINGLE, .NUMBER], [.STREET, .STREET], c!"0.4"⟩,
      ⟨[.DOUBLE, .NUMBER], [.STREET, .STREET], c!"0.4"⟩,
      ⟨[.SINGLE, .WORD], [.STREET, .STREET], c!"0.3"⟩,
      ⟨[.SINGLE, .SINGLE, .WORD], [.STREET, .STREET, .STREET], c!"0.3"⟩,
      ⟨[.NUMBER, .QUALIF], [.STREET, .QUALIF], c!"0.5"⟩,
      ⟨[.NUMBER, .SINGLE], [.STREET, .STREET], c!"0.4"⟩,
      ⟨[.NUMBER, .DOUBLE], [.STREET, .STREET], c!"0.3"⟩,
      ⟨[.NUMBER, .WORD], [.STREET, .STREET], c!"0.3"⟩,
      ⟨[.NUMBER], [.STREET], c!"0.3"⟩,
      ⟨[.SINGLE], [.STREET], c!"0.3"⟩,
      ⟨[.DOUBLE], [.STREET], c!"0.3"⟩,
      ⟨[.MIXED], [.STREET], c!"0.3"⟩,
      ⟨[.WORD], [.STREET], c!"0.2"⟩,
      ⟨[.NUMBER, .FRACT], [.STREET, .STREET], c!"0.1"⟩,
      ⟨[.TYPE], [.STREET], c!"0.1"⟩]),
    (c!"prefix", [
      ⟨[.QUALIF, .DIRECT], [.QUALIF, .PREDIR], c!"0.8"⟩,
      ⟨[.DIRECT, .QUALIF], [.PREDIR, .QUALIF], c!"0.8"⟩,
      ⟨[.QUALIF], [.QUALIF], c!"0.8"⟩,
      ⟨[.DIRECT], [.PREDIR], c!"0.7"⟩]),
    (c!"suffix", [
      ⟨[.DIRECT, .QUALIF], [.SUFDIR, .QUALIF], c!"0.8"⟩,
      ⟨[.QUALIF, .DIRECT], [.QUALIF, .SUFDIR], c!"0.8"⟩,
      ⟨[.DIRECT], [.SUFDIR], c!"0.7"⟩,
      ⟨[.QUALIF], [.QUALIF], c!"0.8"⟩]),
    (c!"ptype", [
      ⟨[.TYPE], [.PRETYP], c!"0.7"⟩]),
    (c!"stype", [
      ⟨[.TYPE], [.SUFTYP], c!"0.7"⟩]),
    (c!"ruralroute", [
      ⟨[.RR, .NUMBER, .SINGLE], [.RR, .RR, .RR], c!"0.3"⟩,
      ⟨[.RR, .NUMBER, .DOUBLE], [.RR, .RR, .RR], c!"0.3"⟩,
      ⟨[.RR, .NUMBER, .MIXED], [.RR, .RR, .RR], c!"0.3"⟩,
      ⟨[.RR, .SINGLE, .NUMBER], [.RR, .RR, .RR], c!"0.3"⟩,
      ⟨[.RR, .DOUBLE, .NUMBER], [.RR, .RR, .RR], c!"0.3"⟩,
      ⟨[.RR, .MIXED, .NUMBER], [.RR, .RR, .RR], c!"0.3"⟩,
      ⟨[.RR, .WORD, .NUMBER], [.RR, .RR, .RR], c!"0.2"⟩,
      ⟨[.RR, .NUMBER], [.RR, .RR], c!"0.3"⟩,
      ⟨[.RR, .SINGLE], [.RR, .RR], c!"0.3"⟩,
      ⟨[.RR, .DOUBLE], [.RR, .RR], c!"0.3"⟩,
      ⟨[.RR, .MIXED], [.RR, .RR], c!"0.3"⟩,
      ⟨[.RR], [.RR], c!"0.8"⟩]),
    (c!"road", [
      ⟨[.PROV, .ROAD], [.EXTRA, .PRETYP], c!"0.8"⟩,
      ⟨[.ROAD], [.PRETYP], c!"0.8"⟩,
      ⟨[.WORD, .ROAD], [.EXTRA, .PRETYP], c!"0.6"⟩]),
    (c!"unit", [
      ⟨[.UNITH, .NUMBER], [.UNITH, .UNITT], c!"0.6"⟩,
      ⟨[.UNITH, .NUMBER, .WORD], [.UNITH, .UNITT, .UNITT], c!"0.6"⟩,
      ⟨[.UNITH, .UNITH], [.UNITH, .UNITT], c!"0.6"⟩,
      ⟨[.UNITH, .WORD, .WORD, .WORD], [.UNITH, .UNITT, .UNITT, .UNITT], c!"0.4"⟩,
      ⟨[.UNITH, .WORD, .WORD], [.UNITH, .UNITT, .UNITT], c!"0.4"⟩,
      ⟨[.UNITH, .WORD], [.UNITH, .UNITT], c!"0.4"⟩]),
    (c!"city", [
      ⟨[.CITY], [.CITY], c!"0.8"⟩,
      ⟨[.DIRECT, .CITY], [.CITY, .CITY], c!"0.6"⟩,
      ⟨[.DIRECT, .WORD, .WORD, .WORD, .WORD], [.CITY, .CITY, .CITY, .CITY, .CITY], c!"0.3"⟩,
      ⟨[.DIRECT, .WORD, .WORD, .WORD], [.CITY, .CITY, .CITY, .CITY], c!"0.4"⟩,
      ⟨[.DIRECT, .WORD, .WORD], [.CITY, .CITY, .CITY], c!"0.5"⟩,
      ⟨[.DIRECT, .WORD], [.CITY, .CITY], c!"0.5"⟩,
      ⟨[.WORD, .WORD, .WORD, .WORD], [.CITY, .CITY, .CITY, .CITY], c!"0.2"⟩,
      ⟨[.WORD, .WORD, .WORD], [.CITY, .CITY, .CITY], c!"0.2"⟩,
      ⟨[.WORD, .WORD], [.CITY, .CITY], c!"0.1"⟩,
      ⟨[.WORD], [.CITY], c!"0.1"⟩]),
    (c!"postal", [
      ⟨[.QUINT], [.POSTAL], c!"0.5"⟩,
      ⟨[.NUMBER], [.POSTAL], c!"0.3"⟩,
      ⟨[.QUINT, .DASH, .QUAD], [.POSTAL, .IGNORE, .POSTAL], c!"0.7"⟩,
      ⟨[.NUMBER, .DASH, .NUMBER], [.POSTAL, .IGNORE, .POSTAL], c!"0.4"⟩,
      ⟨[.QUINT, .QUAD], [.POSTAL, .POSTAL], c!"0.7"⟩,
      ⟨[.NUMBER, .NUMBER], [.POSTAL, .POSTAL], c!"0.4"⟩,
      ⟨[.PCH, .PCT], [.POSTAL, .POSTAL], c!"0.7"⟩,
      ⟨[.PCH], [.POSTAL], c!"0.6"⟩]),
    (c!"prov", [
      ⟨[.PROV], [.PROV], c!"0.8"⟩]),
    (c!"nation", [
      ⟨[.NATION], [.NATION], c!"0.8"⟩])]

def vatican : Coded where
  metas := [
    (c!"ADDRESS", [[1, 2], [3, 1, 2], [3, 2], [3, 5, 2]]),
    (c!"micro", [[5, 6], [7]]),
    (c!"macro", [[4, 8, 9], [4, 8]])]
  rules := [
    (c!"placename", [
      ⟨[.PLACEN], [.BLDNG], c!"0.7"⟩,
      ⟨[.PLACEN, .WORD], [.BLDNG, .BLDNG], c!"0.6"⟩,
      ⟨[.PLACEN, .WORD, .WORD], [.BLDNG, .BLDNG, .BLDNG], c!"0.5"⟩,
      ⟨[.PLACEN, .WORD, .WORD, .WORD], [.BLDNG, .BLDNG, .BLDNG, .BLDNG], c!"0.4"⟩]),
    (c!"postal", [
      ⟨[.QUINT], [.POSTAL], c!"0.7"⟩,
      ⟨[.NUMBER], [.POSTAL], c!"0.4"⟩]),
    (c!"streetname", [
      ⟨[.TYPE, .WORD], [.PRETYP, .STREET], c!"0.7"⟩,
      ⟨[.TYPE, .WORD, .WORD], [.PRETYP, .STREET, .STREET], c!"0.6"⟩,
      ⟨[.TYPE, .WORD, .WORD, .WORD], [.PRETYP, .STREET, .STREET, .STREET], c!"0.5"⟩,
      ⟨[.TYPE, .WORD, .WORD, .WORD, .WORD], [.PRETYP, .STREET, .STREET, .STREET, .STREET], c!"0.4"⟩,
      ⟨[.WORD], [.STREET], c!"0.4"⟩,
      ⟨[.WORD, .WORD], [.STREET, .STREET], c!"0.3"⟩,
      ⟨[.WORD, .WORD, .WORD], [.STREET, .STREET, .STREET], c!"0.2"⟩,
      ⟨[.WORD, .WORD, .WORD, .WORD], [.STREET, .STREET, .STREET, .STREET], c!"0.1"⟩]),
    (c!"housenumber", [
      ⟨[.NUMBER], [.HOUSE], c!"0.5"⟩,
      ⟨[.NUMBER, .SINGLE], [.HOUSE, .HOUSE], c!"0.6"⟩,
      ⟨[.NUMBER, .DOUBLE], [.HOUSE, .HOUSE], c!"0.5"⟩,
      ⟨[.NUMBER, .DASH, .NUMBER], [.HOUSE, .HOUSE, .HOUSE], c!"0.7"⟩]),
    (c!"pobox", [
      ⟨[.BOXH, .NUMBER], [.BOXH, .BOXT], c!"0.7"⟩]),
    (c!"city", [
      ⟨[.CITY], [.CITY], c!"0.9"⟩,
      ⟨[.WORD], [.CITY], c!"0.5"⟩]),
    (c!"country", [
      ⟨[.NATION], [.NATION], c!"0.9"⟩])]

end AS.FormData
