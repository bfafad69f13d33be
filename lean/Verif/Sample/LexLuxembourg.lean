import Verif.Lemmas.LexCheck
import Verif.Lemmas.PairCheck
import Verif.Sample.Luxembourg
/-
The lexicon data/sample/luxembourg.lex (all 193 lines), and what of luxembourg.gmr cannot match with it. Written by
tools/lexicons.py.
-/
namespace AS.Sample.Luxembourg

/-- data/sample/luxembourg.lex:2-51 -/
def entries0 : List Str := [
  c!"LEXENTRY:\tALLEE\tALLÉE\tTYPE\tDET_PRE",
  c!"LEXENTRY:\tALLEE DE L'\tALLÉE DE L'\tTYPE\tATT_PRE",
  c!"LEXENTRY:\tALLEE DE LA\tALLÉE DE LA\tTYPE\tDET_PRE",
  c!"LEXENTRY:\tALLEE DES\tALLÉE DES\tTYPE\tDET_PRE",
  c!"LEXENTRY:\tALLÉE\tALLÉE\tTYPE\tDET_PRE",
  c!"LEXENTRY:\tALLÉE DE L'\tALLÉE DE L'\tTYPE\tATT_PRE",
  c!"LEXENTRY:\tALLÉE DE LA\tALLÉE DE LA\tTYPE\tDET_PRE",
  c!"LEXENTRY:\tALLÉE DES\tALLÉE DES\tTYPE\tDET_PRE",
  c!"LEXENTRY:\tAV D'\tAVENUE D'\tTYPE\tATT_PRE",
  c!"LEXENTRY:\tAV DE\tAVENUE DE\tTYPE\tDET_PRE",
  c!"LEXENTRY:\tAV DE LA\tAVENUE DE LA\tTYPE\tDET_PRE",
  c!"LEXENTRY:\tAV DES\tAVENUE DES\tTYPE\tDET_PRE",
  c!"LEXENTRY:\tAV DU\tAVENUE DU\tTYPE\tDET_PRE",
  c!"LEXENTRY:\tAV.\tAVENUE\tTYPE\tDET_PRE",
  c!"LEXENTRY:\tAV. D'\tAVENUE D'\tTYPE\tATT_PRE",
  c!"LEXENTRY:\tAV. DE\tAVENUE DE\tTYPE\tDET_PRE",
  c!"LEXENTRY:\tAV. DE LA\tAVENUE DE LA\tTYPE\tDET_PRE",
  c!"LEXENTRY:\tAV. DES\tAVENUE DES\tTYPE\tDET_PRE",
  c!"LEXENTRY:\tAV. DU\tAVENUE DU\tTYPE\tDET_PRE",
  c!"LEXENTRY:\tAVE\tAVENUE\tTYPE\tDET_PRE",
  c!"LEXENTRY:\tAVE D'\tAVENUE D'\tTYPE\tATT_PRE",
  c!"LEXENTRY:\tAVE DE\tAVENUE DE\tTYPE\tDET_PRE",
  c!"LEXENTRY:\tAVE DE LA\tAVENUE DE LA\tTYPE\tDET_PRE",
  c!"LEXENTRY:\tAVE DES\tAVENUE DES\tTYPE\tDET_PRE",
  c!"LEXENTRY:\tAVE DU\tAVENUE DU\tTYPE\tDET_PRE",
  c!"LEXENTRY:\tAVE.\tAVENUE\tTYPE\tDET_PRE",
  c!"LEXENTRY:\tAVE. D'\tAVENUE D'\tTYPE\tATT_PRE",
  c!"LEXENTRY:\tAVE. DE\tAVENUE DE\tTYPE\tDET_PRE",
  c!"LEXENTRY:\tAVE. DE LA\tAVENUE DE LA\tTYPE\tDET_PRE",
  c!"LEXENTRY:\tAVE. DES\tAVENUE DES\tTYPE\tDET_PRE",
  c!"LEXENTRY:\tAVE. DU\tAVENUE DU\tTYPE\tDET_PRE",
  c!"LEXENTRY:\tAVENUE\tAVENUE\tTYPE\tDET_PRE",
  c!"LEXENTRY:\tAVENUE D'\tAVENUE D'\tTYPE\tATT_PRE",
  c!"LEXENTRY:\tAVENUE DE\tAVENUE DE\tTYPE\tDET_PRE",
  c!"LEXENTRY:\tAVENUE DE LA\tAVENUE DE LA\tTYPE\tDET_PRE",
  c!"LEXENTRY:\tAVENUE DES\tAVENUE DES\tTYPE\tDET_PRE",
  c!"LEXENTRY:\tAVENUE DU\tAVENUE DU\tTYPE\tDET_PRE",
  c!"LEXENTRY:\tBACH\tBACH\tTYPE\tATT_SUF,DET_SUF",
  c!"LEXENTRY:\tBERG\tBERG\tTYPE\tATT_SUF,DET_SUF",
  c!"LEXENTRY:\tBLVD\tBOULEVARD\tTYPE\tDET_PRE",
  c!"LEXENTRY:\tBLVD D'\tBOULEVARD D'\tTYPE\tATT_PRE",
  c!"LEXENTRY:\tBLVD DE\tBOULEVARD DE\tTYPE\tDET_PRE",
  c!"LEXENTRY:\tBLVD DE L'\tBOULEVARD DE L'\tTYPE\tATT_PRE",
  c!"LEXENTRY:\tBLVD DE LA\tBOULEVARD DE LA\tTYPE\tDET_PRE",
  c!"LEXENTRY:\tBLVD DU\tBOULEVARD DU\tTYPE\tDET_PRE",
  c!"LEXENTRY:\tBLVD.\tBOULEVARD\tTYPE\tDET_PRE",
  c!"LEXENTRY:\tBLVD. DE\tBOULEVARD DE\tTYPE\tDET_PRE",
  c!"LEXENTRY:\tBLVD. DE LA\tBOULEVARD DE LA\tTYPE\tDET_PRE",
  c!"LEXENTRY:\tBLVD. DU\tBOULEVARD DU\tTYPE\tDET_PRE",
  c!"LEXENTRY:\tBOULEVARD\tBOULEVARD\tTYPE\tDET_PRE"]

/-- data/sample/luxembourg.lex:52-101 -/
def entries1 : List Str := [
  c!"LEXENTRY:\tBOULEVARD D'\tBOULEVARD D'\tTYPE\tATT_PRE",
  c!"LEXENTRY:\tBOULEVARD DE\tBOULEVARD DE\tTYPE\tDET_PRE",
  c!"LEXENTRY:\tBOULEVARD DE L'\tBOULEVARD DE L'\tTYPE\tATT_PRE",
  c!"LEXENTRY:\tBOULEVARD DE LA\tBOULEVARD DE LA\tTYPE\tDET_PRE",
  c!"LEXENTRY:\tBOULEVARD DU\tBOULEVARD DU\tTYPE\tDET_PRE",
  c!"LEXENTRY:\tCH\tCHAUSSÉE\tTYPE\tDET_PRE",
  c!"LEXENTRY:\tCH.\tCHAUSSÉE\tTYPE\tDET_PRE",
  c!"LEXENTRY:\tCHAUSSEE\tCHAUSSÉE\tTYPE\tDET_PRE",
  c!"LEXENTRY:\tCHAUSSÉE\tCHAUSSÉE\tTYPE\tDET_PRE",
  c!"LEXENTRY:\tCHEMIN\tCHEMIN\tTYPE\tDET_PRE",
  c!"LEXENTRY:\tCHEMIN D'\tCHEMIN D'\tTYPE\tATT_PRE",
  c!"LEXENTRY:\tCHEMIN DE\tCHEMIN DE\tTYPE\tDET_PRE",
  c!"LEXENTRY:\tCHEMIN DE L'\tCHEMIN DE L'\tTYPE\tATT_PRE",
  c!"LEXENTRY:\tCHEMIN DE LA\tCHEMIN DE LA\tTYPE\tDET_PRE",
  c!"LEXENTRY:\tCHEMIN DES\tCHEMIN DES\tTYPE\tDET_PRE",
  c!"LEXENTRY:\tCHEMIN DU\tCHEMIN DU\tTYPE\tDET_PRE",
  c!"LEXENTRY:\tCITE\tCITÉ\tTYPE\tDET_PRE",
  c!"LEXENTRY:\tCITE AU\tCITÉ AU\tTYPE\tDET_PRE",
  c!"LEXENTRY:\tCITE D'\tCITÉ D'\tTYPE\tATT_PRE",
  c!"LEXENTRY:\tCITE DE L'\tCITÉ DE L'\tTYPE\tATT_PRE",
  c!"LEXENTRY:\tCITE DE LA\tCITÉ DE LA\tTYPE\tDET_PRE",
  c!"LEXENTRY:\tCITE DES\tCITÉ DES\tTYPE\tDET_PRE",
  c!"LEXENTRY:\tCITE DU\tCITÉ DU\tTYPE\tDET_PRE",
  c!"LEXENTRY:\tCITÉ\tCITÉ\tTYPE\tDET_PRE",
  c!"LEXENTRY:\tCITÉ AU\tCITÉ AU\tTYPE\tDET_PRE",
  c!"LEXENTRY:\tCITÉ D'\tCITÉ D'\tTYPE\tATT_PRE",
  c!"LEXENTRY:\tCITÉ DE L'\tCITÉ DE L'\tTYPE\tATT_PRE",
  c!"LEXENTRY:\tCITÉ DE LA\tCITÉ DE LA\tTYPE\tDET_PRE",
  c!"LEXENTRY:\tCITÉ DES\tCITÉ DES\tTYPE\tDET_PRE",
  c!"LEXENTRY:\tCITÉ DU\tCITÉ DU\tTYPE\tDET_PRE",
  c!"LEXENTRY:\tCOIN D'\tCOIN D'\tTYPE\tATT_PRE",
  c!"LEXENTRY:\tCOIN DU\tCOIN DU\tTYPE\tDET_PRE",
  c!"LEXENTRY:\tCOTE D'\tCÔTE D'\tTYPE\tATT_PRE",
  c!"LEXENTRY:\tCOUR DE LA\tCOUR DE LA\tTYPE\tDET_PRE",
  c!"LEXENTRY:\tCOUR DU\tCOUR DU\tTYPE\tDET_PRE",
  c!"LEXENTRY:\tCROIX DE\tCROIX DE\tTYPE\tDET_PRE",
  c!"LEXENTRY:\tCÔTE D'\tCÔTE D'\tTYPE\tATT_PRE",
  c!"LEXENTRY:\tDOMAINE\tDOMAINE\tTYPE\tDET_PRE",
  c!"LEXENTRY:\tDOMAINE DES\tDOMAINE DES\tTYPE\tDET_PRE",
  c!"LEXENTRY:\tECHANGEUR\tÉCHANGEUR\tTYPE\tDET_PRE",
  c!"LEXENTRY:\tFELD\tFELD\tTYPE\tATT_SUF,DET_SUF",
  c!"LEXENTRY:\tHOF\tHOF\tTYPE\tATT_SUF,DET_SUF",
  c!"LEXENTRY:\tIMPASSE\tIMPASSE\tTYPE\tDET_PRE",
  c!"LEXENTRY:\tIMPASSE DE L'\tIMPASSE DE L'\tTYPE\tATT_PRE",
  c!"LEXENTRY:\tIMPASSE DE LA\tIMPASSE DE LA\tTYPE\tDET_PRE",
  c!"LEXENTRY:\tIMPASSE DES\tIMPASSE DES\tTYPE\tDET_PRE",
  c!"LEXENTRY:\tIMPASSE DU\tIMPASSE DU\tTYPE\tDET_PRE",
  c!"LEXENTRY:\tKOERICH\tKOERICH\tCITY\tDETACH",
  c!"LEXENTRY:\tLOTISSEMENT\tLOTISSEMENT\tTYPE\tDET_PRE",
  c!"LEXENTRY:\tLOTISSEMENT DES\tLOTISSEMENT DES\tTYPE\tDET_PRE"]

/-- data/sample/luxembourg.lex:102-151 -/
def entries2 : List Str := [
  c!"LEXENTRY:\tLU\tLUXEMBOURG\tNATION\tDETACH",
  c!"LEXENTRY:\tLUX\tLUXEMBOURG\tNATION\tDETACH",
  c!"LEXENTRY:\tLUXEMBOURG\tLUXEMBOURG\tNATION\tDETACH",
  c!"LEXENTRY:\tMONTEE\tMONTÉE\tTYPE\tDET_PRE",
  c!"LEXENTRY:\tMONTEE D'\tMONTÉE D'\tTYPE\tATT_PRE",
  c!"LEXENTRY:\tMONTEE DE\tMONTÉE DE\tTYPE\tDET_PRE",
  c!"LEXENTRY:\tMONTEE DE L'\tMONTÉE DE L'\tTYPE\tATT_PRE",
  c!"LEXENTRY:\tMONTEE DE LA\tMONTÉE DE LA\tTYPE\tDET_PRE",
  c!"LEXENTRY:\tMONTEE DES\tMONTÉE DES\tTYPE\tDET_PRE",
  c!"LEXENTRY:\tMONTEE DU\tMONTÉE DU\tTYPE\tDET_PRE",
  c!"LEXENTRY:\tMONTÉE\tMONTÉE\tTYPE\tDET_PRE",
  c!"LEXENTRY:\tMONTÉE D'\tMONTÉE D'\tTYPE\tATT_PRE",
  c!"LEXENTRY:\tMONTÉE DE\tMONTÉE DE\tTYPE\tDET_PRE",
  c!"LEXENTRY:\tMONTÉE DE L'\tMONTÉE DE L'\tTYPE\tATT_PRE",
  c!"LEXENTRY:\tMONTÉE DE LA\tMONTÉE DE LA\tTYPE\tDET_PRE",
  c!"LEXENTRY:\tMONTÉE DES\tMONTÉE DES\tTYPE\tDET_PRE",
  c!"LEXENTRY:\tMONTÉE DU\tMONTÉE DU\tTYPE\tDET_PRE",
  c!"LEXENTRY:\tPARC\tPARC\tTYPE\tDET_PRE",
  c!"LEXENTRY:\tPARVIS DE LA\tPARVIS DE LA\tTYPE\tDET_PRE",
  c!"LEXENTRY:\tPASSAGE\tPASSAGE\tTYPE\tDET_PRE",
  c!"LEXENTRY:\tPASSAGE DE L'\tPASSAGE DE L'\tTYPE\tATT_PRE",
  c!"LEXENTRY:\tPASSAGE DES\tPASSAGE DES\tTYPE\tDET_PRE",
  c!"LEXENTRY:\tPB\tPB\tBOXH\tDETACH",
  c!"LEXENTRY:\tPETITE R. DES\tPETITE RUE DES\tTYPE\tDET_PRE",
  c!"LEXENTRY:\tPETITE RUE DES\tPETITE RUE DES\tTYPE\tDET_PRE",
  c!"LEXENTRY:\tPETITE RUE DU\tPETITE RUE DU\tTYPE\tDET_PRE",
  c!"LEXENTRY:\tPFAD\tPFAD\tTYPE\tATT_SUF",
  c!"LEXENTRY:\tPLACE\tPLACE\tTYPE\tDET_PRE",
  c!"LEXENTRY:\tPLACE D'\tPLACE D'\tTYPE\tATT_PRE",
  c!"LEXENTRY:\tPLACE DE\tPLACE DE\tTYPE\tDET_PRE",
  c!"LEXENTRY:\tPLACE DE L'\tPLACE DE L'\tTYPE\tATT_PRE",
  c!"LEXENTRY:\tPLACE DE LA\tPLACE DE LA\tTYPE\tDET_PRE",
  c!"LEXENTRY:\tPLACE DES\tPLACE DES\tTYPE\tDET_PRE",
  c!"LEXENTRY:\tPLACE DU\tPLACE DU\tTYPE\tDET_PRE",
  c!"LEXENTRY:\tPLATEAU\tPLATEAU\tTYPE\tDET_PRE",
  c!"LEXENTRY:\tPLATEAU DU\tPLATEAU DU\tTYPE\tDET_PRE",
  c!"LEXENTRY:\tPLATZ\tPLATZ\tTYPE\tATT_SUF",
  c!"LEXENTRY:\tPONT\tPONT\tTYPE\tDET_PRE",
  c!"LEXENTRY:\tPONT DE LA\tPONT DE LA\tTYPE\tDET_PRE",
  c!"LEXENTRY:\tPORTE DES\tPORTE DES\tTYPE\tDET_PRE",
  c!"LEXENTRY:\tPROMENADE DE LA\tPROMENADE DE LA\tTYPE\tDET_PRE",
  c!"LEXENTRY:\tQUAI DE LA\tQUAI DE LA\tTYPE\tDET_PRE",
  c!"LEXENTRY:\tQUARTIER\tQUARTIER\tTYPE\tDET_PRE",
  c!"LEXENTRY:\tQUARTIER DE L'\tQUARTIER DE L'\tTYPE\tATT_PRE",
  c!"LEXENTRY:\tR.\tRUE\tTYPE\tDET_PRE",
  c!"LEXENTRY:\tR. D'\tRUE D'\tTYPE\tATT_PRE",
  c!"LEXENTRY:\tR. DE\tRUE DE\tTYPE\tDET_PRE",
  c!"LEXENTRY:\tR. DE L'\tRUE DE L'\tTYPE\tATT_PRE",
  c!"LEXENTRY:\tR. DE LA\tRUE DE LA\tTYPE\tDET_PRE",
  c!"LEXENTRY:\tR. DES\tRUE DES\tTYPE\tDET_PRE"]

/-- data/sample/luxembourg.lex:152-193 -/
def entries3 : List Str := [
  c!"LEXENTRY:\tR. DU\tRUE DU\tTYPE\tDET_PRE",
  c!"LEXENTRY:\tROND-POINT\tROND-POINT\tTYPE\tDET_PRE",
  c!"LEXENTRY:\tROUTE\tROUTE\tTYPE\tDET_PRE",
  c!"LEXENTRY:\tROUTE D'\tROUTE D'\tTYPE\tATT_PRE",
  c!"LEXENTRY:\tROUTE DE\tROUTE DE\tTYPE\tDET_PRE",
  c!"LEXENTRY:\tROUTE DE L'\tROUTE DE L'\tTYPE\tATT_PRE",
  c!"LEXENTRY:\tROUTE DE LA\tROUTE DE LA\tTYPE\tDET_PRE",
  c!"LEXENTRY:\tROUTE DES\tROUTE DES\tTYPE\tDET_PRE",
  c!"LEXENTRY:\tROUTE DU\tROUTE DU\tTYPE\tDET_PRE",
  c!"LEXENTRY:\tRTE\tROUTE\tTYPE\tDET_PRE",
  c!"LEXENTRY:\tRTE D'\tROUTE D'\tTYPE\tATT_PRE",
  c!"LEXENTRY:\tRTE DE\tROUTE DE\tTYPE\tDET_PRE",
  c!"LEXENTRY:\tRTE DE L'\tROUTE DE L'\tTYPE\tATT_PRE",
  c!"LEXENTRY:\tRTE DE LA\tROUTE DE LA\tTYPE\tDET_PRE",
  c!"LEXENTRY:\tRTE DES\tROUTE DES\tTYPE\tDET_PRE",
  c!"LEXENTRY:\tRTE DU\tROUTE DU\tTYPE\tDET_PRE",
  c!"LEXENTRY:\tRTE.\tROUTE\tTYPE\tDET_PRE",
  c!"LEXENTRY:\tRTE. D'\tROUTE D'\tTYPE\tATT_PRE",
  c!"LEXENTRY:\tRTE. DE\tROUTE DE\tTYPE\tDET_PRE",
  c!"LEXENTRY:\tRTE. DE L'\tROUTE DE L'\tTYPE\tATT_PRE",
  c!"LEXENTRY:\tRTE. DE LA\tROUTE DE LA\tTYPE\tDET_PRE",
  c!"LEXENTRY:\tRTE. DES\tROUTE DES\tTYPE\tDET_PRE",
  c!"LEXENTRY:\tRTE. DU\tROUTE DU\tTYPE\tDET_PRE",
  c!"LEXENTRY:\tRUE\tRUE\tTYPE\tDET_PRE",
  c!"LEXENTRY:\tRUE D'\tRUE D'\tTYPE\tATT_PRE",
  c!"LEXENTRY:\tRUE DE\tRUE DE\tTYPE\tDET_PRE",
  c!"LEXENTRY:\tRUE DE L'\tRUE DE L'\tTYPE\tATT_PRE",
  c!"LEXENTRY:\tRUE DE LA\tRUE DE LA\tTYPE\tDET_PRE",
  c!"LEXENTRY:\tRUE DES\tRUE DES\tTYPE\tDET_PRE",
  c!"LEXENTRY:\tRUE DU\tRUE DU\tTYPE\tDET_PRE",
  c!"LEXENTRY:\tRUELLE\tRUELLE\tTYPE\tDET_PRE",
  c!"LEXENTRY:\tRUELLE DE LA\tRUELLE DE LA\tTYPE\tDET_PRE",
  c!"LEXENTRY:\tRÉSIDENCE\tRÉSIDENCE\tTYPE\tDET_PRE",
  c!"LEXENTRY:\tSENTIER DE\tSENTIER DE\tTYPE\tDET_PRE",
  c!"LEXENTRY:\tSENTIER DE L'\tSENTIER DE L'\tTYPE\tATT_PRE",
  c!"LEXENTRY:\tSENTIER DE LA\tSENTIER DE LA\tTYPE\tDET_PRE",
  c!"LEXENTRY:\tSQUARE\tSQUARE\tTYPE\tDET_PRE",
  c!"LEXENTRY:\tTAL\tTAL\tTYPE\tATT_SUF",
  c!"LEXENTRY:\tVALLEE DE LA\tVALLÉE DE LA\tTYPE\tDET_PRE",
  c!"LEXENTRY:\tVALLÉE DE LA\tVALLÉE DE LA\tTYPE\tDET_PRE",
  c!"LEXENTRY:\tWEG\tWEG\tTYPE\tATT_SUF,DET_SUF",
  c!"LEXENTRY:\tÉCHANGEUR\tÉCHANGEUR\tTYPE\tDET_PRE"]

/-- The text, and what is claimed of it. -/
def lexicon : LexSample where
  header := c!"LEXICON:\tlex-luxembourg.txt\tGER\tde_LU"
  body := entries0 ++ entries1 ++ entries2 ++ entries3
  lang := .GER
  locale := c!"de_LU"
  classes := [
    .TYPE, .CITY, .NATION, .BOXH]

set_option maxRecDepth 1000000 in
theorem lexicon_checked : checkLex lexicon [0, 97, 100, 122] = true := by decide +kernel

/-- What of the grammar cannot match. -/
def pair : Pair where
  sample := sample
  lexicon := lexicon
  idle := [
    c!"@housenumber @streetname @unit",
    c!"[placename]",
    c!"PLACEN -> BLDNG -> 0.7",
    c!"PLACEN WORD -> BLDNG BLDNG -> 0.6",
    c!"PLACEN WORD WORD -> BLDNG BLDNG BLDNG -> 0.5",
    c!"PLACEN WORD WORD WORD -> BLDNG BLDNG BLDNG BLDNG -> 0.4",
    c!"BUILDT -> BLDNG -> 0.7",
    c!"BUILDT WORD -> BLDNG BLDNG -> 0.6",
    c!"BUILDT WORD WORD -> BLDNG BLDNG BLDNG -> 0.5",
    c!"BUILDT WORD WORD WORD -> BLDNG BLDNG BLDNG BLDNG -> 0.4",
    c!"[unit]",
    c!"UNITH UNITT -> UNITH UNITT -> 0.8",
    c!"UNITH WORD -> UNITH UNIT -> 0.7",
    c!"UNITH NUMBER -> UNITH UNITT -> 0.7",
    c!"UNITH MIXED -> UNITH UNITT -> 0.7",
    c!"UNITH WORD WORD -> UNITH UNITT UNITT -> 0.4"]
  null := [.building, .predir, .qual, .sufdir, .ruralroute, .extra, .prov, .unit]

/-- What shows it. -/
def pairCert : PairCert where
  dead := [.BUILDT, .PLACEN, .UNITH, .UNITT]
  barren := [c!"placename", c!"unit"]
  reach := [
    c!"ADDRESS", c!"micro", c!"macro", c!"housenumber", c!"streetname", c!"pobox", c!"postal", c!"citywords",
    c!"country", c!"city"]

set_option maxRecDepth 100000 in
theorem pair_checked : checkPair pair pairCert = true := by decide +kernel

end AS.Sample.Luxembourg
