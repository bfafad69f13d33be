import Verif.Lemmas.LexCheck
import Verif.Lemmas.PairCheck
import Verif.Sample.Sweden
/-
The lexicon data/sample/sweden.lex (all 146 lines), and what of sweden.gmr cannot match with it. Written by
tools/lexicons.py.
-/
namespace AS.Sample.Sweden

/-- data/sample/sweden.lex:2-51 -/
def entries0 : List Str := [
  c!"LEXENTRY:\tAB\tAB\tPLACEN\tDETACH",
  c!"LEXENTRY:\tAKTIEBOLAG\tAKTIEBOLAG\tPLACEN\tDETACH",
  c!"LEXENTRY:\tAKTIEBOLAGET\tAKTIEBOLAGET\tPLACEN\tDETACH",
  c!"LEXENTRY:\tALLE\tALLÉ\tTYPE\tDET_SUF",
  c!"LEXENTRY:\tALLEN\tALLÉN\tTYPE\tATT_SUF",
  c!"LEXENTRY:\tALLÉ\tALLÉ\tTYPE\tDET_SUF",
  c!"LEXENTRY:\tALLÉN\tALLÉN\tTYPE\tATT_SUF",
  c!"LEXENTRY:\tAS\tÅS\tTYPE\tDET_SUF",
  c!"LEXENTRY:\tASEN\tÅSEN\tTYPE\tATT_SUF",
  c!"LEXENTRY:\tAVFARTEN\tAVFARTEN\tTYPE\tATT_SUF",
  c!"LEXENTRY:\tBACKAR\tBACKAR\tTYPE\tDET_SUF",
  c!"LEXENTRY:\tBACKARNA\tBACKARNA\tTYPE\tATT_SUF",
  c!"LEXENTRY:\tBACKE\tBACKE\tTYPE\tDET_SUF",
  c!"LEXENTRY:\tBACKEN\tBACKEN\tTYPE\tATT_SUF,DET_SUF",
  c!"LEXENTRY:\tBAGEN\tBÅGEN\tTYPE\tATT_SUF",
  c!"LEXENTRY:\tBANKEN\tBÄNKEN\tTYPE\tATT_SUF",
  c!"LEXENTRY:\tBRANTEN\tBRANTEN\tTYPE\tATT_SUF",
  c!"LEXENTRY:\tBRINK\tBRINK\tTYPE\tDET_SUF",
  c!"LEXENTRY:\tBRINKEN\tBRINKEN\tTYPE\tATT_SUF",
  c!"LEXENTRY:\tBRO\tBRO\tTYPE\tATT_SUF,DET_SUF",
  c!"LEXENTRY:\tBRON\tBRON\tTYPE\tATT_SUF",
  c!"LEXENTRY:\tBRYGGA\tBRYGGA\tTYPE\tDET_SUF",
  c!"LEXENTRY:\tBRYGGAN\tBRYGGAN\tTYPE\tATT_SUF",
  c!"LEXENTRY:\tBÄNKEN\tBÄNKEN\tTYPE\tATT_SUF",
  c!"LEXENTRY:\tBÅGEN\tBÅGEN\tTYPE\tATT_SUF",
  c!"LEXENTRY:\tBOX\tBOX\tBOXH\tDETACH",
  c!"LEXENTRY:\tDAL\tDAL\tTYPE\tDET_SUF",
  c!"LEXENTRY:\tDALEN\tDALEN\tTYPE\tATT_SUF",
  c!"LEXENTRY:\tDRAGET\tDRAGET\tTYPE\tATT_SUF",
  c!"LEXENTRY:\tESPLANADEN\tESPLANADEN\tTYPE\tATT_SUF",
  c!"LEXENTRY:\tF O\tF O\tWORD\tDETACH",
  c!"LEXENTRY:\tFO\tF O\tWORD\tDETACH",
  c!"LEXENTRY:\tG\tGATAN\tTYPE\tATT_SUF",
  c!"LEXENTRY:\tG.\tGATAN\tTYPE\tATT_SUF",
  c!"LEXENTRY:\tGANG\tGÅNG\tTYPE\tDET_SUF",
  c!"LEXENTRY:\tGANGEN\tGÅNGEN\tTYPE\tATT_SUF",
  c!"LEXENTRY:\tGARDSVAG\tGÅRDSVÄG\tTYPE\tDET_SUF",
  c!"LEXENTRY:\tGARDSVAGEN\tGÅRDSVÄGEN\tTYPE\tATT_SUF",
  c!"LEXENTRY:\tGATA\tGATA\tTYPE\tATT_SUF,DET_SUF",
  c!"LEXENTRY:\tGATAN\tGATAN\tTYPE\tATT_SUF",
  c!"LEXENTRY:\tGRAND\tGRÄND\tTYPE\tATT_SUF,DET_SUF",
  c!"LEXENTRY:\tGRANDEN\tGRÄNDEN\tTYPE\tATT_SUF",
  c!"LEXENTRY:\tGRÄND\tGRÄND\tTYPE\tATT_SUF,DET_SUF",
  c!"LEXENTRY:\tGRÄNDEN\tGRÄNDEN\tTYPE\tATT_SUF",
  c!"LEXENTRY:\tGÅNG\tGÅNG\tTYPE\tDET_SUF",
  c!"LEXENTRY:\tGÅNGEN\tGÅNGEN\tTYPE\tATT_SUF",
  c!"LEXENTRY:\tGÅRDSVÄG\tGÅRDSVÄG\tTYPE\tDET_SUF",
  c!"LEXENTRY:\tGÅRDSVÄGEN\tGÅRDSVÄGEN\tTYPE\tATT_SUF",
  c!"LEXENTRY:\tHAMN\tHAMN\tTYPE\tDET_SUF",
  c!"LEXENTRY:\tHAMNEN\tHAMNEN\tTYPE\tATT_SUF"]

/-- data/sample/sweden.lex:52-101 -/
def entries1 : List Str := [
  c!"LEXENTRY:\tHOJD\tHÖJD\tTYPE\tDET_SUF",
  c!"LEXENTRY:\tHOJDEN\tHÖJDEN\tTYPE\tATT_SUF",
  c!"LEXENTRY:\tHÖJD\tHÖJD\tTYPE\tDET_SUF",
  c!"LEXENTRY:\tHÖJDEN\tHÖJDEN\tTYPE\tATT_SUF",
  c!"LEXENTRY:\tINFART\tINFART\tTYPE\tDET_SUF",
  c!"LEXENTRY:\tINFARTEN\tINFARTEN\tTYPE\tATT_SUF",
  c!"LEXENTRY:\tKAJEN\tKAJEN\tTYPE\tATT_SUF",
  c!"LEXENTRY:\tKINGDON OF SWEDEN\tSWEDEN\tNATION\tDETACH",
  c!"LEXENTRY:\tKLIPPA\tKLIPPA\tTYPE\tDET_SUF",
  c!"LEXENTRY:\tKLIPPAN\tKLIPPAN\tTYPE\tATT_SUF",
  c!"LEXENTRY:\tKONUNGARIKET SVERIGE\tSWEDEN\tNATION\tDETACH",
  c!"LEXENTRY:\tKOPPLET\tKOPPLET\tTYPE\tATT_SUF",
  c!"LEXENTRY:\tKORS\tKORS\tTYPE\tDET_SUF",
  c!"LEXENTRY:\tKORSET\tKORSET\tTYPE\tATT_SUF",
  c!"LEXENTRY:\tKROK\tKROK\tTYPE\tDET_SUF",
  c!"LEXENTRY:\tKROKEN\tKROKEN\tTYPE\tATT_SUF",
  c!"LEXENTRY:\tLANKEN\tLÄNKEN\tTYPE\tATT_SUF",
  c!"LEXENTRY:\tLED\tLED\tTYPE\tATT_SUF,DET_SUF",
  c!"LEXENTRY:\tLEDEN\tLEDEN\tTYPE\tATT_SUF",
  c!"LEXENTRY:\tLID\tLID\tTYPE\tDET_SUF",
  c!"LEXENTRY:\tLIDEN\tLIDEN\tTYPE\tATT_SUF",
  c!"LEXENTRY:\tLUND\tLUND\tTYPE\tDET_SUF",
  c!"LEXENTRY:\tLUNDEN\tLUNDEN\tTYPE\tATT_SUF",
  c!"LEXENTRY:\tLÄNKEN\tLÄNKEN\tTYPE\tATT_SUF",
  c!"LEXENTRY:\tMOT\tMOT\tTYPE\tDET_SUF",
  c!"LEXENTRY:\tMOTET\tMOTET\tTYPE\tATT_SUF",
  c!"LEXENTRY:\tPAFARTEN\tPÅFARTEN\tTYPE\tATT_SUF",
  c!"LEXENTRY:\tPARK\tPARK\tTYPE\tDET_SUF",
  c!"LEXENTRY:\tPARKEN\tPARKEN\tTYPE\tATT_SUF,DET_SUF",
  c!"LEXENTRY:\tPASSAGEN\tPASSAGEN\tTYPE\tATT_SUF",
  c!"LEXENTRY:\tPASSET\tPASSET\tTYPE\tATT_SUF",
  c!"LEXENTRY:\tPLAN\tPLAN\tTYPE\tATT_SUF,DET_SUF",
  c!"LEXENTRY:\tPLATAN\tPLATÅN\tTYPE\tATT_SUF",
  c!"LEXENTRY:\tPLATS\tPLATS\tTYPE\tDET_SUF",
  c!"LEXENTRY:\tPLATSEN\tPLATSEN\tTYPE\tATT_SUF",
  c!"LEXENTRY:\tPLATÅN\tPLATÅN\tTYPE\tATT_SUF",
  c!"LEXENTRY:\tPORTEN\tPORTEN\tTYPE\tATT_SUF",
  c!"LEXENTRY:\tPÅFARTEN\tPÅFARTEN\tTYPE\tATT_SUF",
  c!"LEXENTRY:\tRAMPEN\tRAMPEN\tTYPE\tATT_SUF",
  c!"LEXENTRY:\tRING\tRING\tTYPE\tDET_SUF",
  c!"LEXENTRY:\tRINGEN\tRINGEN\tTYPE\tATT_SUF",
  c!"LEXENTRY:\tRUNDA\tRUNDA\tTYPE\tDET_SUF",
  c!"LEXENTRY:\tRUNDAN\tRUNDAN\tTYPE\tATT_SUF",
  c!"LEXENTRY:\tSANKT\tST\tWORD\tDETACH",
  c!"LEXENTRY:\tSE\tSWEDEN\tNATION\tDETACH",
  c!"LEXENTRY:\tSLINGAN\tSLINGAN\tTYPE\tATT_SUF",
  c!"LEXENTRY:\tSPARET\tSPÅRET\tTYPE\tATT_SUF",
  c!"LEXENTRY:\tSPÅRET\tSPÅRET\tTYPE\tATT_SUF",
  c!"LEXENTRY:\tST\tST\tWORD\tDETACH",
  c!"LEXENTRY:\tST.\tST\tWORD\tDETACH"]

/-- data/sample/sweden.lex:102-146 -/
def entries2 : List Str := [
  c!"LEXENTRY:\tSTIG\tSTIG\tTYPE\tDET_SUF",
  c!"LEXENTRY:\tSTIGEN\tSTIGEN\tTYPE\tATT_SUF",
  c!"LEXENTRY:\tSTRAK\tSTRÅK\tTYPE\tDET_SUF",
  c!"LEXENTRY:\tSTRAKET\tSTRÅKET\tTYPE\tATT_SUF",
  c!"LEXENTRY:\tSTRAND\tSTRAND\tTYPE\tATT_SUF,DET_SUF",
  c!"LEXENTRY:\tSTRANDEN\tSTRANDEN\tTYPE\tATT_SUF",
  c!"LEXENTRY:\tSTRANDPROMENAD\tSTRANDPROMENAD\tTYPE\tDET_SUF",
  c!"LEXENTRY:\tSTRÅK\tSTRÅK\tTYPE\tDET_SUF",
  c!"LEXENTRY:\tSTRÅKET\tSTRÅKET\tTYPE\tATT_SUF",
  c!"LEXENTRY:\tSTUPET\tSTUPET\tTYPE\tATT_SUF",
  c!"LEXENTRY:\tSVANG\tSVÄNG\tTYPE\tDET_SUF",
  c!"LEXENTRY:\tSVANGEN\tSVÄNGEN\tTYPE\tATT_SUF",
  c!"LEXENTRY:\tSVÄNG\tSVÄNG\tTYPE\tDET_SUF",
  c!"LEXENTRY:\tSVÄNGEN\tSVÄNGEN\tTYPE\tATT_SUF",
  c!"LEXENTRY:\tSWE\tSWEDEN\tNATION\tDETACH",
  c!"LEXENTRY:\tSWEDEN\tSWEDEN\tNATION\tDETACH",
  c!"LEXENTRY:\tTAPPA\tTÄPPA\tTYPE\tDET_SUF",
  c!"LEXENTRY:\tTAPPEN\tTÄPPAN\tTYPE\tATT_SUF",
  c!"LEXENTRY:\tTERRASSEN\tTERRASSEN\tTYPE\tATT_SUF",
  c!"LEXENTRY:\tTORG\tTORG\tTYPE\tATT_SUF,DET_SUF",
  c!"LEXENTRY:\tTORGET\tTORGET\tTYPE\tATT_SUF",
  c!"LEXENTRY:\tTRAPPAN\tTRAPPAN\tTYPE\tATT_SUF",
  c!"LEXENTRY:\tTRAPPOR\tTRAPPOR\tTYPE\tDET_SUF",
  c!"LEXENTRY:\tTUNET\tTUNET\tTYPE\tATT_SUF",
  c!"LEXENTRY:\tTUNNELN\tTUNNELN\tTYPE\tATT_SUF",
  c!"LEXENTRY:\tTÄPPA\tTÄPPA\tTYPE\tDET_SUF",
  c!"LEXENTRY:\tTÄPPAN\tTÄPPAN\tTYPE\tATT_SUF",
  c!"LEXENTRY:\tUDDE\tUDDE\tTYPE\tDET_SUF",
  c!"LEXENTRY:\tUDDEN\tUDDEN\tTYPE\tATT_SUF",
  c!"LEXENTRY:\tV\tVÄG\tTYPE\tDET_SUF",
  c!"LEXENTRY:\tV\tVÄGEN\tTYPE\tATT_SUF",
  c!"LEXENTRY:\tV.\tVÄG\tTYPE\tDET_SUF",
  c!"LEXENTRY:\tV.\tVÄGEN\tTYPE\tATT_SUF",
  c!"LEXENTRY:\tVAG\tVÄG\tTYPE\tATT_SUF,DET_SUF",
  c!"LEXENTRY:\tVAGEN\tVÄGEN\tTYPE\tATT_SUF",
  c!"LEXENTRY:\tVANDAN\tVÄNDAN\tTYPE\tATT_SUF",
  c!"LEXENTRY:\tVIADUKTEN\tVIADUKTEN\tTYPE\tATT_SUF",
  c!"LEXENTRY:\tVINDELN\tVINDELN\tTYPE\tATT_SUF",
  c!"LEXENTRY:\tVRET\tVRET\tTYPE\tDET_SUF",
  c!"LEXENTRY:\tVRETEN\tVRETEN\tTYPE\tATT_SUF",
  c!"LEXENTRY:\tVÄG\tVÄG\tTYPE\tATT_SUF,DET_SUF",
  c!"LEXENTRY:\tVÄGEN\tVÄGEN\tTYPE\tATT_SUF",
  c!"LEXENTRY:\tVÄNDAN\tVÄNDAN\tTYPE\tATT_SUF",
  c!"LEXENTRY:\tÅS\tÅS\tTYPE\tDET_SUF",
  c!"LEXENTRY:\tÅSEN\tÅSEN\tTYPE\tATT_SUF"]

/-- The text, and what is claimed of it. -/
def lexicon : LexSample where
  header := c!"LEXICON:\tlex-sweden.txt\tSWE\tsv_SE"
  body := entries0 ++ entries1 ++ entries2
  lang := .SWE
  locale := c!"sv_SE"
  classes := [
    .PLACEN, .TYPE, .BOXH, .WORD, .NATION]

set_option maxRecDepth 1000000 in
theorem lexicon_checked : checkLex lexicon [0, 3, 25, 30, 57] = true := by decide +kernel

/-- What of the grammar cannot match. -/
def pair : Pair where
  sample := sample
  lexicon := lexicon
  idle := [
    c!"@streetname @housenumber @unit",
    c!"BUILDT -> BLDNG -> 0.7",
    c!"BUILDT WORD -> BLDNG BLDNG -> 0.6",
    c!"BUILDT WORD WORD -> BLDNG BLDNG BLDNG -> 0.5",
    c!"BUILDT WORD WORD WORD -> BLDNG BLDNG BLDNG BLDNG -> 0.4",
    c!"[unit]",
    c!"UNITH UNITT -> UNITH UNITT -> 0.8",
    c!"UNITH WORD -> UNITH UNIT -> 0.7",
    c!"UNITH NUMBER -> UNITH UNITT -> 0.7",
    c!"UNITH MIXED -> UNITH UNITT -> 0.7",
    c!"UNITH WORD WORD -> UNITH UNITT UNITT -> 0.4",
    c!"CITY -> CITY -> 0.9"]
  null := [.building, .predir, .qual, .pretype, .sufdir, .ruralroute, .extra, .prov, .unit]

/-- What shows it. -/
def pairCert : PairCert where
  dead := [.BUILDT, .CITY, .UNITH, .UNITT]
  barren := [c!"unit"]
  reach := [
    c!"ADDRESS", c!"micro", c!"macro", c!"streetname", c!"housenumber", c!"pobox", c!"postal", c!"citywords",
    c!"country", c!"city"]

set_option maxRecDepth 100000 in
theorem pair_checked : checkPair pair pairCert = true := by decide +kernel

end AS.Sample.Sweden
