import Verif.Lemmas.LexCheck
import Verif.Lemmas.PairCheck
import Verif.Sample.Finland
/-
The lexicon data/sample/finland.lex (all 103 lines), and what of finland.gmr cannot match with it. Written by
tools/lexicons.py.
-/
namespace AS.Sample.Finland

/-- data/sample/finland.lex:2-51 -/
def entries0 : List Str := [
  c!"LEXENTRY:\tAB\tAB\tPLACEN\tDETACH",
  c!"LEXENTRY:\tAY\tAY\tPLACEN\tDETACH",
  c!"LEXENTRY:\tKY\tKY\tPLACEN\tDETACH",
  c!"LEXENTRY:\tOY\tOY\tPLACEN\tDETACH",
  c!"LEXENTRY:\tOYJ\tOYJ\tPLACEN\tDETACH",
  c!"LEXENTRY:\tLTD\tLTD\tPLACEN\tDETACH",
  c!"LEXENTRY:\tLLC\tLLC\tPLACEN\tDETACH",
  c!"LEXENTRY:\tPLC\tPLC\tPLACEN\tDETACH",
  c!"LEXENTRY:\tGMBH\tGMBH\tPLACEN\tDETACH",
  c!"LEXENTRY:\tBOX\tBOX\tBOXH\tDETACH",
  c!"LEXENTRY:\tPOSTILOKERO\tPL\tBOXH\tDETACH",
  c!"LEXENTRY:\tPOSTE\tPOSTE\tBOXH\tDETACH",
  c!"LEXENTRY:\tPL\tPL\tBOXH\tDETACH",
  c!"LEXENTRY:\tAKTIEBOLAG\tAKTIEBOLAG\tPLACEN\tDETACH",
  c!"LEXENTRY:\tAKTIEBOLAGET\tAKTIEBOLAGET\tPLACEN\tDETACH",
  c!"LEXENTRY:\tALLÉN\tALLÉN\tTYPE\tATT_SUF",
  c!"LEXENTRY:\tAUKIO\tAUKIO\tTYPE\tATT_SUF,DET_SUF",
  c!"LEXENTRY:\tBACKEN\tBACKEN\tTYPE\tATT_SUF",
  c!"LEXENTRY:\tBRANTEN\tBRANTEN\tTYPE\tATT_SUF",
  c!"LEXENTRY:\tBRINKEN\tBRINKEN\tTYPE\tATT_SUF",
  c!"LEXENTRY:\tBRO\tBRO\tTYPE\tATT_SUF,DET_SUF",
  c!"LEXENTRY:\tBRON\tBRON\tTYPE\tATT_SUF",
  c!"LEXENTRY:\tBRYGGA\tBRYGGA\tTYPE\tDET_SUF",
  c!"LEXENTRY:\tBRYGGAN\tBRYGGAN\tTYPE\tATT_SUF",
  c!"LEXENTRY:\tBÅGE\tBÅGE\tTYPE\tDET_SUF",
  c!"LEXENTRY:\tBÅGEN\tBÅGEN\tTYPE\tATT_SUF",
  c!"LEXENTRY:\tDALEN\tDALEN\tTYPE\tATT_SUF",
  c!"LEXENTRY:\tDRAGET\tDRAGET\tTYPE\tATT_SUF",
  c!"LEXENTRY:\tESPLANADEN\tESPLANADEN\tTYPE\tATT_SUF",
  c!"LEXENTRY:\tESPLANADI\tESPLANADI\tTYPE\tATT_SUF",
  c!"LEXENTRY:\tFI\tFINLAND\tNATION,WORD\tDETACH",
  c!"LEXENTRY:\tFIN\tFINLAND\tNATION,WORD\tDETACH",
  c!"LEXENTRY:\tFINLAND\tFINLAND\tNATION,WORD\tDETACH",
  c!"LEXENTRY:\tG.\tGATA\tTYPE\tDET_SUF",
  c!"LEXENTRY:\tG.\tGATAN\tTYPE\tATT_SUF",
  c!"LEXENTRY:\tGATA\tGATA\tTYPE\tATT_SUF,DET_SUF",
  c!"LEXENTRY:\tGATAN\tGATAN\tTYPE\tATT_SUF",
  c!"LEXENTRY:\tGRÄND\tGRÄND\tTYPE\tATT_SUF,DET_SUF",
  c!"LEXENTRY:\tGRÄNDEN\tGRÄNDEN\tTYPE\tATT_SUF",
  c!"LEXENTRY:\tGT\tGATAN\tTYPE\tATT_SUF",
  c!"LEXENTRY:\tGT.\tGATA\tTYPE\tDET_SUF",
  c!"LEXENTRY:\tGT.\tGATAN\tTYPE\tATT_SUF",
  c!"LEXENTRY:\tGÅNG\tGÅNG\tTYPE\tDET_SUF",
  c!"LEXENTRY:\tGÅNGEN\tGÅNGEN\tTYPE\tATT_SUF",
  c!"LEXENTRY:\tGÅRDSVÄG\tGÅRDSVÄG\tTYPE\tDET_SUF",
  c!"LEXENTRY:\tGÅRDSVÄGEN\tGÅRDSVÄGEN\tTYPE\tATT_SUF",
  c!"LEXENTRY:\tHAMN\tHAMN\tTYPE\tDET_SUF",
  c!"LEXENTRY:\tHAMNEN\tHAMNEN\tTYPE\tATT_SUF",
  c!"LEXENTRY:\tHÖJDEN\tHÖJDEN\tTYPE\tATT_SUF",
  c!"LEXENTRY:\tK.\tKATU\tTYPE\tATT_SUF,DET_SUF"]

/-- data/sample/finland.lex:52-101 -/
def entries1 : List Str := [
  c!"LEXENTRY:\tKAJEN\tKAJEN\tTYPE\tATT_SUF",
  c!"LEXENTRY:\tKALLIO\tKALLIO\tTYPE\tATT_SUF",
  c!"LEXENTRY:\tKATU\tKATU\tTYPE\tATT_SUF,DET_SUF",
  c!"LEXENTRY:\tKLIPPAN\tKLIPPAN\tTYPE\tATT_SUF",
  c!"LEXENTRY:\tKORSET\tKORSET\tTYPE\tATT_SUF",
  c!"LEXENTRY:\tKROKEN\tKROKEN\tTYPE\tATT_SUF",
  c!"LEXENTRY:\tKUJA\tKUJA\tTYPE\tATT_SUF,DET_SUF",
  c!"LEXENTRY:\tKÄYTÄVÄ\tKÄYTÄVÄ\tTYPE\tATT_SUF",
  c!"LEXENTRY:\tLEDEN\tLEDEN\tTYPE\tATT_SUF",
  c!"LEXENTRY:\tLIDEN\tLIDEN\tTYPE\tATT_SUF",
  c!"LEXENTRY:\tLUNDEN\tLUNDEN\tTYPE\tATT_SUF",
  c!"LEXENTRY:\tLÄNKEN\tLÄNKEN\tTYPE\tATT_SUF",
  c!"LEXENTRY:\tMUTKA\tMUTKA\tTYPE\tATT_SUF",
  c!"LEXENTRY:\tMÄKI\tMÄKI\tTYPE\tATT_SUF",
  c!"LEXENTRY:\tPARKEN\tPARKEN\tTYPE\tATT_SUF",
  c!"LEXENTRY:\tPASSAGEN\tPASSAGEN\tTYPE\tATT_SUF",
  c!"LEXENTRY:\tPASSET\tPASSET\tTYPE\tATT_SUF",
  c!"LEXENTRY:\tPLAN\tPLAN\tTYPE\tATT_SUF",
  c!"LEXENTRY:\tPLATS\tPLATS\tTYPE\tDET_SUF",
  c!"LEXENTRY:\tPLATSEN\tPLATSEN\tTYPE\tATT_SUF",
  c!"LEXENTRY:\tPOLKU\tPOLKU\tTYPE\tATT_SUF,DET_SUF",
  c!"LEXENTRY:\tPORTEN\tPORTEN\tTYPE\tATT_SUF",
  c!"LEXENTRY:\tPUISTO\tPUISTO\tTYPE\tATT_SUF",
  c!"LEXENTRY:\tPUISTOTIE\tPUISTOTIE\tTYPE\tATT_SUF,DET_SUF",
  c!"LEXENTRY:\tRAITTI\tRAITTI\tTYPE\tATT_SUF,DET_SUF",
  c!"LEXENTRY:\tRANTA\tRANTA\tTYPE\tATT_SUF",
  c!"LEXENTRY:\tRINGEN\tRINGEN\tTYPE\tATT_SUF",
  c!"LEXENTRY:\tRINNE\tRINNE\tTYPE\tATT_SUF",
  c!"LEXENTRY:\tSILTA\tSILTA\tTYPE\tATT_SUF",
  c!"LEXENTRY:\tSLINGAN\tSLINGAN\tTYPE\tATT_SUF",
  c!"LEXENTRY:\tSPÅRET\tSPÅRET\tTYPE\tATT_SUF",
  c!"LEXENTRY:\tSTIG\tSTIG\tTYPE\tDET_SUF",
  c!"LEXENTRY:\tSTIGEN\tSTIGEN\tTYPE\tATT_SUF",
  c!"LEXENTRY:\tSTRAND\tSTRAND\tTYPE\tATT_SUF,DET_SUF",
  c!"LEXENTRY:\tSTRANDEN\tSTRANDEN\tTYPE\tATT_SUF",
  c!"LEXENTRY:\tSTRÅK\tSTRÅK\tTYPE\tDET_SUF",
  c!"LEXENTRY:\tSTRÅKET\tSTRÅKET\tTYPE\tATT_SUF",
  c!"LEXENTRY:\tSVÄNGEN\tSVÄNGEN\tTYPE\tATT_SUF",
  c!"LEXENTRY:\tT.\tTIE\tTYPE\tATT_SUF,DET_SUF",
  c!"LEXENTRY:\tTERRASSEN\tTERRASSEN\tTYPE\tATT_SUF",
  c!"LEXENTRY:\tTIE\tTIE\tTYPE\tATT_SUF,DET_SUF",
  c!"LEXENTRY:\tTORG\tTORG\tTYPE\tATT_SUF,DET_SUF",
  c!"LEXENTRY:\tTORGET\tTORGET\tTYPE\tATT_SUF",
  c!"LEXENTRY:\tTORI\tTORI\tTYPE\tATT_SUF,DET_SUF",
  c!"LEXENTRY:\tTRAPPAN\tTRAPPAN\tTYPE\tATT_SUF",
  c!"LEXENTRY:\tTUNET\tTUNET\tTYPE\tATT_SUF",
  c!"LEXENTRY:\tUDDEN\tUDDEN\tTYPE\tATT_SUF",
  c!"LEXENTRY:\tV.\tVÄG\tTYPE\tATT_SUF,DET_SUF",
  c!"LEXENTRY:\tVÄG\tVÄG\tTYPE\tATT_SUF,DET_SUF",
  c!"LEXENTRY:\tVÄGEN\tVÄGEN\tTYPE\tATT_SUF"]

/-- data/sample/finland.lex:102-103 -/
def entries2 : List Str := [
  c!"LEXENTRY:\tVÄYLÄ\tVÄYLÄ\tTYPE\tATT_SUF",
  c!"LEXENTRY:\tÅSEN\tÅSEN\tTYPE\tATT_SUF"]

/-- The text, and what is claimed of it. -/
def lexicon : LexSample where
  header := c!"LEXICON:\tlex-finland.txt\tFIN\tfi_FI"
  body := entries0 ++ entries1 ++ entries2
  lang := .FIN
  locale := c!"fi_FI"
  classes := [
    .PLACEN, .BOXH, .TYPE, .NATION, .WORD]

set_option maxRecDepth 1000000 in
theorem lexicon_checked : checkLex lexicon [0, 9, 15, 30, 30] = true := by decide +kernel

/-- What of the grammar cannot match. -/
def pair : Pair where
  sample := sample
  lexicon := lexicon
  idle := [
    c!"CITY -> CITY -> 0.9"]
  null := [.building, .predir, .qual, .pretype, .sufdir, .ruralroute, .extra, .prov]

/-- What shows it. -/
def pairCert : PairCert where
  dead := [.CITY]
  barren := []
  reach := [
    c!"ADDRESS", c!"micro", c!"macro", c!"streetname", c!"housenumber", c!"unit", c!"pobox", c!"postal",
    c!"citywords", c!"country", c!"city"]

set_option maxRecDepth 100000 in
theorem pair_checked : checkPair pair pairCert = true := by decide +kernel

end AS.Sample.Finland
