import Verif.Lemmas.LexCheck
import Verif.Lemmas.PairCheck
import Verif.Sample.Denmark
/-
The lexicon data/sample/denmark.lex (all 106 lines), and what of denmark.gmr cannot match with it. Written by
tools/lexicons.py.
-/
namespace AS.Sample.Denmark

/-- data/sample/denmark.lex:2-51 -/
def entries0 : List Str := [
  c!"LEXENTRY:\tAGER\tAGER\tTYPE\tATT_SUF",
  c!"LEXENTRY:\tAGEREN\tAGEREN\tTYPE\tATT_SUF",
  c!"LEXENTRY:\tALL\tALLÉ\tTYPE\tDET_SUF",
  c!"LEXENTRY:\tALL.\tALLÉ\tTYPE\tDET_SUF",
  c!"LEXENTRY:\tALLE\tALLE\tTYPE\tDET_SUF",
  c!"LEXENTRY:\tALLE\tALLÉ\tTYPE\tATT_SUF",
  c!"LEXENTRY:\tALLÉ\tALLÉ\tTYPE\tATT_SUF,DET_SUF",
  c!"LEXENTRY:\tASEN\tÅSEN\tTYPE\tATT_SUF",
  c!"LEXENTRY:\tBAG\tBAG\tTYPE\tDET_PRE",
  c!"LEXENTRY:\tBAKKE\tBAKKE\tTYPE\tATT_SUF,DET_SUF",
  c!"LEXENTRY:\tBAKKEN\tBAKKEN\tTYPE\tATT_SUF",
  c!"LEXENTRY:\tBJERG\tBJERG\tTYPE\tATT_SUF",
  c!"LEXENTRY:\tBJERGET\tBJERGET\tTYPE\tATT_SUF",
  c!"LEXENTRY:\tBO\tBO\tTYPE\tATT_SUF",
  c!"LEXENTRY:\tBOULEVARD\tBOULEVARD\tTYPE\tDET_SUF",
  c!"LEXENTRY:\tBRINKEN\tBRINKEN\tTYPE\tATT_SUF",
  c!"LEXENTRY:\tBRO\tBRO\tTYPE\tATT_SUF",
  c!"LEXENTRY:\tBRYGGE\tBRYGGE\tTYPE\tDET_SUF",
  c!"LEXENTRY:\tBUEN\tBUEN\tTYPE\tATT_SUF",
  c!"LEXENTRY:\tBYGADE\tBYGADE\tTYPE\tDET_SUF",
  c!"LEXENTRY:\tC\tC \tWORD\tDETACH",
  c!"LEXENTRY:\tDAL\tDAL\tTYPE\tATT_SUF",
  c!"LEXENTRY:\tDALEN\tDALEN\tTYPE\tATT_SUF",
  c!"LEXENTRY:\tDAMMEN\tDAMMEN\tTYPE\tATT_SUF",
  c!"LEXENTRY:\tDENMARK\tDENMARK\tNATION\tDETACH",
  c!"LEXENTRY:\tDK\tDENMARK\tNATION\tDETACH",
  c!"LEXENTRY:\tDNK\tDENMARK\tNATION\tDETACH",
  c!"LEXENTRY:\tDRAGET\tDRAGET\tTYPE\tATT_SUF",
  c!"LEXENTRY:\tENG\tENG\tTYPE\tATT_SUF",
  c!"LEXENTRY:\tENGEN\tENGEN\tTYPE\tATT_SUF",
  c!"LEXENTRY:\tFALDET\tFALDET\tTYPE\tATT_SUF",
  c!"LEXENTRY:\tFOLDEN\tFOLDEN\tTYPE\tATT_SUF",
  c!"LEXENTRY:\tGADE\tGADE\tTYPE\tATT_SUF,DET_SUF",
  c!"LEXENTRY:\tGANGEN\tGANGEN\tTYPE\tATT_SUF",
  c!"LEXENTRY:\tGARD\tGÅRD\tTYPE\tATT_SUF",
  c!"LEXENTRY:\tGARDEN\tGÅRDEN\tTYPE\tATT_SUF",
  c!"LEXENTRY:\tGRÆNSEN\tGRÆNSEN\tTYPE\tATT_SUF",
  c!"LEXENTRY:\tGÅRD\tGÅRD\tTYPE\tATT_SUF",
  c!"LEXENTRY:\tGÅRDEN\tGÅRDEN\tTYPE\tATT_SUF",
  c!"LEXENTRY:\tHAVE\tHAVE\tTYPE\tATT_SUF",
  c!"LEXENTRY:\tHAVEN\tHAVEN\tTYPE\tATT_SUF",
  c!"LEXENTRY:\tHEGNET\tHEGNET\tTYPE\tATT_SUF",
  c!"LEXENTRY:\tHOJ\tHØJ\tTYPE\tATT_SUF",
  c!"LEXENTRY:\tHOLM\tHOLM\tTYPE\tATT_SUF",
  c!"LEXENTRY:\tHOLMEN\tHOLMEN\tTYPE\tATT_SUF",
  c!"LEXENTRY:\tHUSENE\tHUSENE\tTYPE\tATT_SUF",
  c!"LEXENTRY:\tHØJ\tHØJ\tTYPE\tATT_SUF",
  c!"LEXENTRY:\tK\tK \tWORD\tDETACH",
  c!"LEXENTRY:\tKAJ\tKAJ\tTYPE\tATT_SUF",
  c!"LEXENTRY:\tKANAL\tKANAL\tTYPE\tDET_SUF"]

/-- data/sample/denmark.lex:52-101 -/
def entries1 : List Str := [
  c!"LEXENTRY:\tKRATTET\tKRATTET\tTYPE\tATT_SUF",
  c!"LEXENTRY:\tKROGEN\tKROGEN\tTYPE\tATT_SUF",
  c!"LEXENTRY:\tKÆR\tKÆR\tTYPE\tATT_SUF",
  c!"LEXENTRY:\tKÆRET\tKÆRET\tTYPE\tATT_SUF,DET_SUF",
  c!"LEXENTRY:\tLEDET\tLEDET\tTYPE\tATT_SUF",
  c!"LEXENTRY:\tLODDEN\tLODDEN\tTYPE\tATT_SUF",
  c!"LEXENTRY:\tLOKKEN\tLØKKEN\tTYPE\tATT_SUF",
  c!"LEXENTRY:\tLUND\tLUND\tTYPE\tATT_SUF",
  c!"LEXENTRY:\tLÆNGEN\tLÆNGEN\tTYPE\tATT_SUF",
  c!"LEXENTRY:\tLØKKEN\tLØKKEN\tTYPE\tATT_SUF",
  c!"LEXENTRY:\tMARKEN\tMARKEN\tTYPE\tATT_SUF",
  c!"LEXENTRY:\tMOSEN\tMOSEN\tTYPE\tATT_SUF",
  c!"LEXENTRY:\tN\tN\tWORD\tDETACH",
  c!"LEXENTRY:\tNV\tNV\tWORD\tDETACH",
  c!"LEXENTRY:\tNØ\tNØ\tWORD\tDETACH",
  c!"LEXENTRY:\tOE\tOE\tWORD\tDETACH",
  c!"LEXENTRY:\tPARK\tPARK\tTYPE\tATT_SUF,DET_SUF",
  c!"LEXENTRY:\tPARKEN\tPARKEN\tTYPE\tATT_SUF",
  c!"LEXENTRY:\tPASSAGEN\tPASSAGEN\tTYPE\tATT_SUF",
  c!"LEXENTRY:\tPB\tPOSTBOKS\tBOXH\tDETACH",
  c!"LEXENTRY:\tPB.\tPOSTBOKS\tBOXH\tDETACH",
  c!"LEXENTRY:\tPLADS\tPLADS\tTYPE\tDET_SUF",
  c!"LEXENTRY:\tPLADSEN\tPLADSEN\tTYPE\tATT_SUF",
  c!"LEXENTRY:\tPORTEN\tPORTEN\tTYPE\tATT_SUF",
  c!"LEXENTRY:\tPOSTBOKS\tPOSTBOKS\tBOXH\tDETACH",
  c!"LEXENTRY:\tPOSTBOX\tPOSTBOKS\tBOXH\tDETACH",
  c!"LEXENTRY:\tPROMENADEN\tPROMENADEN\tTYPE\tATT_SUF",
  c!"LEXENTRY:\tRÆKKEN\tRÆKKEN\tTYPE\tATT_SUF",
  c!"LEXENTRY:\tS\tS\tWORD\tDETACH",
  c!"LEXENTRY:\tSIDEVEJ\tSIDEVEJ\tTYPE\tDET_SUF",
  c!"LEXENTRY:\tSKELLET\tSKELLET\tTYPE\tATT_SUF",
  c!"LEXENTRY:\tSKOVEN\tSKOVEN\tTYPE\tATT_SUF",
  c!"LEXENTRY:\tSKRÆNTEN\tSKRÆNTEN\tTYPE\tATT_SUF",
  c!"LEXENTRY:\tSLETTEN\tSLETTEN\tTYPE\tATT_SUF",
  c!"LEXENTRY:\tSLIPPEN\tSLIPPEN\tTYPE\tATT_SUF",
  c!"LEXENTRY:\tSTEDET\tSTEDET\tTYPE\tATT_SUF",
  c!"LEXENTRY:\tSTIEN\tSTIEN\tTYPE\tATT_SUF",
  c!"LEXENTRY:\tSTRÆDE\tSTRÆDE\tTYPE\tATT_SUF",
  c!"LEXENTRY:\tSV\tSV\tWORD\tDETACH",
  c!"LEXENTRY:\tSVINGET\tSVINGET\tTYPE\tATT_SUF",
  c!"LEXENTRY:\tSØ\tSØ\tWORD\tDETACH",
  c!"LEXENTRY:\tTOFTEN\tTOFTEN\tTYPE\tATT_SUF",
  c!"LEXENTRY:\tTOPPEN\tTOPPEN\tTYPE\tATT_SUF",
  c!"LEXENTRY:\tTORV\tTORV\tTYPE\tATT_SUF",
  c!"LEXENTRY:\tTORVET\tTORVET\tTYPE\tATT_SUF",
  c!"LEXENTRY:\tV\tV\tWORD\tDETACH",
  c!"LEXENTRY:\tVANG\tVANG\tTYPE\tATT_SUF,DET_SUF",
  c!"LEXENTRY:\tVANGEN\tVANGEN\tTYPE\tATT_SUF",
  c!"LEXENTRY:\tVED\tVED\tTYPE\tDET_PRE",
  c!"LEXENTRY:\tVEJ\tVEJ\tTYPE\tATT_SUF,DET_SUF"]

/-- data/sample/denmark.lex:102-106 -/
def entries2 : List Str := [
  c!"LEXENTRY:\tVOLDEN\tVOLDEN\tTYPE\tATT_SUF",
  c!"LEXENTRY:\tVÆNGE\tVÆNGE\tTYPE\tDET_SUF",
  c!"LEXENTRY:\tVÆNGET\tVÆNGET\tTYPE\tATT_SUF",
  c!"LEXENTRY:\tÅSEN\tÅSEN\tTYPE\tATT_SUF",
  c!"LEXENTRY:\tØ\tØ\tWORD\tDETACH"]

/-- The text, and what is claimed of it. -/
def lexicon : LexSample where
  header := c!"LEXICON:\tlex-denmark.txt\tDAN\tda_DK"
  body := entries0 ++ entries1 ++ entries2
  lang := .DAN
  locale := c!"da_DK"
  classes := [
    .TYPE, .WORD, .NATION, .BOXH]

set_option maxRecDepth 1000000 in
theorem lexicon_checked : checkLex lexicon [0, 20, 24, 69] = true := by decide +kernel

/-- What of the grammar cannot match. -/
def pair : Pair where
  sample := sample
  lexicon := lexicon
  idle := [
    c!"COMMA NUMBER -> IGNORE UNITT -> 0.5",
    c!"COMMA NUMBER COMMA WORD -> IGNORE UNITT IGNORE EXTRA -> 0.7",
    c!"COMMA NUMBER COMMA WORD WORD -> IGNORE UNITT IGNORE EXTRA EXTRA -> 0.7",
    c!"CITY -> CITY -> 0.9"]
  null := [.building, .predir, .qual, .pretype, .sufdir, .ruralroute, .prov]

/-- What shows it. -/
def pairCert : PairCert where
  dead := [.CITY, .COMMA]
  barren := []
  reach := [
    c!"ADDRESS", c!"micro", c!"macro", c!"streetname", c!"housenumber", c!"unit", c!"pobox", c!"postal",
    c!"city", c!"country"]

set_option maxRecDepth 100000 in
theorem pair_checked : checkPair pair pairCert = true := by decide +kernel

end AS.Sample.Denmark
