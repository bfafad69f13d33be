import Verif.Lemmas.LexCheck
import Verif.Lemmas.PairCheck
import Verif.Sample.Liechtenstein
/-
The lexicon data/sample/liechtenstein.lex (all 106 lines), and what of liechtenstein.gmr cannot match with it. Written by
tools/lexicons.py.
-/
namespace AS.Sample.Liechtenstein

/-- data/sample/liechtenstein.lex:2-51 -/
def entries0 : List Str := [
  c!"LEXENTRY:\tAG\tAG\tPLACEN\tDETACH",
  c!"LEXENTRY:\tAKTIEN\tAKTIEN\tPLACEN\tDETACH",
  c!"LEXENTRY:\tAKTIEN-GESELLSCHAFT\tAKTIEN-GESELLSCHAFT\tPLACEN\tDETACH",
  c!"LEXENTRY:\tAKTIENGESELLSCHAFT\tAKTIENGESELLSCHAFT\tPLACEN\tDETACH",
  c!"LEXENTRY:\tALLEE\tALLEE\tTYPE\tATT_SUF,DET_SUF",
  c!"LEXENTRY:\tANSCHLUSSSTELLE\tANSCHLUSSSTELLE\tTYPE\tDET_PRE",
  c!"LEXENTRY:\tAUTOBAHNDREIECK\tAUTOBAHNDREIECK\tTYPE\tDET_PRE",
  c!"LEXENTRY:\tAUTOBAHNKREUZ\tAUTOBAHNKREUZ\tTYPE\tDET_PRE",
  c!"LEXENTRY:\tAVENUE\tAVENUE\tTYPE\tDET_SUF",
  c!"LEXENTRY:\tBACH\tBACH\tTYPE\tATT_SUF,DET_SUF",
  c!"LEXENTRY:\tBD\tBOULEVARD\tTYPE\tATT_SUF",
  c!"LEXENTRY:\tBD.\tBOULEVARD\tTYPE\tATT_SUF",
  c!"LEXENTRY:\tBERG\tBERG\tTYPE\tATT_SUF,DET_SUF",
  c!"LEXENTRY:\tBERGWEG\tBERGWEG\tTYPE\tATT_SUF,DET_SUF",
  c!"LEXENTRY:\tBETRIEB\tBETRIEB\tPLACEN\tDETACH",
  c!"LEXENTRY:\tBGB\tBGB\tPLACEN\tDETACH",
  c!"LEXENTRY:\tBOGEN\tBOGEN\tTYPE\tATT_SUF,DET_SUF",
  c!"LEXENTRY:\tBOULEVARD\tBOULEVARD\tTYPE\tATT_SUF",
  c!"LEXENTRY:\tBRUCH\tBRUCH\tTYPE\tATT_SUF",
  c!"LEXENTRY:\tBRÜCKE\tBRÜCKE\tTYPE\tATT_SUF,DET_SUF",
  c!"LEXENTRY:\tBURG\tBURG\tTYPE\tATT_SUF,DET_SUF",
  c!"LEXENTRY:\tBÜHL\tBÜHL\tTYPE\tATT_SUF",
  c!"LEXENTRY:\tCH\tCHAUSSEE\tTYPE\tATT_PRE,ATT_SUF",
  c!"LEXENTRY:\tCH.\tCHAUSSEE\tTYPE\tATT_PRE,ATT_SUF",
  c!"LEXENTRY:\tCHAUSSEE\tCHAUSSEE\tTYPE\tATT_PRE,ATT_SUF",
  c!"LEXENTRY:\tCO\tCO\tPLACEN\tDETACH",
  c!"LEXENTRY:\tDAMM\tDAMM\tTYPE\tATT_SUF,DET_SUF",
  c!"LEXENTRY:\tDEICH\tDEICH\tTYPE\tATT_SUF",
  c!"LEXENTRY:\tDRIVE\tDRIVE\tTYPE\tDET_SUF",
  c!"LEXENTRY:\tEG\tEG\tPLACEN\tDETACH",
  c!"LEXENTRY:\tEINZELFIRMA\tEINZELFIRMA\tPLACEN\tDETACH",
  c!"LEXENTRY:\tEINZELUNTERNEHMEN\tEINZELUNTERNEHMEN\tPLACEN\tDETACH",
  c!"LEXENTRY:\tENGETRAGENER\tENGETRAGENER\tPLACEN\tDETACH",
  c!"LEXENTRY:\tEV\tEV\tPLACEN\tDETACH",
  c!"LEXENTRY:\tFELD\tFELD\tTYPE\tATT_SUF,DET_SUF",
  c!"LEXENTRY:\tFIRMA\tFIRMA\tPLACEN\tDETACH",
  c!"LEXENTRY:\tGANG\tGANG\tTYPE\tATT_SUF",
  c!"LEXENTRY:\tGARTEN\tGARTEN\tTYPE\tATT_SUF,DET_SUF",
  c!"LEXENTRY:\tGASSE\tGASSE\tTYPE\tATT_SUF,DET_SUF",
  c!"LEXENTRY:\tGBR\tGBR\tPLACEN\tDETACH",
  c!"LEXENTRY:\tGENOSSENSCHAFT\tGENOSSENSCHAFT\tPLACEN\tDETACH",
  c!"LEXENTRY:\tGESELLSCHAFT\tGESELLSCHAFT\tPLACEN\tDETACH",
  c!"LEXENTRY:\tGMBH\tGMBH\tPLACEN\tDETACH",
  c!"LEXENTRY:\tGRABEN\tGRABEN\tTYPE\tATT_SUF,DET_SUF",
  c!"LEXENTRY:\tGÄSSCHEN\tGÄSSCHEN\tTYPE\tATT_SUF",
  c!"LEXENTRY:\tHAFEN\tHAFEN\tTYPE\tATT_SUF",
  c!"LEXENTRY:\tHANDELSGESELLSCHAFT\tHANDELSGESELLSCHAFT\tPLACEN\tDETACH",
  c!"LEXENTRY:\tHEIDE\tHEIDE\tTYPE\tDET_SUF",
  c!"LEXENTRY:\tHOF\tHOF\tTYPE\tATT_SUF,DET_SUF",
  c!"LEXENTRY:\tHORST\tHORST\tTYPE\tATT_SUF,DET_SUF"]

/-- data/sample/liechtenstein.lex:52-101 -/
def entries1 : List Str := [
  c!"LEXENTRY:\tHÖHE\tHÖHE\tTYPE\tATT_SUF,DET_SUF",
  c!"LEXENTRY:\tKAI\tKAI\tTYPE\tATT_SUF",
  c!"LEXENTRY:\tKAMP\tKAMP\tTYPE\tATT_SUF",
  c!"LEXENTRY:\tKANAL\tKANAL\tTYPE\tATT_SUF,DET_SUF",
  c!"LEXENTRY:\tKEHRE\tKEHRE\tTYPE\tATT_SUF,DET_SUF",
  c!"LEXENTRY:\tKG\tKG\tPLACEN\tDETACH",
  c!"LEXENTRY:\tKGAA\tKGAA\tPLACEN\tDETACH",
  c!"LEXENTRY:\tKOMMANDITGESELLSCHAFT\tKOMMANDITGESELLSCHAFT\tPLACEN\tDETACH",
  c!"LEXENTRY:\tKOPPEL\tKOPPEL\tTYPE\tATT_SUF",
  c!"LEXENTRY:\tLANDSTRASSE\tLANDSTRASSE\tTYPE\tDET_SUF",
  c!"LEXENTRY:\tLI\tLIECHTENSTEIN\tNATION\tDETACH",
  c!"LEXENTRY:\tLICHTENSTEJNSKO\tLIECHTENSTEIN\tNATION\tDETACH",
  c!"LEXENTRY:\tLIE\tLIECHTENSTEIN\tNATION\tDETACH",
  c!"LEXENTRY:\tLIECHTENSTEIN\tLIECHTENSTEIN\tNATION\tDETACH",
  c!"LEXENTRY:\tMARKT\tMARKT\tTYPE\tATT_SUF,DET_SUF",
  c!"LEXENTRY:\tMBH\tMBH\tPLACEN\tDETACH",
  c!"LEXENTRY:\tMOOR\tMOOR\tTYPE\tATT_SUF",
  c!"LEXENTRY:\tOHG\tOHG\tPLACEN\tDETACH",
  c!"LEXENTRY:\tPARK\tPARK\tTYPE\tATT_SUF,DET_SUF",
  c!"LEXENTRY:\tPASSAGE\tPASSAGE\tTYPE\tATT_SUF,DET_SUF",
  c!"LEXENTRY:\tPFAD\tPFAD\tTYPE\tATT_SUF,DET_SUF",
  c!"LEXENTRY:\tPLATZ\tPLATZ\tTYPE\tATT_PRE,ATT_SUF,DET_PRE,DET_SUF",
  c!"LEXENTRY:\tPROMENADE\tPROMENADE\tTYPE\tATT_SUF,DET_SUF",
  c!"LEXENTRY:\tRING\tRING\tTYPE\tATT_SUF,DET_SUF",
  c!"LEXENTRY:\tROAD\tROAD\tTYPE\tDET_SUF",
  c!"LEXENTRY:\tSTAFFEL\tSTAFFEL\tTYPE\tDET_SUF",
  c!"LEXENTRY:\tSTEG\tSTEG\tTYPE\tDET_SUF",
  c!"LEXENTRY:\tSTEIG\tSTEIG\tTYPE\tATT_SUF,DET_SUF",
  c!"LEXENTRY:\tSTEIGE\tSTEIGE\tTYPE\tATT_SUF,DET_SUF",
  c!"LEXENTRY:\tSTEIN\tSTEIN\tTYPE\tATT_SUF,DET_SUF",
  c!"LEXENTRY:\tSTIEG\tSTIEG\tTYPE\tATT_SUF",
  c!"LEXENTRY:\tSTIEGE\tSTIEGE\tTYPE\tATT_SUF,DET_SUF",
  c!"LEXENTRY:\tSTIFTUNG\tSTIFTUNG\tPLACEN\tDETACH",
  c!"LEXENTRY:\tSTR\tSTRASSE\tTYPE\tATT_SUF,DET_PRE,DET_SUF",
  c!"LEXENTRY:\tSTR.\tSTRASSE\tTYPE\tATT_SUF,DET_PRE,DET_SUF",
  c!"LEXENTRY:\tSTRASSE\tSTRASSE\tTYPE\tATT_SUF,DET_PRE,DET_SUF",
  c!"LEXENTRY:\tSTRAßE\tSTRASSE\tTYPE\tATT_SUF,DET_PRE,DET_SUF",
  c!"LEXENTRY:\tSTREET\tSTREET\tTYPE\tDET_SUF",
  c!"LEXENTRY:\tTAL\tTAL\tTYPE\tATT_SUF",
  c!"LEXENTRY:\tTEICH\tTEICH\tTYPE\tATT_SUF",
  c!"LEXENTRY:\tTOR\tTOR\tTYPE\tATT_SUF,DET_SUF",
  c!"LEXENTRY:\tTREPPE\tTREPPE\tTYPE\tATT_SUF",
  c!"LEXENTRY:\tTUNNEL\tTUNNEL\tTYPE\tATT_SUF,DET_SUF",
  c!"LEXENTRY:\tUFER\tUFER\tTYPE\tATT_SUF",
  c!"LEXENTRY:\tVEB\tVEB\tPLACEN\tDETACH",
  c!"LEXENTRY:\tVEREIN\tVEREIN\tPLACEN\tDETACH",
  c!"LEXENTRY:\tVOLKSEIGNER\tVOLKSEIGNER\tPLACEN\tDETACH",
  c!"LEXENTRY:\tWALL\tWALL\tTYPE\tATT_SUF",
  c!"LEXENTRY:\tWAY\tWAY\tTYPE\tDET_SUF",
  c!"LEXENTRY:\tWEG\tWEG\tTYPE\tATT_PRE,ATT_SUF,DET_PRE,DET_SUF"]

/-- data/sample/liechtenstein.lex:102-106 -/
def entries2 : List Str := [
  c!"LEXENTRY:\tWIESE\tWIESE\tTYPE\tATT_SUF",
  c!"LEXENTRY:\tWIESEN\tWIESEN\tTYPE\tATT_SUF",
  c!"LEXENTRY:\tWINKEL\tWINKEL\tTYPE\tATT_SUF,DET_SUF",
  c!"LEXENTRY:\tWOHNUNG\tWOHNUNG\tUNITH\tDETACH",
  c!"LEXENTRY:\tZEILE\tZEILE\tTYPE\tATT_SUF,DET_SUF"]

/-- The text, and what is claimed of it. -/
def lexicon : LexSample where
  header := c!"LEXICON:\tlex-liechtenstein.txt\tGER\tde_LI"
  body := entries0 ++ entries1 ++ entries2
  lang := .GER
  locale := c!"de_LI"
  classes := [
    .PLACEN, .TYPE, .NATION, .UNITH]

set_option maxRecDepth 1000000 in
theorem lexicon_checked : checkLex lexicon [0, 4, 60, 103] = true := by decide +kernel

/-- What of the grammar cannot match. -/
def pair : Pair where
  sample := sample
  lexicon := lexicon
  idle := [
    c!"@pobox",
    c!"BUILDT -> BLDNG -> 0.7",
    c!"BUILDT WORD -> BLDNG BLDNG -> 0.6",
    c!"BUILDT WORD WORD -> BLDNG BLDNG BLDNG -> 0.5",
    c!"BUILDT WORD WORD WORD -> BLDNG BLDNG BLDNG BLDNG -> 0.4",
    c!"[pobox]",
    c!"BOXH NUMBER -> BOXH BOXT -> 0.7",
    c!"CITY -> CITY -> 0.9"]
  null := [.building, .predir, .qual, .pretype, .sufdir, .ruralroute, .prov, .box]

/-- What shows it. -/
def pairCert : PairCert where
  dead := [.BOXH, .BUILDT, .CITY]
  barren := [c!"pobox"]
  reach := [
    c!"ADDRESS", c!"micro", c!"macro", c!"streetname", c!"housenumber", c!"unit", c!"postal", c!"citywords",
    c!"country", c!"city"]

set_option maxRecDepth 100000 in
theorem pair_checked : checkPair pair pairCert = true := by decide +kernel

end AS.Sample.Liechtenstein
