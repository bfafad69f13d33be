import Verif.Lemmas.LexCheck
import Verif.Lemmas.PairCheck
import Verif.Sample.Austria
/-
The lexicon data/sample/austria.lex (all 113 lines), and what of austria.gmr cannot match with it. Written by
tools/lexicons.py.
-/
namespace AS.Sample.Austria

/-- data/sample/austria.lex:2-51 -/
def entries0 : List Str := [
  c!"LEXENTRY:\tAG\tAG\tPLACEN\tDETACH",
  c!"LEXENTRY:\tAKTIEN\tAKTIEN\tPLACEN\tDETACH",
  c!"LEXENTRY:\tAKTIEN-GESELLSCHAFT\tAKTIEN-GESELLSCHAFT\tPLACEN\tDETACH",
  c!"LEXENTRY:\tAKTIENGESELLSCHAFT\tAKTIENGESELLSCHAFT\tPLACEN\tDETACH",
  c!"LEXENTRY:\tALLEE\tALLEE\tTYPE\tATT_SUF,DET_SUF",
  c!"LEXENTRY:\tANSCHLUSSSTELLE\tANSCHLUSSSTELLE\tTYPE\tDET_PRE",
  c!"LEXENTRY:\tAT\tAUSTRIA\tNATION\tDETACH",
  c!"LEXENTRY:\tAUSTRIA\tAUSTRIA\tNATION\tDETACH",
  c!"LEXENTRY:\tAUT\tAUSTRIA\tNATION\tDETACH",
  c!"LEXENTRY:\tAUTOBAHNDREIECK\tAUTOBAHNDREIECK\tTYPE\tDET_PRE",
  c!"LEXENTRY:\tAUTOBAHNKREUZ\tAUTOBAHNKREUZ\tTYPE\tDET_PRE",
  c!"LEXENTRY:\tAVENUE\tAVENUE\tTYPE\tDET_SUF",
  c!"LEXENTRY:\tBACH\tBACH\tTYPE\tATT_SUF,DET_SUF",
  c!"LEXENTRY:\tBD\tBOULEVARD\tTYPE\tATT_SUF",
  c!"LEXENTRY:\tBD.\tBOULEVARD\tTYPE\tATT_SUF",
  c!"LEXENTRY:\tBERG\tBERG\tTYPE\tATT_SUF,DET_SUF",
  c!"LEXENTRY:\tBERGWEG\tBERGWEG\tTYPE\tATT_SUF,DET_SUF",
  c!"LEXENTRY:\tBETRIEB\tBETRIEB\tPLACEN\tDETACH",
  c!"LEXENTRY:\tBGB\tBGB\tPLACEN\tDETACH",
  c!"LEXENTRY:\tBOGEN\tBOGEN\tTYPE\tATT_SUF",
  c!"LEXENTRY:\tBOULEVARD\tBOULEVARD\tTYPE\tATT_SUF",
  c!"LEXENTRY:\tBRUCH\tBRUCH\tTYPE\tATT_SUF",
  c!"LEXENTRY:\tBRUCKE\tBRÜCKE\tTYPE\tDET_SUF",
  c!"LEXENTRY:\tBRÜCKE\tBRÜCKE\tTYPE\tATT_SUF,DET_SUF",
  c!"LEXENTRY:\tBURG\tBURG\tTYPE\tATT_SUF,DET_SUF",
  c!"LEXENTRY:\tBÜHL\tBÜHL\tTYPE\tATT_SUF",
  c!"LEXENTRY:\tBÜHL \tBÜHL\tTYPE\tATT_SUF",
  c!"LEXENTRY:\tCH\tCHAUSSEE\tTYPE\tATT_SUF",
  c!"LEXENTRY:\tCH.\tCHAUSSEE\tTYPE\tATT_SUF",
  c!"LEXENTRY:\tCHAUSSEE\tCHAUSSEE\tTYPE\tATT_SUF",
  c!"LEXENTRY:\tCO\tCO\tPLACEN\tDETACH",
  c!"LEXENTRY:\tDAMM\tDAMM\tTYPE\tATT_SUF,DET_SUF",
  c!"LEXENTRY:\tDOKTOR\tDOKTOR\tWORD\tDETACH",
  c!"LEXENTRY:\tDr.\tDOKTOR\tWORD\tDETACH",
  c!"LEXENTRY:\tEG\tEG\tPLACEN\tDETACH",
  c!"LEXENTRY:\tEINZELFIRMA\tEINZELFIRMA\tPLACEN\tDETACH",
  c!"LEXENTRY:\tEINZELUNTERNEHMEN\tEINZELUNTERNEHMEN\tPLACEN\tDETACH",
  c!"LEXENTRY:\tENGETRAGENER\tENGETRAGENER\tPLACEN\tDETACH",
  c!"LEXENTRY:\tEV\tEV\tPLACEN\tDETACH",
  c!"LEXENTRY:\tFELD\tFELD\tTYPE\tATT_SUF,DET_SUF",
  c!"LEXENTRY:\tFIRMA\tFIRMA\tPLACEN\tDETACH",
  c!"LEXENTRY:\tGANG\tGANG\tTYPE\tATT_SUF",
  c!"LEXENTRY:\tGARTEN\tGARTEN\tTYPE\tATT_SUF,DET_SUF",
  c!"LEXENTRY:\tGASSCHEN\tGÄSSCHEN\tTYPE\tATT_SUF",
  c!"LEXENTRY:\tGASSE\tGASSE\tTYPE\tATT_SUF,DET_SUF",
  c!"LEXENTRY:\tGBR\tGBR\tPLACEN\tDETACH",
  c!"LEXENTRY:\tGENOSSENSCHAFT\tGENOSSENSCHAFT\tPLACEN\tDETACH",
  c!"LEXENTRY:\tGESELLSCHAFT\tGESELLSCHAFT\tPLACEN\tDETACH",
  c!"LEXENTRY:\tGMBH\tGMBH\tPLACEN\tDETACH",
  c!"LEXENTRY:\tGRABEN\tGRABEN\tTYPE\tATT_SUF,DET_SUF"]

/-- data/sample/austria.lex:52-101 -/
def entries1 : List Str := [
  c!"LEXENTRY:\tGUTERWEG\tGÜTERWEG\tTYPE\tDET_PRE",
  c!"LEXENTRY:\tGÄSSCHEN\tGÄSSCHEN\tTYPE\tATT_SUF",
  c!"LEXENTRY:\tGÜTERWEG\tGÜTERWEG\tTYPE\tDET_PRE",
  c!"LEXENTRY:\tHAFEN\tHAFEN\tTYPE\tATT_SUF",
  c!"LEXENTRY:\tHANDELSGESELLSCHAFT\tHANDELSGESELLSCHAFT\tPLACEN\tDETACH",
  c!"LEXENTRY:\tHEIDE\tHEIDE\tTYPE\tDET_SUF",
  c!"LEXENTRY:\tHOF\tHOF\tTYPE\tATT_SUF,DET_SUF",
  c!"LEXENTRY:\tHOFWEG\tHOFWEG\tTYPE\tDET_SUF",
  c!"LEXENTRY:\tHOHE\tHÖHE\tTYPE\tATT_SUF,DET_SUF",
  c!"LEXENTRY:\tHÖHE\tHÖHE\tTYPE\tATT_SUF,DET_SUF",
  c!"LEXENTRY:\tKAI\tKAI\tTYPE\tATT_SUF,DET_SUF",
  c!"LEXENTRY:\tKAMP\tKAMP\tTYPE\tATT_SUF",
  c!"LEXENTRY:\tKANAL\tKANAL\tTYPE\tATT_SUF,DET_SUF",
  c!"LEXENTRY:\tKEHRE\tKEHRE\tTYPE\tATT_SUF",
  c!"LEXENTRY:\tKG\tKG\tPLACEN\tDETACH",
  c!"LEXENTRY:\tKGAA\tKGAA\tPLACEN\tDETACH",
  c!"LEXENTRY:\tKOMMANDITGESELLSCHAFT\tKOMMANDITGESELLSCHAFT\tPLACEN\tDETACH",
  c!"LEXENTRY:\tKREMS AN DER DONAU\tKREMS AN DER DONAU\tWORD\tDETACH",
  c!"LEXENTRY:\tKREMS/DONAU\tKREMS AN DER DONAU\tWORD\tDETACH",
  c!"LEXENTRY:\tLANDSTRASSE\tLANDSTRASSE\tTYPE\tDET_SUF",
  c!"LEXENTRY:\tMARKT\tMARKT\tTYPE\tATT_SUF,DET_SUF",
  c!"LEXENTRY:\tMBH\tMBH\tPLACEN\tDETACH",
  c!"LEXENTRY:\tOBER-GRAFENDORF\tOBER-GRAFENDORF\tWORD\tDETACH",
  c!"LEXENTRY:\tOBERGRAFENDORF\tOBER-GRAFENDORF\tWORD\tDETACH",
  c!"LEXENTRY:\tOHG\tOHG\tPLACEN\tDETACH",
  c!"LEXENTRY:\tPARK\tPARK\tTYPE\tATT_SUF,DET_SUF",
  c!"LEXENTRY:\tPASSAGE\tPASSAGE\tTYPE\tATT_SUF",
  c!"LEXENTRY:\tPFAD\tPFAD\tTYPE\tATT_SUF",
  c!"LEXENTRY:\tPL\tPLATZ\tTYPE\tATT_PRE,ATT_SUF,DET_PRE,DET_SUF",
  c!"LEXENTRY:\tPL.\tPLATZ\tTYPE\tATT_PRE,ATT_SUF,DET_PRE,DET_SUF",
  c!"LEXENTRY:\tPLATZ\tPLATZ\tTYPE\tATT_PRE,ATT_SUF,DET_PRE,DET_SUF",
  c!"LEXENTRY:\tPOSTFACH\tPOSTFACH\tBOXH\tDETACH",
  c!"LEXENTRY:\tPROMENADE\tPROMENADE\tTYPE\tATT_SUF,DET_SUF",
  c!"LEXENTRY:\tRING\tRING\tTYPE\tATT_SUF,DET_SUF",
  c!"LEXENTRY:\tSTEG\tSTEG\tTYPE\tATT_SUF,DET_SUF",
  c!"LEXENTRY:\tSTEIG\tSTEIG\tTYPE\tATT_SUF,DET_SUF",
  c!"LEXENTRY:\tSTEIGE\tSTEIGE\tTYPE\tATT_SUF",
  c!"LEXENTRY:\tSTEIN\tSTEIN\tTYPE\tATT_SUF,DET_SUF",
  c!"LEXENTRY:\tSTIEG\tSTIEG\tTYPE\tATT_SUF",
  c!"LEXENTRY:\tSTIEGE\tSTIEGE\tTYPE\tATT_SUF,DET_SUF",
  c!"LEXENTRY:\tSTIFTUNG\tSTIFTUNG\tPLACEN\tDETACH",
  c!"LEXENTRY:\tSTR\tSTRASSE\tTYPE\tATT_PRE,ATT_SUF,DET_PRE,DET_SUF",
  c!"LEXENTRY:\tSTR.\tSTRASSE\tTYPE\tATT_PRE,ATT_SUF,DET_PRE,DET_SUF",
  c!"LEXENTRY:\tSTRA\tSTRASSE\tTYPE\tATT_PRE,ATT_SUF",
  c!"LEXENTRY:\tSTRA.\tSTRASSE\tTYPE\tATT_PRE,ATT_SUF",
  c!"LEXENTRY:\tSTRASSE\tSTRASSE\tTYPE\tATT_PRE,ATT_SUF,DET_PRE,DET_SUF",
  c!"LEXENTRY:\tSTRAßE\tSTRASSE\tTYPE\tATT_PRE,ATT_SUF,DET_PRE,DET_SUF",
  c!"LEXENTRY:\tTAL\tTAL\tTYPE\tATT_SUF",
  c!"LEXENTRY:\tTEICH\tTEICH\tTYPE\tATT_SUF",
  c!"LEXENTRY:\tTOR\tTOR\tTYPE\tATT_SUF,DET_SUF"]

/-- data/sample/austria.lex:102-113 -/
def entries2 : List Str := [
  c!"LEXENTRY:\tTUNNEL\tTUNNEL\tTYPE\tATT_SUF,DET_SUF",
  c!"LEXENTRY:\tUFER\tUFER\tTYPE\tATT_SUF",
  c!"LEXENTRY:\tVEB\tVEB\tPLACEN\tDETACH",
  c!"LEXENTRY:\tVEREIN\tVEREIN\tPLACEN\tDETACH",
  c!"LEXENTRY:\tVOLKSEIGNER\tVOLKSEIGNER\tPLACEN\tDETACH",
  c!"LEXENTRY:\tWALL\tWALL\tTYPE\tATT_SUF",
  c!"LEXENTRY:\tWEG\tWEG\tTYPE\tATT_PRE,ATT_SUF,DET_PRE,DET_SUF",
  c!"LEXENTRY:\tWIESE\tWIESE\tTYPE\tATT_SUF",
  c!"LEXENTRY:\tWIESEN\tWIESEN\tTYPE\tATT_SUF",
  c!"LEXENTRY:\tWINKEL\tWINKEL\tTYPE\tATT_SUF,DET_SUF",
  c!"LEXENTRY:\tWOHNUNG\tWOHNUNG\tUNITH\tDETACH",
  c!"LEXENTRY:\tZEILE\tZEILE\tTYPE\tATT_SUF,DET_SUF"]

/-- The text, and what is claimed of it. -/
def lexicon : LexSample where
  header := c!"LEXICON:\tlex-austria.txt\tGER\tde_AT"
  body := entries0 ++ entries1 ++ entries2
  lang := .GER
  locale := c!"de_AT"
  classes := [
    .PLACEN, .TYPE, .NATION, .WORD, .BOXH, .UNITH]

set_option maxRecDepth 1000000 in
theorem lexicon_checked : checkLex lexicon [0, 4, 6, 32, 81, 110] = true := by decide +kernel

/-- What of the grammar cannot match. -/
def pair : Pair where
  sample := sample
  lexicon := lexicon
  idle := [
    c!"@postal @city @region @country",
    c!"BUILDT -> BLDNG -> 0.7",
    c!"BUILDT WORD -> BLDNG BLDNG -> 0.6",
    c!"BUILDT WORD WORD -> BLDNG BLDNG BLDNG -> 0.5",
    c!"BUILDT WORD WORD WORD -> BLDNG BLDNG BLDNG BLDNG -> 0.4",
    c!"UNITH UNITT -> UNITH UNITT -> 0.8",
    c!"CITY -> CITY -> 0.9",
    c!"[region]",
    c!"PROV -> PROV -> 0.9"]
  null := [.building, .predir, .qual, .pretype, .sufdir, .ruralroute, .prov]

/-- What shows it. -/
def pairCert : PairCert where
  dead := [.BUILDT, .CITY, .PROV, .UNITT]
  barren := [c!"region"]
  reach := [
    c!"ADDRESS", c!"micro", c!"macro", c!"streetname", c!"housenumber", c!"unit", c!"pobox", c!"postal",
    c!"city", c!"country"]

set_option maxRecDepth 100000 in
theorem pair_checked : checkPair pair pairCert = true := by decide +kernel

end AS.Sample.Austria
