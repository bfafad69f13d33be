import Verif.Lemmas.LexCheck
import Verif.Lemmas.PairCheck
import Verif.Sample.Norway
/-
The lexicon data/sample/norway.lex (all 110 lines), and what of norway.gmr cannot match with it. Written by
tools/lexicons.py.
-/
namespace AS.Sample.Norway

/-- data/sample/norway.lex:2-51 -/
def entries0 : List Str := [
  c!"LEXENTRY:\tAB\tAB\tPLACEN\tDETACH",
  c!"LEXENTRY:\tAKTIEBOLAG\tAKTIEBOLAG\tPLACEN\tDETACH",
  c!"LEXENTRY:\tAKTIEBOLAGET\tAKTIEBOLAGET\tPLACEN\tDETACH",
  c!"LEXENTRY:\tALLE\tALLE\tTYPE\tDET_SUF",
  c!"LEXENTRY:\tALLE\tALLÉ\tTYPE\tATT_SUF",
  c!"LEXENTRY:\tALLEEN\tALLEEN\tTYPE\tATT_SUF",
  c!"LEXENTRY:\tALLEEN\tALLÉEN\tTYPE\tATT_SUF",
  c!"LEXENTRY:\tALLÉ\tALLÉ\tTYPE\tATT_SUF,DET_SUF",
  c!"LEXENTRY:\tALLÉEN\tALLÉEN\tTYPE\tATT_SUF",
  c!"LEXENTRY:\tASEN\tÅSEN\tTYPE\tATT_SUF",
  c!"LEXENTRY:\tAVENY\tAVENY\tTYPE\tDET_SUF",
  c!"LEXENTRY:\tBAKKE\tBAKKE\tTYPE\tATT_SUF",
  c!"LEXENTRY:\tBAKKEN\tBAKKEN\tTYPE\tATT_SUF",
  c!"LEXENTRY:\tBEKK\tBEKK\tTYPE\tATT_SUF",
  c!"LEXENTRY:\tBOLIGNUMMER\tBOLIGNUMMER\tBUILDT\tDETACH",
  c!"LEXENTRY:\tBEKKEN\tBEKKEN\tTYPE\tATT_SUF",
  c!"LEXENTRY:\tBRU\tBRU\tTYPE\tATT_SUF,DET_SUF",
  c!"LEXENTRY:\tBRYGGA\tBRYGGA\tTYPE\tATT_SUF",
  c!"LEXENTRY:\tBRYGGEN\tBRYGGEN\tTYPE\tATT_SUF",
  c!"LEXENTRY:\tCHAUSSEEN\tCHAUSSEEN\tTYPE\tATT_SUF",
  c!"LEXENTRY:\tDALEN\tDALEN\tTYPE\tATT_SUF",
  c!"LEXENTRY:\tENGA\tENGA\tTYPE\tATT_SUF",
  c!"LEXENTRY:\tFARET\tFARET\tTYPE\tATT_SUF",
  c!"LEXENTRY:\tG.\tGATE\tTYPE\tDET_SUF",
  c!"LEXENTRY:\tG.\tGATA\tTYPE\tATT_SUF",
  c!"LEXENTRY:\tGANG\tGANG\tTYPE\tATT_SUF",
  c!"LEXENTRY:\tGANGEN\tGANGEN\tTYPE\tATT_SUF",
  c!"LEXENTRY:\tGATA\tGATA\tTYPE\tATT_SUF",
  c!"LEXENTRY:\tGATE\tGATE\tTYPE\tATT_SUF,DET_SUF",
  c!"LEXENTRY:\tGATEN\tGATEN\tTYPE\tATT_SUF",
  c!"LEXENTRY:\tGRENDA\tGRENDA\tTYPE\tATT_SUF",
  c!"LEXENTRY:\tGT\tGATE\tTYPE\tDET_SUF",
  c!"LEXENTRY:\tGT\tGATA\tTYPE\tATT_SUF",
  c!"LEXENTRY:\tGT.\tGATE\tTYPE\tDET_SUF",
  c!"LEXENTRY:\tGT.\tGATA\tTYPE\tATT_SUF",
  c!"LEXENTRY:\tHAGAN\tHAGAN\tTYPE\tATT_SUF",
  c!"LEXENTRY:\tHAGEN\tHAGEN\tTYPE\tATT_SUF",
  c!"LEXENTRY:\tHAUGEN\tHAUGEN\tTYPE\tATT_SUF",
  c!"LEXENTRY:\tKAI\tKAI\tTYPE\tATT_SUF",
  c!"LEXENTRY:\tKAIA\tKAIA\tTYPE\tATT_SUF",
  c!"LEXENTRY:\tKAIEN\tKAIEN\tTYPE\tATT_SUF",
  c!"LEXENTRY:\tKROKEN\tKROKEN\tTYPE\tATT_SUF",
  c!"LEXENTRY:\tLAGET\tLAGET\tTYPE\tATT_SUF",
  c!"LEXENTRY:\tLIA\tLIA\tTYPE\tATT_SUF",
  c!"LEXENTRY:\tLIEN\tLIEN\tTYPE\tATT_SUF",
  c!"LEXENTRY:\tLOKKA\tLØKKA\tTYPE\tATT_SUF",
  c!"LEXENTRY:\tLUND\tLUND\tTYPE\tATT_SUF",
  c!"LEXENTRY:\tLUNDEN\tLUNDEN\tTYPE\tATT_SUF",
  c!"LEXENTRY:\tLØKKA\tLØKKA\tTYPE\tATT_SUF",
  c!"LEXENTRY:\tNO\tNORWAY\tNATION\tDETACH"]

/-- data/sample/norway.lex:52-101 -/
def entries1 : List Str := [
  c!"LEXENTRY:\tNOORWEGEN\tNORWAY\tNATION\tDETACH",
  c!"LEXENTRY:\tNOR\tNORWAY\tNATION\tDETACH",
  c!"LEXENTRY:\tNORGE\tNORWAY\tNATION\tDETACH",
  c!"LEXENTRY:\tNORJA\tNORWAY\tNATION\tDETACH",
  c!"LEXENTRY:\tNORSKO\tNORWAY\tNATION\tDETACH",
  c!"LEXENTRY:\tNORUEGA\tNORWAY\tNATION\tDETACH",
  c!"LEXENTRY:\tNORVEGIA\tNORWAY\tNATION\tDETACH",
  c!"LEXENTRY:\tNORVÈGE\tNORWAY\tNATION\tDETACH",
  c!"LEXENTRY:\tNORWAY\tNORWAY\tNATION\tDETACH",
  c!"LEXENTRY:\tNORWEGEN\tNORWAY\tNATION\tDETACH",
  c!"LEXENTRY:\tBOUVET ISLAND\tBVT\tNATION\tDETACH",
  c!"LEXENTRY:\tBVT\tBVT\tNATION\tDETACH",
  c!"LEXENTRY:\tSJM\tSJM\tNATION\tDETACH",
  c!"LEXENTRY:\tSVALBARD AND JAN MAYEN ISLAND\tSJM\tNATION\tDETACH",
  c!"LEXENTRY:\tSVALBARD\tSJM\tNATION\tDETACH",
  c!"LEXENTRY:\tJAN MAYEN ISLAND\tSJM\tNATION\tDETACH",
  c!"LEXENTRY:\tXQM\tXQM\tNATION\tDETACH",
  c!"LEXENTRY:\tQUEEN MAUD LAND AND PETER I ISLAND\tXQM\tNATION\tDETACH",
  c!"LEXENTRY:\tQUEEN MAUD LAND\tXQM\tNATION\tDETACH",
  c!"LEXENTRY:\tPETER I ISLAND\tXQM\tNATION\tDETACH",
  c!"LEXENTRY:\tPARKEN\tPARKEN\tTYPE\tATT_SUF",
  c!"LEXENTRY:\tPASSASJEN\tPASSASJEN\tTYPE\tATT_SUF",
  c!"LEXENTRY:\tPL\tPLASSEN\tTYPE\tATT_SUF",
  c!"LEXENTRY:\tPL.\tPLASSEN\tTYPE\tATT_SUF",
  c!"LEXENTRY:\tPLASS\tPLASS\tTYPE\tDET_SUF",
  c!"LEXENTRY:\tPLASSEN\tPLASSEN\tTYPE\tATT_SUF",
  c!"LEXENTRY:\tPB\tPB\tBOXH\tDETACH",
  c!"LEXENTRY:\tPB.\tPB\tBOXH\tDETACH",
  c!"LEXENTRY:\tPOSTBOKS\tPB\tBOXH\tDETACH",
  c!"LEXENTRY:\tPO BOX\tPB\tBOXH\tDETACH",
  c!"LEXENTRY:\tP O BOX\tPB\tBOXH\tDETACH",
  c!"LEXENTRY:\tPOB\tPB\tBOXH\tDETACH",
  c!"LEXENTRY:\tPROMENADEN\tPROMENADEN\tTYPE\tATT_SUF",
  c!"LEXENTRY:\tSLETTA\tSLETTA\tTYPE\tATT_SUF",
  c!"LEXENTRY:\tSMAUET\tSMAUET\tTYPE\tATT_SUF",
  c!"LEXENTRY:\tSTIEN\tSTIEN\tTYPE\tATT_SUF",
  c!"LEXENTRY:\tSTRANDA\tSTRANDA\tTYPE\tATT_SUF",
  c!"LEXENTRY:\tSTREDET\tSTREDET\tTYPE\tATT_SUF",
  c!"LEXENTRY:\tSTUBBEN\tSTUBBEN\tTYPE\tATT_SUF",
  c!"LEXENTRY:\tSVINGEN\tSVINGEN\tTYPE\tATT_SUF",
  c!"LEXENTRY:\tTERRASSE\tTERRASSE\tTYPE\tATT_SUF,DET_SUF",
  c!"LEXENTRY:\tTORG\tTORG\tTYPE\tDET_SUF",
  c!"LEXENTRY:\tTORGET\tTORGET\tTYPE\tATT_SUF",
  c!"LEXENTRY:\tTORVET\tTORVET\tTYPE\tATT_SUF",
  c!"LEXENTRY:\tTRAKKET\tTRÅKKET\tTYPE\tATT_SUF",
  c!"LEXENTRY:\tTRÅKKET\tTRÅKKET\tTYPE\tATT_SUF",
  c!"LEXENTRY:\tTUNET\tTUNET\tTYPE\tATT_SUF",
  c!"LEXENTRY:\tTUNNEL\tTUNNEL\tTYPE\tATT_SUF,DET_SUF",
  c!"LEXENTRY:\tV.\tVEI\tTYPE\tDET_SUF",
  c!"LEXENTRY:\tV.\tVEGEN\tTYPE\tATT_SUF"]

/-- data/sample/norway.lex:102-110 -/
def entries2 : List Str := [
  c!"LEXENTRY:\tV.\tVEIEN\tTYPE\tATT_SUF",
  c!"LEXENTRY:\tVANGEN\tVANGEN\tTYPE\tATT_SUF",
  c!"LEXENTRY:\tVEG\tVEG\tTYPE\tATT_SUF,DET_SUF",
  c!"LEXENTRY:\tVEGEN\tVEGEN\tTYPE\tATT_SUF",
  c!"LEXENTRY:\tVEI\tVEI\tTYPE\tDET_SUF",
  c!"LEXENTRY:\tVEIEN\tVEIEN\tTYPE\tATT_SUF",
  c!"LEXENTRY:\tVN\tVEIEN\tTYPE\tATT_SUF",
  c!"LEXENTRY:\tVN.\tVEIEN\tTYPE\tATT_SUF",
  c!"LEXENTRY:\tÅSEN\tÅSEN\tTYPE\tATT_SUF"]

/-- The text, and what is claimed of it. -/
def lexicon : LexSample where
  header := c!"LEXICON:\tlex-norway.txt\tNOR\tno_NO"
  body := entries0 ++ entries1 ++ entries2
  lang := .NOR
  locale := c!"no_NO"
  classes := [
    .PLACEN, .TYPE, .BUILDT, .NATION, .BOXH]

set_option maxRecDepth 1000000 in
theorem lexicon_checked : checkLex lexicon [0, 3, 14, 49, 76] = true := by decide +kernel

/-- What of the grammar cannot match. -/
def pair : Pair where
  sample := sample
  lexicon := lexicon
  idle := [
    c!"@streetname @housenumber @unit",
    c!"[unit]",
    c!"UNITH UNITT -> UNITH UNITT -> 0.8",
    c!"UNITH WORD -> UNITH UNIT -> 0.7",
    c!"UNITH NUMBER -> UNITH UNITT -> 0.7",
    c!"UNITH MIXED -> UNITH UNITT -> 0.7",
    c!"UNITH WORD WORD -> UNITH UNITT UNITT -> 0.4",
    c!"DIRECT -> CITY -> 0.5",
    c!"CITY -> CITY -> 0.9"]
  null := [.building, .predir, .qual, .pretype, .sufdir, .ruralroute, .extra, .prov, .unit]

/-- What shows it. -/
def pairCert : PairCert where
  dead := [.CITY, .DIRECT, .UNITH, .UNITT]
  barren := [c!"unit"]
  reach := [
    c!"ADDRESS", c!"micro", c!"macro", c!"streetname", c!"housenumber", c!"pobox", c!"postal", c!"citywords",
    c!"country", c!"city"]

set_option maxRecDepth 100000 in
theorem pair_checked : checkPair pair pairCert = true := by decide +kernel

end AS.Sample.Norway
