import Verif.Lemmas.LexCheck
import Verif.Lemmas.PairCheck
import Verif.Sample.Canada
/-
The lexicon data/sample/canada.lex (all 1504 lines), and what of canada.gmr cannot match with it. Written by
tools/lexicons.py.
-/
namespace AS.Sample.Canada

/-- data/sample/canada.lex:2-51 -/
def entries0 : List Str := [
  c!"LEXENTRY:\tPO BOX\tPO BOX\tBOXH\tDETACH",
  c!"LEXENTRY:\tP.O. BOX\tPO BOX\tBOXH\tDETACH",
  c!"LEXENTRY:\tPO\tPO BOX\tBOXH\tDETACH",
  c!"LEXENTRY:\tP.O.\tPO BOX\tBOXH\tDETACH",
  c!"LEXENTRY:\tSTN\tSTN\tBOXH\tDETACH",
  c!"LEXENTRY:\tSTATION\tSTN\tBOXH\tDETACH",
  c!"LEXENTRY:\tGD STN\tSTN\tBOXH\tDETACH",
  c!"LEXENTRY:\t#\tAPT\tUNITH\tDETACH",
  c!"LEXENTRY:\t1\t1\tNUMBER\tDETACH",
  c!"LEXENTRY:\t10\t10\tNUMBER\tDETACH",
  c!"LEXENTRY:\t10E\t10E\tWORD,ORD\tDETACH",
  c!"LEXENTRY:\t10TH\t10TH\tWORD,ORD\tDETACH",
  c!"LEXENTRY:\t11\t11\tNUMBER\tDETACH",
  c!"LEXENTRY:\t11TH\t11TH\tWORD,ORD\tDETACH",
  c!"LEXENTRY:\t12\t12\tNUMBER\tDETACH",
  c!"LEXENTRY:\t12TH\t12TH\tWORD,ORD\tDETACH",
  c!"LEXENTRY:\t13\t13\tNUMBER\tDETACH",
  c!"LEXENTRY:\t13TH\t13TH\tWORD,ORD\tDETACH",
  c!"LEXENTRY:\t14\t14\tNUMBER\tDETACH",
  c!"LEXENTRY:\t14TH\t14TH\tWORD,ORD\tDETACH",
  c!"LEXENTRY:\t15\t15\tNUMBER\tDETACH",
  c!"LEXENTRY:\t15TH\t15TH\tWORD,ORD\tDETACH",
  c!"LEXENTRY:\t16\t16\tNUMBER\tDETACH",
  c!"LEXENTRY:\t16TH\t16TH\tWORD,ORD\tDETACH",
  c!"LEXENTRY:\t17\t17\tNUMBER\tDETACH",
  c!"LEXENTRY:\t17TH\t17TH\tWORD,ORD\tDETACH",
  c!"LEXENTRY:\t18\t18\tNUMBER\tDETACH",
  c!"LEXENTRY:\t18TH\t18TH\tWORD,ORD\tDETACH",
  c!"LEXENTRY:\t19\t19\tNUMBER\tDETACH",
  c!"LEXENTRY:\t19TH\t19TH\tWORD,ORD\tDETACH",
  c!"LEXENTRY:\t1ER\t1ER\tWORD,ORD\tDETACH",
  c!"LEXENTRY:\t1ST\t1ST\tWORD,ORD\tDETACH",
  c!"LEXENTRY:\t1ÈRE\t1ER\tWORD,ORD\tDETACH",
  c!"LEXENTRY:\t1È\t1ER\tWORD,ORD\tDETACH",
  c!"LEXENTRY:\t1E\t1ER\tWORD,ORD\tDETACH",
  c!"LEXENTRY:\t2\t2\tNUMBER\tDETACH",
  c!"LEXENTRY:\t20\t20\tNUMBER\tDETACH",
  c!"LEXENTRY:\t20TH\t20TH\tWORD,ORD\tDETACH",
  c!"LEXENTRY:\t2E\t2E\tWORD,ORD\tDETACH",
  c!"LEXENTRY:\t2ND\t2ND\tWORD,ORD\tDETACH",
  c!"LEXENTRY:\t3\t3\tNUMBER\tDETACH",
  c!"LEXENTRY:\t30\t30\tNUMBER\tDETACH",
  c!"LEXENTRY:\t30TH\t30TH\tWORD,ORD\tDETACH",
  c!"LEXENTRY:\t3E\t3E\tWORD,ORD\tDETACH",
  c!"LEXENTRY:\t3RD\t3RD\tWORD,ORD\tDETACH",
  c!"LEXENTRY:\t4\t4\tNUMBER\tDETACH",
  c!"LEXENTRY:\t40\t40\tNUMBER\tDETACH",
  c!"LEXENTRY:\t40TH\t40TH\tWORD,ORD\tDETACH",
  c!"LEXENTRY:\t4E\t4E\tWORD,ORD\tDETACH",
  c!"LEXENTRY:\t4TH\t4TH\tWORD,ORD\tDETACH"]

/-- data/sample/canada.lex:52-101 -/
def entries1 : List Str := [
  c!"LEXENTRY:\t5\t5\tNUMBER\tDETACH",
  c!"LEXENTRY:\t50\t50\tNUMBER\tDETACH",
  c!"LEXENTRY:\t50TH\t50TH\tWORD,ORD\tDETACH",
  c!"LEXENTRY:\t5E\t5E\tWORD,ORD\tDETACH",
  c!"LEXENTRY:\t5TH\t5TH\tWORD,ORD\tDETACH",
  c!"LEXENTRY:\t6\t6\tNUMBER\tDETACH",
  c!"LEXENTRY:\t60\t60\tNUMBER\tDETACH",
  c!"LEXENTRY:\t60TH\t60TH\tWORD,ORD\tDETACH",
  c!"LEXENTRY:\t6E\t6E\tWORD,ORD\tDETACH",
  c!"LEXENTRY:\t6TH\t6TH\tWORD,ORD\tDETACH",
  c!"LEXENTRY:\t7\t7\tNUMBER\tDETACH",
  c!"LEXENTRY:\t70\t70\tNUMBER\tDETACH",
  c!"LEXENTRY:\t70TH\t70TH\tWORD,ORD\tDETACH",
  c!"LEXENTRY:\t7E\t7E\tWORD,ORD\tDETACH",
  c!"LEXENTRY:\t7TH\t7TH\tWORD,ORD\tDETACH",
  c!"LEXENTRY:\t8\t8\tNUMBER\tDETACH",
  c!"LEXENTRY:\t80\t80\tNUMBER\tDETACH",
  c!"LEXENTRY:\t80TH\t80TH\tWORD,ORD\tDETACH",
  c!"LEXENTRY:\t8E\t8E\tWORD,ORD\tDETACH",
  c!"LEXENTRY:\t8TH\t8TH\tWORD,ORD\tDETACH",
  c!"LEXENTRY:\t9\t9\tNUMBER\tDETACH",
  c!"LEXENTRY:\t90\t90\tNUMBER\tDETACH",
  c!"LEXENTRY:\t90TH\t90TH\tWORD,ORD\tDETACH",
  c!"LEXENTRY:\t9E\t9E\tWORD,ORD\tDETACH",
  c!"LEXENTRY:\t9TH\t9TH\tWORD,ORD\tDETACH",
  c!"LEXENTRY:\tAB\tALBERTA\tPROV\tDETACH",
  c!"LEXENTRY:\tAEROPORT\tAEROPORT\tPLACEN\tDETACH",
  c!"LEXENTRY:\tAGENCY\tAGENCY\tPLACEN\tDETACH",
  c!"LEXENTRY:\tAIRPORT\tAIRPORT\tPLACEN\tDETACH",
  c!"LEXENTRY:\tALLEE\tALY\tTYPE\tDET_SUF",
  c!"LEXENTRY:\tALLEY\tALY\tTYPE\tDET_SUF",
  c!"LEXENTRY:\tALLIE\tALLIE\tTYPE\tATT_PRE,DET_PRE",
  c!"LEXENTRY:\tALLIE D'\tALLIE\tTYPE\tATT_PRE",
  c!"LEXENTRY:\tALLIE DE\tALLIE\tTYPE\tDET_PRE",
  c!"LEXENTRY:\tALLIE DE L'\tALLIE\tTYPE\tATT_PRE",
  c!"LEXENTRY:\tALLIE DE LA\tALLIE\tTYPE\tDET_PRE",
  c!"LEXENTRY:\tALLIE DES\tALLIE\tTYPE\tDET_PRE",
  c!"LEXENTRY:\tALLIE L'\tALLIE\tTYPE\tATT_PRE",
  c!"LEXENTRY:\tALLIES\tALLIES\tTYPE\tDET_PRE",
  c!"LEXENTRY:\tALLIES DES\tALLIES\tTYPE\tDET_PRE",
  c!"LEXENTRY:\tALLY\tALY\tTYPE\tDET_SUF",
  c!"LEXENTRY:\tALLÉE\tALLIE\tTYPE\tDET_PRE",
  c!"LEXENTRY:\tALLÉE AUX\tALLIE\tTYPE\tDET_PRE",
  c!"LEXENTRY:\tALLÉE D'\tALLIE\tTYPE\tATT_PRE",
  c!"LEXENTRY:\tALLÉE DE\tALLIE\tTYPE\tDET_PRE",
  c!"LEXENTRY:\tALLÉE DE L'\tALLIE\tTYPE\tATT_PRE",
  c!"LEXENTRY:\tALLÉE DE LA\tALLIE\tTYPE\tDET_PRE",
  c!"LEXENTRY:\tALLÉE DES\tALLIE\tTYPE\tDET_PRE",
  c!"LEXENTRY:\tALLÉE DU\tALLIE\tTYPE\tDET_PRE",
  c!"LEXENTRY:\tALLÉE L'\tALLIE\tTYPE\tATT_PRE"]

/-- data/sample/canada.lex:102-151 -/
def entries2 : List Str := [
  c!"LEXENTRY:\tALLÉE LA\tALLIE\tTYPE\tDET_PRE",
  c!"LEXENTRY:\tALLÉE LE\tALLIE\tTYPE\tDET_PRE",
  c!"LEXENTRY:\tALLÉE LES\tALLIE\tTYPE\tDET_PRE",
  c!"LEXENTRY:\tALLÉES\tALLIES\tTYPE\tDET_PRE",
  c!"LEXENTRY:\tALLÉES DES\tALLIES\tTYPE\tDET_PRE",
  c!"LEXENTRY:\tALY\tALY\tTYPE\tDET_SUF",
  c!"LEXENTRY:\tANCIEN CHEMIN\tANCIEN CHEMIN\tTYPE\tDET_PRE",
  c!"LEXENTRY:\tANCIEN CHEMIN DE \tANCIEN CHEMIN\tTYPE\tDET_PRE",
  c!"LEXENTRY:\tANCIENNE ROUTE\tANCIENNE ROUTE\tTYPE\tDET_PRE",
  c!"LEXENTRY:\tANCIENNE ROUTE DE\tANCIENNE ROUTE\tTYPE\tDET_PRE",
  c!"LEXENTRY:\tANCIENNE RUE\tANCIENNE RUE\tTYPE\tDET_PRE",
  c!"LEXENTRY:\tANCIENNE RUE AUX\tANCIENNE RUE\tTYPE\tDET_PRE",
  c!"LEXENTRY:\tANEX\tANX\tTYPE\tDET_SUF",
  c!"LEXENTRY:\tANNEX\tANX\tTYPE\tDET_SUF",
  c!"LEXENTRY:\tANNX\tANX\tTYPE\tDET_SUF",
  c!"LEXENTRY:\tANX\tANX\tTYPE\tDET_SUF",
  c!"LEXENTRY:\tAPARTMENT\tAPT\tUNITH\tDETACH",
  c!"LEXENTRY:\tAPP\tAPP\tUNITH\tDETACH",
  c!"LEXENTRY:\tAPPARTEMENT\tAPP\tUNITH\tDETACH",
  c!"LEXENTRY:\tAPT\tAPT\tUNITH\tDETACH",
  c!"LEXENTRY:\tARC\tARC\tTYPE\tDET_SUF",
  c!"LEXENTRY:\tARCADE\tARC\tTYPE\tDET_SUF",
  c!"LEXENTRY:\tAUTOROUTE\tAUTOROUTE\tTYPE\tATT_PRE,DET_PRE",
  c!"LEXENTRY:\tAUTOROUTE DE\tAUTOROUTE\tTYPE\tDET_PRE",
  c!"LEXENTRY:\tAUTOROUTE DE L'\tAUTOROUTE\tTYPE\tATT_PRE",
  c!"LEXENTRY:\tAUTOROUTE DU\tAUTOROUTE\tTYPE\tDET_PRE",
  c!"LEXENTRY:\tAV\tAVENUE\tTYPE\tDET_PRE,DET_SUF",
  c!"LEXENTRY:\tAV.\tAVENUE\tTYPE\tDET_PRE,DET_SUF",
  c!"LEXENTRY:\tAVE\tAVENUE\tTYPE\tDET_PRE,DET_SUF",
  c!"LEXENTRY:\tAVE.\tAVENUE\tTYPE\tDET_PRE,DET_SUF",
  c!"LEXENTRY:\tAVEN\tAVENUE\tTYPE\tDET_PRE,DET_SUF",
  c!"LEXENTRY:\tAVENU\tAVENUE\tTYPE\tDET_PRE,DET_SUF",
  c!"LEXENTRY:\tAVENUE\tAVENUE\tTYPE\tATT_PRE,DET_PRE,DET_SUF",
  c!"LEXENTRY:\tAVENUE D'\tAVENUE\tTYPE\tATT_PRE",
  c!"LEXENTRY:\tAVENUE DE\tAVENUE\tTYPE\tDET_PRE",
  c!"LEXENTRY:\tAVENUE DE L'\tAVENUE\tTYPE\tATT_PRE",
  c!"LEXENTRY:\tAVENUE DE LA\tAVENUE\tTYPE\tDET_PRE",
  c!"LEXENTRY:\tAVENUE DES\tAVENUE\tTYPE\tDET_PRE",
  c!"LEXENTRY:\tAVENUE DU\tAVENUE\tTYPE\tDET_PRE",
  c!"LEXENTRY:\tAVENUE LA \tAVENUE\tTYPE\tDET_PRE",
  c!"LEXENTRY:\tAVN\tAVENUE\tTYPE\tDET_PRE,DET_SUF",
  c!"LEXENTRY:\tAVNUE\tAVENUE\tTYPE\tDET_PRE,DET_SUF",
  c!"LEXENTRY:\tBAKERY\tBAKERY\tPLACEN\tDETACH",
  c!"LEXENTRY:\tBANK\tBANK\tPLACEN\tDETACH",
  c!"LEXENTRY:\tBANQUE\tBANQUE\tPLACEN\tDETACH",
  c!"LEXENTRY:\tBAYOO\tBYU\tTYPE\tDET_SUF",
  c!"LEXENTRY:\tBAYOU\tBYU\tTYPE\tDET_SUF",
  c!"LEXENTRY:\tBC\tBRITISH COLUMBIA\tPROV\tDETACH",
  c!"LEXENTRY:\tBCH\tBCH\tTYPE\tDET_SUF",
  c!"LEXENTRY:\tBEACH\tBCH\tTYPE\tDET_SUF"]

/-- data/sample/canada.lex:152-201 -/
def entries3 : List Str := [
  c!"LEXENTRY:\tBEND\tBND\tTYPE\tDET_SUF",
  c!"LEXENTRY:\tBERGE\tBERGE\tTYPE\tDET_PRE",
  c!"LEXENTRY:\tBERGE DE\tBERGE\tTYPE\tDET_PRE",
  c!"LEXENTRY:\tBERGE DE LA\tBERGE\tTYPE\tDET_PRE",
  c!"LEXENTRY:\tBG\tBG\tTYPE\tDET_SUF",
  c!"LEXENTRY:\tBGS\tBGS\tTYPE\tDET_SUF",
  c!"LEXENTRY:\tBIBLIOTHÈQUE\tBIBLIOTHÈQUE\tPLACEN\tDETACH",
  c!"LEXENTRY:\tBLDG\tBLDG\tUNITH\tDETACH",
  c!"LEXENTRY:\tBLF\tBLF\tTYPE\tDET_SUF",
  c!"LEXENTRY:\tBLFS\tBLFS\tTYPE\tDET_SUF",
  c!"LEXENTRY:\tBLUF\tBLF\tTYPE\tDET_SUF",
  c!"LEXENTRY:\tBLUFF\tBLF\tTYPE\tDET_SUF",
  c!"LEXENTRY:\tBLUFFS\tBLFS\tTYPE\tDET_SUF",
  c!"LEXENTRY:\tBLVD\tBOULEVARD\tTYPE\tDET_PRE,DET_SUF",
  c!"LEXENTRY:\tBLVD D'\tBOULEVARD\tTYPE\tATT_PRE",
  c!"LEXENTRY:\tBLVD DE\tBOULEVARD\tTYPE\tDET_PRE,DET_SUF",
  c!"LEXENTRY:\tBLVD DE L'\tBOULEVARD\tTYPE\tATT_PRE",
  c!"LEXENTRY:\tBLVD DE LA\tBOULEVARD\tTYPE\tDET_PRE,DET_SUF",
  c!"LEXENTRY:\tBLVD DES\tBOULEVARD\tTYPE\tDET_PRE,DET_SUF",
  c!"LEXENTRY:\tBLVD DU\tBOULEVARD\tTYPE\tDET_PRE,DET_SUF",
  c!"LEXENTRY:\tBLVD LE\tBOULEVARD\tTYPE\tDET_PRE,DET_SUF",
  c!"LEXENTRY:\tBLVD LES\tBOULEVARD\tTYPE\tDET_PRE,DET_SUF",
  c!"LEXENTRY:\tBLVD.\tBOULEVARD\tTYPE\tDET_PRE,DET_SUF",
  c!"LEXENTRY:\tBLVD. D'\tBOULEVARD\tTYPE\tATT_PRE",
  c!"LEXENTRY:\tBLVD. DE\tBOULEVARD\tTYPE\tDET_PRE,DET_SUF",
  c!"LEXENTRY:\tBLVD. DE L'\tBOULEVARD\tTYPE\tATT_PRE",
  c!"LEXENTRY:\tBLVD. DE LA\tBOULEVARD\tTYPE\tDET_PRE,DET_SUF",
  c!"LEXENTRY:\tBLVD. DES\tBOULEVARD\tTYPE\tDET_PRE,DET_SUF",
  c!"LEXENTRY:\tBLVD. DU\tBOULEVARD\tTYPE\tDET_PRE,DET_SUF",
  c!"LEXENTRY:\tBLVD. LE\tBOULEVARD\tTYPE\tDET_PRE,DET_SUF",
  c!"LEXENTRY:\tBLVD. LES\tBOULEVARD\tTYPE\tDET_PRE,DET_SUF",
  c!"LEXENTRY:\tBND\tBND\tTYPE\tDET_SUF",
  c!"LEXENTRY:\tBOT\tBTM\tTYPE\tDET_SUF",
  c!"LEXENTRY:\tBOTTM\tBTM\tTYPE\tDET_SUF",
  c!"LEXENTRY:\tBOTTOM\tBTM\tTYPE\tDET_SUF",
  c!"LEXENTRY:\tBOUL\tBOULEVARD\tTYPE\tDET_PRE,DET_SUF",
  c!"LEXENTRY:\tBOUL D'\tBOULEVARD\tTYPE\tATT_PRE",
  c!"LEXENTRY:\tBOUL DE\tBOULEVARD\tTYPE\tDET_PRE,DET_SUF",
  c!"LEXENTRY:\tBOUL DE L'\tBOULEVARD\tTYPE\tATT_PRE",
  c!"LEXENTRY:\tBOUL DE LA\tBOULEVARD\tTYPE\tDET_PRE,DET_SUF",
  c!"LEXENTRY:\tBOUL DES\tBOULEVARD\tTYPE\tDET_PRE,DET_SUF",
  c!"LEXENTRY:\tBOUL DU\tBOULEVARD\tTYPE\tDET_PRE,DET_SUF",
  c!"LEXENTRY:\tBOUL LE\tBOULEVARD\tTYPE\tDET_PRE,DET_SUF",
  c!"LEXENTRY:\tBOUL LES\tBOULEVARD\tTYPE\tDET_PRE,DET_SUF",
  c!"LEXENTRY:\tBOUL.\tBOULEVARD\tTYPE\tDET_PRE,DET_SUF",
  c!"LEXENTRY:\tBOUL. D'\tBOULEVARD\tTYPE\tATT_PRE",
  c!"LEXENTRY:\tBOUL. DE\tBOULEVARD\tTYPE\tDET_PRE,DET_SUF",
  c!"LEXENTRY:\tBOUL. DE LA\tBOULEVARD\tTYPE\tDET_PRE,DET_SUF",
  c!"LEXENTRY:\tBOUL. DES\tBOULEVARD\tTYPE\tDET_PRE,DET_SUF",
  c!"LEXENTRY:\tBOUL. DU\tBOULEVARD\tTYPE\tDET_PRE,DET_SUF"]

/-- data/sample/canada.lex:202-251 -/
def entries4 : List Str := [
  c!"LEXENTRY:\tBOUL. LE\tBOULEVARD\tTYPE\tDET_PRE,DET_SUF",
  c!"LEXENTRY:\tBOUL. LES\tBOULEVARD\tTYPE\tDET_PRE,DET_SUF",
  c!"LEXENTRY:\tBOULANGERIE\tBOULANGERIE\tPLACEN\tDETACH",
  c!"LEXENTRY:\tBOULEVARD\tBOULEVARD\tTYPE\tATT_PRE,DET_PRE,DET_SUF",
  c!"LEXENTRY:\tBOULEVARD D'\tBOULEVARD\tTYPE\tATT_PRE",
  c!"LEXENTRY:\tBOULEVARD DE\tBOULEVARD\tTYPE\tDET_PRE,DET_SUF",
  c!"LEXENTRY:\tBOULEVARD DE L'\tBOULEVARD\tTYPE\tATT_PRE",
  c!"LEXENTRY:\tBOULEVARD DE LA\tBOULEVARD\tTYPE\tDET_PRE,DET_SUF",
  c!"LEXENTRY:\tBOULEVARD DES\tBOULEVARD\tTYPE\tDET_PRE,DET_SUF",
  c!"LEXENTRY:\tBOULEVARD DU\tBOULEVARD\tTYPE\tDET_PRE,DET_SUF",
  c!"LEXENTRY:\tBOULEVARD LE\tBOULEVARD\tTYPE\tDET_PRE,DET_SUF",
  c!"LEXENTRY:\tBOULEVARD LES\tBOULEVARD\tTYPE\tDET_PRE,DET_SUF",
  c!"LEXENTRY:\tBOULV\tBOULEVARD\tTYPE\tDET_PRE,DET_SUF",
  c!"LEXENTRY:\tBR\tBR\tTYPE\tDET_SUF",
  c!"LEXENTRY:\tBRANCH\tBR\tTYPE\tDET_SUF",
  c!"LEXENTRY:\tBRDGE\tBRG\tTYPE\tDET_SUF",
  c!"LEXENTRY:\tBRETELLE\tBRETELLE\tTYPE\tDET_PRE",
  c!"LEXENTRY:\tBRG\tBRG\tTYPE\tDET_SUF",
  c!"LEXENTRY:\tBRIDGE\tBRG\tTYPE\tDET_SUF",
  c!"LEXENTRY:\tBRK\tBRK\tTYPE\tDET_SUF",
  c!"LEXENTRY:\tBRKS\tBRKS\tTYPE\tDET_SUF",
  c!"LEXENTRY:\tBRNCH\tBR\tTYPE\tDET_SUF",
  c!"LEXENTRY:\tBROOK\tBRK\tTYPE\tDET_SUF",
  c!"LEXENTRY:\tBROOKS\tBRKS\tTYPE\tDET_SUF",
  c!"LEXENTRY:\tBTM\tBTM\tTYPE\tDET_SUF",
  c!"LEXENTRY:\tBUILDING\tBLDG\tUNITH\tDETACH",
  c!"LEXENTRY:\tBUREAU\tBUREAU\tPLACEN,UNITH\tDETACH",
  c!"LEXENTRY:\tBURG\tBG\tTYPE\tDET_SUF",
  c!"LEXENTRY:\tBURGS\tBGS\tTYPE\tDET_SUF",
  c!"LEXENTRY:\tBYP\tBYP\tTYPE\tDET_SUF",
  c!"LEXENTRY:\tBYPA\tBYP\tTYPE\tDET_SUF",
  c!"LEXENTRY:\tBYPAS\tBYP\tTYPE\tDET_SUF",
  c!"LEXENTRY:\tBYPASS\tBYP\tTYPE\tDET_SUF",
  c!"LEXENTRY:\tBYPS\tBYP\tTYPE\tDET_SUF",
  c!"LEXENTRY:\tBYU\tBYU\tTYPE\tDET_SUF",
  c!"LEXENTRY:\tCA\tCANADA\tNATION\tDETACH",
  c!"LEXENTRY:\tCAFE\tCAFE\tPLACEN\tDETACH",
  c!"LEXENTRY:\tCAFÉ\tCAFÉ\tPLACEN\tDETACH",
  c!"LEXENTRY:\tCAMP\tCMP\tTYPE\tDET_SUF",
  c!"LEXENTRY:\tCAN\tCANADA\tNATION\tDETACH",
  c!"LEXENTRY:\tCANADA\tCANADA\tNATION\tDETACH",
  c!"LEXENTRY:\tCANAL\tCANAL\tTYPE\tDET_PRE",
  c!"LEXENTRY:\tCANYN\tCYN\tTYPE\tDET_SUF",
  c!"LEXENTRY:\tCANYON\tCYN\tTYPE\tDET_SUF",
  c!"LEXENTRY:\tCAPE\tCPE\tTYPE\tDET_SUF",
  c!"LEXENTRY:\tCARREFOUR\tCARREFOUR\tTYPE\tDET_PRE",
  c!"LEXENTRY:\tCARREFOUR AUX\tCARREFOUR\tTYPE\tDET_PRE",
  c!"LEXENTRY:\tCARREFOUR DE\tCARREFOUR\tTYPE\tDET_PRE",
  c!"LEXENTRY:\tCARREFOUR DE LA\tCARREFOUR\tTYPE\tDET_PRE",
  c!"LEXENTRY:\tCARREFOUR DES\tCARREFOUR\tTYPE\tDET_PRE"]

/-- data/sample/canada.lex:252-301 -/
def entries5 : List Str := [
  c!"LEXENTRY:\tCARREFOUR DU\tCARREFOUR\tTYPE\tDET_PRE",
  c!"LEXENTRY:\tCARRI\tCARRI\tTYPE\tATT_PRE,DET_PRE",
  c!"LEXENTRY:\tCARRI AU\tCARRI\tTYPE\tDET_PRE",
  c!"LEXENTRY:\tCARRI D'\tCARRI\tTYPE\tATT_PRE",
  c!"LEXENTRY:\tCARRI DE L'\tCARRI\tTYPE\tATT_PRE",
  c!"LEXENTRY:\tCARRI DE LA\tCARRI\tTYPE\tDET_PRE",
  c!"LEXENTRY:\tCARRI DES\tCARRI\tTYPE\tDET_PRE",
  c!"LEXENTRY:\tCARRI DU\tCARRI\tTYPE\tDET_PRE",
  c!"LEXENTRY:\tCARRÉ\tCARRI\tTYPE\tDET_PRE",
  c!"LEXENTRY:\tCARRÉ AU\tCARRI\tTYPE\tDET_PRE",
  c!"LEXENTRY:\tCARRÉ DE LA\tCARRI\tTYPE\tDET_PRE",
  c!"LEXENTRY:\tCARRÉ DES\tCARRI\tTYPE\tDET_PRE",
  c!"LEXENTRY:\tCARRÉ DU\tCARRI\tTYPE\tDET_PRE",
  c!"LEXENTRY:\tCARRÉ À LA\tCARRI\tTYPE\tDET_PRE",
  c!"LEXENTRY:\tCAUSEWAY\tCSWY\tTYPE\tDET_SUF",
  c!"LEXENTRY:\tCAUSWAY\tCSWY\tTYPE\tDET_SUF",
  c!"LEXENTRY:\tCEN\tCTR\tTYPE\tDET_SUF",
  c!"LEXENTRY:\tCENT\tCTR\tTYPE\tDET_SUF",
  c!"LEXENTRY:\tCENTER\tCTR\tTYPE\tDET_SUF",
  c!"LEXENTRY:\tCENTER\tCENTER\tPLACEN\tDETACH",
  c!"LEXENTRY:\tCENTERS\tCTRS\tTYPE\tDET_SUF",
  c!"LEXENTRY:\tCENTR\tCTR\tTYPE\tDET_SUF",
  c!"LEXENTRY:\tCENTRE\tCENTRE\tPLACEN,TYPE\tDETACH,DET_PRE,DET_SUF",
  c!"LEXENTRY:\tCERCLE\tCERCLE\tTYPE\tDET_PRE",
  c!"LEXENTRY:\tCERCLE DE LA\tCERCLE\tTYPE\tDET_PRE",
  c!"LEXENTRY:\tCH\tCHAUSSÉE\tTYPE\tDET_PRE",
  c!"LEXENTRY:\tCH.\tCHAUSSÉE\tTYPE\tDET_PRE",
  c!"LEXENTRY:\tCHAMP\tCHAMP\tTYPE\tDET_PRE",
  c!"LEXENTRY:\tCHAMP DE\tCHAMP\tTYPE\tDET_PRE",
  c!"LEXENTRY:\tCHAMP DE LA\tCHAMP\tTYPE\tDET_PRE",
  c!"LEXENTRY:\tCHAMP DU\tCHAMP\tTYPE\tDET_PRE",
  c!"LEXENTRY:\tCHAUSSÉE\tCHAUSSÉE\tTYPE\tDET_PRE",
  c!"LEXENTRY:\tCHAUSSÉE DE\tCHAUSSÉE\tTYPE\tDET_PRE",
  c!"LEXENTRY:\tCHAUSSÉE DE LA\tCHAUSSÉE\tTYPE\tDET_PRE",
  c!"LEXENTRY:\tCHAUSSÉE DES\tCHAUSSÉE\tTYPE\tDET_PRE",
  c!"LEXENTRY:\tCHAUSSÉE DU\tCHAUSSÉE\tTYPE\tDET_PRE",
  c!"LEXENTRY:\tCHEE\tCHAUSSÉE\tTYPE\tDET_PRE",
  c!"LEXENTRY:\tCHEE.\tCHAUSSÉE\tTYPE\tDET_PRE",
  c!"LEXENTRY:\tCHEMIN\tCHEMIN\tTYPE\tATT_PRE,DET_PRE",
  c!"LEXENTRY:\tCHEMIN AU\tCHEMIN\tTYPE\tDET_PRE",
  c!"LEXENTRY:\tCHEMIN AUX\tCHEMIN\tTYPE\tDET_PRE",
  c!"LEXENTRY:\tCHEMIN D'\tCHEMIN\tTYPE\tATT_PRE",
  c!"LEXENTRY:\tCHEMIN DE\tCHEMIN\tTYPE\tDET_PRE",
  c!"LEXENTRY:\tCHEMIN DE L'\tCHEMIN\tTYPE\tATT_PRE",
  c!"LEXENTRY:\tCHEMIN DE LA\tCHEMIN\tTYPE\tDET_PRE",
  c!"LEXENTRY:\tCHEMIN DES\tCHEMIN\tTYPE\tDET_PRE",
  c!"LEXENTRY:\tCHEMIN DU\tCHEMIN\tTYPE\tDET_PRE",
  c!"LEXENTRY:\tCHEMIN LES\tCHEMIN\tTYPE\tDET_PRE",
  c!"LEXENTRY:\tCHEMIN RURAL DE\tCHEMIN\tTYPE\tDET_PRE",
  c!"LEXENTRY:\tCHEMIN À\tCHEMIN\tTYPE\tDET_PRE"]

/-- data/sample/canada.lex:302-351 -/
def entries6 : List Str := [
  c!"LEXENTRY:\tCHS\tCHAUSSÉE\tTYPE\tDET_PRE",
  c!"LEXENTRY:\tCHS.\tCHAUSSÉE\tTYPE\tDET_PRE",
  c!"LEXENTRY:\tCINEMA\tCINEMA\tPLACEN\tDETACH",
  c!"LEXENTRY:\tCINQUIÈME\t5E\tWORD,ORD\tDETACH",
  c!"LEXENTRY:\tCINÉMA\tCINÉMA\tPLACEN\tDETACH",
  c!"LEXENTRY:\tCIR\tCIR\tTYPE\tDET_SUF",
  c!"LEXENTRY:\tCIRC\tCIR\tTYPE\tDET_SUF",
  c!"LEXENTRY:\tCIRCL\tCIR\tTYPE\tDET_SUF",
  c!"LEXENTRY:\tCIRCLE\tCIR\tTYPE\tDET_SUF",
  c!"LEXENTRY:\tCIRCLES\tCIRS\tTYPE\tDET_SUF",
  c!"LEXENTRY:\tCIRS\tCIRS\tTYPE\tDET_SUF",
  c!"LEXENTRY:\tCITE\tCITE\tTYPE\tATT_PRE",
  c!"LEXENTRY:\tCITE D'\tCITE\tTYPE\tATT_PRE",
  c!"LEXENTRY:\tCITE DE L'\tCITE\tTYPE\tATT_PRE",
  c!"LEXENTRY:\tCITÉ\tCITÉ\tTYPE\tDET_PRE",
  c!"LEXENTRY:\tCITÉ D'\tCITE\tTYPE\tATT_PRE",
  c!"LEXENTRY:\tCITÉ DE\tCITÉ\tTYPE\tDET_PRE",
  c!"LEXENTRY:\tCITÉ DE L'\tCITE\tTYPE\tATT_PRE",
  c!"LEXENTRY:\tCITÉ DE LA\tCITÉ\tTYPE\tDET_PRE",
  c!"LEXENTRY:\tCITÉ DES\tCITÉ\tTYPE\tDET_PRE",
  c!"LEXENTRY:\tCITÉ DU\tCITÉ\tTYPE\tDET_PRE",
  c!"LEXENTRY:\tCK\tCRK\tTYPE\tDET_SUF",
  c!"LEXENTRY:\tCLB\tCLB\tTYPE\tDET_SUF",
  c!"LEXENTRY:\tCLF\tCLF\tTYPE\tDET_SUF",
  c!"LEXENTRY:\tCLFS\tCLFS\tTYPE\tDET_SUF",
  c!"LEXENTRY:\tCLIFF\tCLF\tTYPE\tDET_SUF",
  c!"LEXENTRY:\tCLIFFS\tCLFS\tTYPE\tDET_SUF",
  c!"LEXENTRY:\tCLOS\tCLOS\tTYPE\tATT_PRE,DET_PRE",
  c!"LEXENTRY:\tCLOS D'\tCLOS\tTYPE\tATT_PRE",
  c!"LEXENTRY:\tCLOS DE\tCLOS\tTYPE\tDET_PRE",
  c!"LEXENTRY:\tCLOS DE L'\tCLOS\tTYPE\tATT_PRE",
  c!"LEXENTRY:\tCLOS DE LA\tCLOS\tTYPE\tDET_PRE",
  c!"LEXENTRY:\tCLOS DES\tCLOS\tTYPE\tDET_PRE",
  c!"LEXENTRY:\tCLOS DU\tCLOS\tTYPE\tDET_PRE",
  c!"LEXENTRY:\tCLUB\tCLB\tTYPE\tDET_SUF",
  c!"LEXENTRY:\tCMN\tCMN\tTYPE\tDET_SUF",
  c!"LEXENTRY:\tCMP\tCMP\tTYPE\tDET_SUF",
  c!"LEXENTRY:\tCNTER\tCTR\tTYPE\tDET_SUF",
  c!"LEXENTRY:\tCNTR\tCTR\tTYPE\tDET_SUF",
  c!"LEXENTRY:\tCNYN\tCYN\tTYPE\tDET_SUF",
  c!"LEXENTRY:\tCO\tCO\tPLACEN\tDETACH",
  c!"LEXENTRY:\tCOLLÈGE\tCOLLÈGE\tPLACEN\tDETACH",
  c!"LEXENTRY:\tCOLOMBIE-BRITANNIQUE\tBRITISH COLUMBIA\tPROV\tDETACH",
  c!"LEXENTRY:\tCOLUMBIA BRITANICA\tBRITISH COLUMBIA\tPROV\tDETACH",
  c!"LEXENTRY:\tCOMMON\tCMN\tTYPE\tDET_SUF",
  c!"LEXENTRY:\tCOMP\tCOMP\tUNITH\tDETACH",
  c!"LEXENTRY:\tCOMPAGNIE\tCOMPAGNIE\tPLACEN\tDETACH",
  c!"LEXENTRY:\tCOMPANY\tCOMPANY\tPLACEN\tDETACH",
  c!"LEXENTRY:\tCOMPLEX\tCOMP\tUNITH\tDETACH",
  c!"LEXENTRY:\tCONC\tCONC\tTYPE\tDET_SUF"]

/-- data/sample/canada.lex:352-401 -/
def entries7 : List Str := [
  c!"LEXENTRY:\tCONCESSION\tCONC\tTYPE\tDET_SUF",
  c!"LEXENTRY:\tCOR\tCOR\tTYPE\tDET_SUF",
  c!"LEXENTRY:\tCORDON\tCORDON\tTYPE\tDET_PRE",
  c!"LEXENTRY:\tCORDON DE\tCORDON\tTYPE\tDET_PRE",
  c!"LEXENTRY:\tCORNER\tCOR\tTYPE\tDET_SUF",
  c!"LEXENTRY:\tCORNERS\tCORS\tTYPE\tDET_SUF",
  c!"LEXENTRY:\tCORP\tCORP\tPLACEN\tDETACH",
  c!"LEXENTRY:\tCORPORATION\tCORPORATION\tPLACEN\tDETACH",
  c!"LEXENTRY:\tCORS\tCORS\tTYPE\tDET_SUF",
  c!"LEXENTRY:\tCOTEAU\tCOTEAU\tTYPE\tATT_PRE",
  c!"LEXENTRY:\tCOTEAU D'\tCOTEAU D'\tTYPE\tDET_PRE",
  c!"LEXENTRY:\tCOTEAU D'\tCOTEAU\tTYPE\tATT_PRE",
  c!"LEXENTRY:\tCOUR\tCOUR\tTYPE\tATT_PRE,DET_PRE",
  c!"LEXENTRY:\tCOUR AUX\tCOUR\tTYPE\tDET_PRE",
  c!"LEXENTRY:\tCOUR D'\tCOUR\tTYPE\tATT_PRE,DET_PRE",
  c!"LEXENTRY:\tCOUR DE\tCOUR\tTYPE\tDET_PRE",
  c!"LEXENTRY:\tCOUR DE L'\tCOUR\tTYPE\tATT_PRE,DET_PRE",
  c!"LEXENTRY:\tCOUR DE LA\tCOUR\tTYPE\tDET_PRE",
  c!"LEXENTRY:\tCOUR DES\tCOUR\tTYPE\tDET_PRE",
  c!"LEXENTRY:\tCOUR DU\tCOUR\tTYPE\tDET_PRE",
  c!"LEXENTRY:\tCOUR À\tCOUR\tTYPE\tDET_PRE",
  c!"LEXENTRY:\tCOURS\tCOURS\tTYPE\tATT_PRE,DET_PRE",
  c!"LEXENTRY:\tCOURS D'\tCOURS\tTYPE\tATT_PRE,DET_PRE",
  c!"LEXENTRY:\tCOURS DE\tCOURS\tTYPE\tDET_PRE",
  c!"LEXENTRY:\tCOURS DE L'\tCOURS\tTYPE\tATT_PRE,DET_PRE",
  c!"LEXENTRY:\tCOURS DE LA\tCOURS\tTYPE\tDET_PRE",
  c!"LEXENTRY:\tCOURS DES\tCOURS\tTYPE\tDET_PRE",
  c!"LEXENTRY:\tCOURS DU\tCOURS\tTYPE\tDET_PRE",
  c!"LEXENTRY:\tCOURSE\tCRSE\tTYPE\tDET_SUF",
  c!"LEXENTRY:\tCOURT\tCT\tTYPE\tDET_SUF",
  c!"LEXENTRY:\tCOURTS\tCTS\tTYPE\tDET_SUF",
  c!"LEXENTRY:\tCOVE\tCV\tTYPE\tDET_SUF",
  c!"LEXENTRY:\tCOVES\tCVS\tTYPE\tDET_SUF",
  c!"LEXENTRY:\tCP\tCMP\tTYPE\tDET_SUF",
  c!"LEXENTRY:\tCPE\tCPE\tTYPE\tDET_SUF",
  c!"LEXENTRY:\tCR\tCRK\tTYPE\tDET_SUF",
  c!"LEXENTRY:\tCRCL\tCIR\tTYPE\tDET_SUF",
  c!"LEXENTRY:\tCRCLE\tCIR\tTYPE\tDET_SUF",
  c!"LEXENTRY:\tCREEK\tCRK\tTYPE\tDET_SUF",
  c!"LEXENTRY:\tCRES\tCRES\tTYPE\tDET_SUF",
  c!"LEXENTRY:\tCRESCENT\tCRES\tTYPE\tDET_SUF",
  c!"LEXENTRY:\tCRESENT\tCRES\tTYPE\tDET_SUF",
  c!"LEXENTRY:\tCREST\tCRES\tTYPE\tDET_SUF",
  c!"LEXENTRY:\tCRK\tCRK\tTYPE\tDET_SUF",
  c!"LEXENTRY:\tCROISSANT\tCROISSANT\tTYPE\tATT_PRE,DET_PRE",
  c!"LEXENTRY:\tCROISSANT D'\tCROISSANT\tTYPE\tATT_PRE,DET_PRE",
  c!"LEXENTRY:\tCROISSANT DE\tCROISSANT\tTYPE\tDET_PRE",
  c!"LEXENTRY:\tCROISSANT DE L'\tCROISSANT\tTYPE\tATT_PRE,DET_PRE",
  c!"LEXENTRY:\tCROISSANT DE LA\tCROISSANT\tTYPE\tDET_PRE",
  c!"LEXENTRY:\tCROISSANT DES\tCROISSANT\tTYPE\tDET_PRE"]

/-- data/sample/canada.lex:402-451 -/
def entries8 : List Str := [
  c!"LEXENTRY:\tCROISSANT DU\tCROISSANT\tTYPE\tDET_PRE",
  c!"LEXENTRY:\tCROIX\tCROIX\tTYPE\tDET_PRE",
  c!"LEXENTRY:\tCROIX DE\tCROIX\tTYPE\tDET_PRE",
  c!"LEXENTRY:\tCROSSING\tXING\tTYPE\tDET_SUF",
  c!"LEXENTRY:\tCROSSROAD\tXRD\tTYPE\tDET_SUF",
  c!"LEXENTRY:\tCRSCNT\tCRES\tTYPE\tDET_SUF",
  c!"LEXENTRY:\tCRSE\tCRSE\tTYPE\tDET_SUF",
  c!"LEXENTRY:\tCRSENT\tCRES\tTYPE\tDET_SUF",
  c!"LEXENTRY:\tCRSNT\tCRES\tTYPE\tDET_SUF",
  c!"LEXENTRY:\tCRSSING\tXING\tTYPE\tDET_SUF",
  c!"LEXENTRY:\tCRSSNG\tXING\tTYPE\tDET_SUF",
  c!"LEXENTRY:\tCRT\tCT\tTYPE\tDET_SUF",
  c!"LEXENTRY:\tCSWY\tCSWY\tTYPE\tDET_SUF",
  c!"LEXENTRY:\tCT\tCT\tTYPE\tDET_SUF",
  c!"LEXENTRY:\tCTR\tCTR\tTYPE\tDET_SUF",
  c!"LEXENTRY:\tCTRS\tCTRS\tTYPE\tDET_SUF",
  c!"LEXENTRY:\tCTS\tCTS\tTYPE\tDET_SUF",
  c!"LEXENTRY:\tCTTE\tCTTE\tTYPE\tATT_PRE,DET_PRE",
  c!"LEXENTRY:\tCTTE D'\tCTTE\tTYPE\tATT_PRE",
  c!"LEXENTRY:\tCTTE DE\tCTTE\tTYPE\tDET_PRE",
  c!"LEXENTRY:\tCTTE DE LA\tCTTE\tTYPE\tDET_PRE",
  c!"LEXENTRY:\tCTTE DU\tCTTE\tTYPE\tDET_PRE",
  c!"LEXENTRY:\tCURV\tCURV\tTYPE\tDET_SUF",
  c!"LEXENTRY:\tCURVE\tCURV\tTYPE\tDET_SUF",
  c!"LEXENTRY:\tCV\tCV\tTYPE\tDET_SUF",
  c!"LEXENTRY:\tCVS\tCVS\tTYPE\tDET_SUF",
  c!"LEXENTRY:\tCYN\tCYN\tTYPE\tDET_SUF",
  c!"LEXENTRY:\tCÔTE\tCTTE\tTYPE\tDET_PRE",
  c!"LEXENTRY:\tCÔTE D'\tCTTE\tTYPE\tATT_PRE,DET_PRE",
  c!"LEXENTRY:\tCÔTE DE\tCTTE\tTYPE\tDET_PRE",
  c!"LEXENTRY:\tCÔTE DE LA\tCTTE\tTYPE\tDET_PRE",
  c!"LEXENTRY:\tCÔTE DES\tCTTE\tTYPE\tDET_PRE",
  c!"LEXENTRY:\tCÔTE DU\tCTTE\tTYPE\tDET_PRE",
  c!"LEXENTRY:\tDALE\tDL\tTYPE\tDET_SUF",
  c!"LEXENTRY:\tDAM\tDM\tTYPE\tDET_SUF",
  c!"LEXENTRY:\tDEMI-ÉCHANGEUR\tDEMI-ÉCHANGEUR\tTYPE\tDET_PRE",
  c!"LEXENTRY:\tDEMI-ÉCHANGEUR DE\tDEMI-ÉCHANGEUR\tTYPE\tDET_PRE",
  c!"LEXENTRY:\tDEMI-ÉCHANGEUR DES\tDEMI-ÉCHANGEUR\tTYPE\tDET_PRE",
  c!"LEXENTRY:\tDESSERTE\tDESSERTE\tTYPE\tDET_PRE",
  c!"LEXENTRY:\tDEUXIÈME\t2E\tWORD,ORD\tDETACH",
  c!"LEXENTRY:\tDIGUE\tDIGUE\tTYPE\tATT_PRE",
  c!"LEXENTRY:\tDIGUE D'\tDIGUE D'\tTYPE\tDET_PRE",
  c!"LEXENTRY:\tDIGUE D'\tDIGUE\tTYPE\tATT_PRE",
  c!"LEXENTRY:\tDIV\tDV\tTYPE\tDET_SUF",
  c!"LEXENTRY:\tDIVIDE\tDV\tTYPE\tDET_SUF",
  c!"LEXENTRY:\tDIXIÈME\t10E\tWORD,ORD\tDETACH",
  c!"LEXENTRY:\tDL\tDL\tTYPE\tDET_SUF",
  c!"LEXENTRY:\tDM\tDM\tTYPE\tDET_SUF",
  c!"LEXENTRY:\tDOM\tDOMAINE\tTYPE\tDET_PRE",
  c!"LEXENTRY:\tDOM.\tDOMAINE\tTYPE\tDET_PRE"]

/-- data/sample/canada.lex:452-501 -/
def entries9 : List Str := [
  c!"LEXENTRY:\tDOMAINE\tDOMAINE\tTYPE\tATT_PRE,DET_PRE",
  c!"LEXENTRY:\tDOMAINE DE\tDOMAINE\tTYPE\tDET_PRE",
  c!"LEXENTRY:\tDOMAINE DE L'\tDOMAINE\tTYPE\tATT_PRE,DET_PRE",
  c!"LEXENTRY:\tDOMAINE DE LA\tDOMAINE\tTYPE\tDET_PRE",
  c!"LEXENTRY:\tDOMAINE DES\tDOMAINE\tTYPE\tDET_PRE",
  c!"LEXENTRY:\tDOMAINE DU\tDOMAINE\tTYPE\tDET_PRE",
  c!"LEXENTRY:\tDR\tDR\tTYPE\tDET_SUF",
  c!"LEXENTRY:\tDRHVE\tDRHVE\tTYPE\tDET_PRE",
  c!"LEXENTRY:\tDRIV\tDR\tTYPE\tDET_SUF",
  c!"LEXENTRY:\tDRIVE\tDR\tTYPE\tDET_SUF",
  c!"LEXENTRY:\tDRIVES\tDRS\tTYPE\tDET_SUF",
  c!"LEXENTRY:\tDRS\tDRS\tTYPE\tDET_SUF",
  c!"LEXENTRY:\tDRV\tDR\tTYPE\tDET_SUF",
  c!"LEXENTRY:\tDV\tDV\tTYPE\tDET_SUF",
  c!"LEXENTRY:\tDVD\tDV\tTYPE\tDET_SUF",
  c!"LEXENTRY:\tE\tE\tDIRECT\tDETACH",
  c!"LEXENTRY:\tE.\tE\tDIRECT\tDETACH",
  c!"LEXENTRY:\tEAST\tE\tDIRECT\tDETACH",
  c!"LEXENTRY:\tEIGHT\t8\tNUMBER\tDETACH",
  c!"LEXENTRY:\tEIGHTEEN\t18\tNUMBER\tDETACH",
  c!"LEXENTRY:\tEIGHTEENTH\t18TH\tWORD,ORD\tDETACH",
  c!"LEXENTRY:\tEIGHTH\t8TH\tWORD,ORD\tDETACH",
  c!"LEXENTRY:\tEIGHTIETH\t80TH\tWORD,ORD\tDETACH",
  c!"LEXENTRY:\tEIGHTY\t80\tNUMBER\tDETACH",
  c!"LEXENTRY:\tELEVEN\t11\tNUMBER\tDETACH",
  c!"LEXENTRY:\tELEVENTH\t11TH\tWORD,ORD\tDETACH",
  c!"LEXENTRY:\tENCLOS\tENCLOS\tTYPE\tATT_PRE,DET_PRE",
  c!"LEXENTRY:\tENCLOS DE L'\tENCLOS\tTYPE\tATT_PRE,DET_PRE",
  c!"LEXENTRY:\tESCALIER\tESCALIER\tTYPE\tDET_PRE",
  c!"LEXENTRY:\tESCALIER DE LA\tESCALIER\tTYPE\tDET_PRE",
  c!"LEXENTRY:\tESCALIER DES\tESCALIER\tTYPE\tDET_PRE",
  c!"LEXENTRY:\tESCALIER DU\tESCALIER\tTYPE\tDET_PRE",
  c!"LEXENTRY:\tESPLANADE\tESPLANADE\tTYPE\tATT_PRE,DET_PRE",
  c!"LEXENTRY:\tESPLANADE D'\tESPLANADE\tTYPE\tATT_PRE,DET_PRE",
  c!"LEXENTRY:\tESPLANADE DE\tESPLANADE\tTYPE\tDET_PRE",
  c!"LEXENTRY:\tESPLANADE DE L'\tESPLANADE\tTYPE\tATT_PRE,DET_PRE",
  c!"LEXENTRY:\tESPLANADE DE LA\tESPLANADE\tTYPE\tDET_PRE",
  c!"LEXENTRY:\tESPLANADE DES\tESPLANADE\tTYPE\tDET_PRE",
  c!"LEXENTRY:\tESPLANADE DU\tESPLANADE\tTYPE\tDET_PRE",
  c!"LEXENTRY:\tEST\tEST\tTYPE\tDET_SUF",
  c!"LEXENTRY:\tEST\tE\tDIRECT\tDETACH",
  c!"LEXENTRY:\tEST.\tE\tDIRECT\tDETACH",
  c!"LEXENTRY:\tESTATE\tEST\tTYPE\tDET_SUF",
  c!"LEXENTRY:\tESTATES\tESTS\tTYPE\tDET_SUF",
  c!"LEXENTRY:\tESTS\tESTS\tTYPE\tDET_SUF",
  c!"LEXENTRY:\tEXPR\tEXPY\tTYPE\tDET_SUF",
  c!"LEXENTRY:\tEXPRESS\tEXPY\tTYPE\tDET_SUF",
  c!"LEXENTRY:\tEXPRESSWAY\tEXPY\tTYPE\tDET_SUF",
  c!"LEXENTRY:\tEXPW\tEXPY\tTYPE\tDET_SUF",
  c!"LEXENTRY:\tEXPY\tEXPY\tTYPE\tDET_SUF"]

/-- data/sample/canada.lex:502-551 -/
def entries10 : List Str := [
  c!"LEXENTRY:\tEXT\tEXT\tTYPE\tDET_SUF",
  c!"LEXENTRY:\tEXTENSION\tEXT\tTYPE\tDET_SUF",
  c!"LEXENTRY:\tEXTENSIONS\tEXTS\tTYPE\tDET_SUF",
  c!"LEXENTRY:\tEXTN\tEXT\tTYPE\tDET_SUF",
  c!"LEXENTRY:\tEXTNSN\tEXT\tTYPE\tDET_SUF",
  c!"LEXENTRY:\tEXTS\tEXTS\tTYPE\tDET_SUF",
  c!"LEXENTRY:\tFACULTÉ\tFACULTÉ\tPLACEN\tDETACH",
  c!"LEXENTRY:\tFALL\tFALL\tTYPE\tDET_SUF",
  c!"LEXENTRY:\tFALLS\tFLS\tTYPE\tDET_SUF",
  c!"LEXENTRY:\tFAUBOURG\tFAUBOURG\tTYPE\tDET_PRE",
  c!"LEXENTRY:\tFAUBOURG DE\tFAUBOURG\tTYPE\tDET_PRE",
  c!"LEXENTRY:\tFERRY\tFRY\tTYPE\tDET_SUF",
  c!"LEXENTRY:\tFG\tFAUBOURG\tTYPE\tDET_PRE",
  c!"LEXENTRY:\tFG.\tFAUBOURG\tTYPE\tDET_PRE",
  c!"LEXENTRY:\tFIELD\tFLD\tTYPE\tDET_SUF",
  c!"LEXENTRY:\tFIELDS\tFLDS\tTYPE\tDET_SUF",
  c!"LEXENTRY:\tFIFTEEN\t15\tNUMBER\tDETACH",
  c!"LEXENTRY:\tFIFTEENTH\t15TH\tWORD,ORD\tDETACH",
  c!"LEXENTRY:\tFIFTH\t5TH\tWORD,ORD\tDETACH",
  c!"LEXENTRY:\tFIFTIETH\t50TH\tWORD,ORD\tDETACH",
  c!"LEXENTRY:\tFIFTY\t50\tNUMBER\tDETACH",
  c!"LEXENTRY:\tFIRST\t1ST\tWORD,ORD\tDETACH",
  c!"LEXENTRY:\tFIVE\t5\tNUMBER\tDETACH",
  c!"LEXENTRY:\tFL\tFL\tUNITH\tDETACH",
  c!"LEXENTRY:\tFLAT\tFLT\tTYPE\tDET_SUF",
  c!"LEXENTRY:\tFLATS\tFLTS\tTYPE\tDET_SUF",
  c!"LEXENTRY:\tFLD\tFLD\tTYPE\tDET_SUF",
  c!"LEXENTRY:\tFLDS\tFLDS\tTYPE\tDET_SUF",
  c!"LEXENTRY:\tFLOOR\tFL\tUNITH\tDETACH",
  c!"LEXENTRY:\tFLS\tFLS\tTYPE\tDET_SUF",
  c!"LEXENTRY:\tFLT\tFLT\tTYPE\tDET_SUF",
  c!"LEXENTRY:\tFLTS\tFLTS\tTYPE\tDET_SUF",
  c!"LEXENTRY:\tFORD\tFRD\tTYPE\tDET_SUF",
  c!"LEXENTRY:\tFORDS\tFRDS\tTYPE\tDET_SUF",
  c!"LEXENTRY:\tFOREST\tFRST\tTYPE\tDET_SUF",
  c!"LEXENTRY:\tFORESTS\tFRST\tTYPE\tDET_SUF",
  c!"LEXENTRY:\tFORG\tFRG\tTYPE\tDET_SUF",
  c!"LEXENTRY:\tFORGE\tFRG\tTYPE\tDET_SUF",
  c!"LEXENTRY:\tFORGES\tFRGS\tTYPE\tDET_SUF",
  c!"LEXENTRY:\tFORK\tFRK\tTYPE\tDET_SUF",
  c!"LEXENTRY:\tFORKS\tFRKS\tTYPE\tDET_SUF",
  c!"LEXENTRY:\tFORT\tFT\tTYPE\tDET_SUF",
  c!"LEXENTRY:\tFORTIETH\t40TH\tWORD,ORD\tDETACH",
  c!"LEXENTRY:\tFORTY\t40\tNUMBER\tDETACH",
  c!"LEXENTRY:\tFORUM\tFORUM\tTYPE\tDET_PRE",
  c!"LEXENTRY:\tFOUR\t4\tNUMBER\tDETACH",
  c!"LEXENTRY:\tFOURTEEN\t14\tNUMBER\tDETACH",
  c!"LEXENTRY:\tFOURTEENTH\t14TH\tWORD,ORD\tDETACH",
  c!"LEXENTRY:\tFOUTH\t4TH\tWORD,ORD\tDETACH",
  c!"LEXENTRY:\tFRD\tFRD\tTYPE\tDET_SUF"]

/-- data/sample/canada.lex:552-601 -/
def entries11 : List Str := [
  c!"LEXENTRY:\tFRDS\tFRDS\tTYPE\tDET_SUF",
  c!"LEXENTRY:\tFREEWAY\tFWY\tTYPE\tDET_SUF",
  c!"LEXENTRY:\tFREEWY\tFWY\tTYPE\tDET_SUF",
  c!"LEXENTRY:\tFRG\tFRG\tTYPE\tDET_SUF",
  c!"LEXENTRY:\tFRGS\tFRGS\tTYPE\tDET_SUF",
  c!"LEXENTRY:\tFRK\tFRK\tTYPE\tDET_SUF",
  c!"LEXENTRY:\tFRKS\tFRKS\tTYPE\tDET_SUF",
  c!"LEXENTRY:\tFRRY\tFRY\tTYPE\tDET_SUF",
  c!"LEXENTRY:\tFRST\tFRST\tTYPE\tDET_SUF",
  c!"LEXENTRY:\tFRT\tFT\tTYPE\tDET_SUF",
  c!"LEXENTRY:\tFRWAY\tFWY\tTYPE\tDET_SUF",
  c!"LEXENTRY:\tFRWY\tFWY\tTYPE\tDET_SUF",
  c!"LEXENTRY:\tFRY\tFRY\tTYPE\tDET_SUF",
  c!"LEXENTRY:\tFT\tFT\tTYPE\tDET_SUF",
  c!"LEXENTRY:\tFUND\tFUND\tPLACEN\tDETACH",
  c!"LEXENTRY:\tRR\tRR\tROAD\tDETACH",
  c!"LEXENTRY:\tSS\tSS\tROAD\tDETACH",
  c!"LEXENTRY:\tMRI\tMRI\tROAD\tDETACH",
  c!"LEXENTRY:\tRT\tRT\tROAD\tDETACH",
  c!"LEXENTRY:\tCR\tCR\tROAD\tDETACH",
  c!"LEXENTRY:\tDR\tDR\tROAD\tDETACH",
  c!"LEXENTRY:\tAUT\tAUT\tROAD\tDETACH",
  c!"LEXENTRY:\tRTE\tRTE\tROAD\tDETACH",
  c!"LEXENTRY:\tHWY\tHWY\tROAD\tDETACH",
  c!"LEXENTRY:\tROUTE\tRTE\tROAD\tDETACH",
  c!"LEXENTRY:\tHIGHWAY\tHWY\tROAD\tDETACH",
  c!"LEXENTRY:\tFWY\tFWY\tTYPE\tDET_SUF",
  c!"LEXENTRY:\tGALERIE\tGALERIE\tPLACEN,TYPE\tATT_PRE,DETACH,DET_PRE",
  c!"LEXENTRY:\tGALERIE D'\tGALERIE\tTYPE\tATT_PRE,DET_PRE",
  c!"LEXENTRY:\tGALERIE DE\tGALERIE\tTYPE\tDET_PRE",
  c!"LEXENTRY:\tGALERIE DE LA\tGALERIE\tTYPE\tDET_PRE",
  c!"LEXENTRY:\tGALERIE DES\tGALERIE\tTYPE\tDET_PRE",
  c!"LEXENTRY:\tGALERIE DU\tGALERIE\tTYPE\tDET_PRE",
  c!"LEXENTRY:\tGALLERY\tGALLERY\tPLACEN\tDETACH",
  c!"LEXENTRY:\tGARDEN\tGDN\tTYPE\tDET_SUF",
  c!"LEXENTRY:\tGARDEN\tGARDEN\tPLACEN\tDETACH",
  c!"LEXENTRY:\tGARDENS\tGDNS\tTYPE\tDET_SUF",
  c!"LEXENTRY:\tGARDN\tGDN\tTYPE\tDET_SUF",
  c!"LEXENTRY:\tGARE\tGARE\tPLACEN\tDETACH",
  c!"LEXENTRY:\tGATEWAY\tGTWY\tTYPE\tDET_SUF",
  c!"LEXENTRY:\tGATEWY\tGTWY\tTYPE\tDET_SUF",
  c!"LEXENTRY:\tGATWAY\tGTWY\tTYPE\tDET_SUF",
  c!"LEXENTRY:\tGDN\tGDN\tTYPE\tDET_SUF",
  c!"LEXENTRY:\tGDNS\tGDNS\tTYPE\tDET_SUF",
  c!"LEXENTRY:\tGLEN\tGLN\tTYPE\tDET_SUF",
  c!"LEXENTRY:\tGLENS\tGLNS\tTYPE\tDET_SUF",
  c!"LEXENTRY:\tGLN\tGLN\tTYPE\tDET_SUF",
  c!"LEXENTRY:\tGLNS\tGLNS\tTYPE\tDET_SUF",
  c!"LEXENTRY:\tGRAND SENTIER\tGRAND SENTIER\tTYPE\tDET_PRE",
  c!"LEXENTRY:\tGRANDE ALLÉE\tGRANDE ALLÉE\tTYPE\tDET_PRE"]

/-- data/sample/canada.lex:602-651 -/
def entries12 : List Str := [
  c!"LEXENTRY:\tGRANDE ALLÉE DE LA\tGRANDE ALLÉE\tTYPE\tDET_PRE",
  c!"LEXENTRY:\tGRANDE ALLÉE DES\tGRANDE ALLÉE\tTYPE\tDET_PRE",
  c!"LEXENTRY:\tGRANDE ALLÉE DU\tGRANDE ALLÉE\tTYPE\tDET_PRE",
  c!"LEXENTRY:\tGRANDE IMPASSE\tGRANDE IMPASSE\tTYPE\tDET_PRE",
  c!"LEXENTRY:\tGRANDE IMPASSE DES\tGRANDE IMPASSE\tTYPE\tDET_PRE",
  c!"LEXENTRY:\tGRANDE RUE\tGRANDE RUE\tTYPE\tDET_PRE",
  c!"LEXENTRY:\tGRANDE RUE DE\tGRANDE RUE\tTYPE\tDET_PRE",
  c!"LEXENTRY:\tGRANDE RUELLE\tGRANDE RUELLE\tTYPE\tDET_PRE",
  c!"LEXENTRY:\tGRANDE SENTE\tGRANDE SENTE\tTYPE\tDET_PRE",
  c!"LEXENTRY:\tGRANDE SENTE DES\tGRANDE SENTE\tTYPE\tDET_PRE",
  c!"LEXENTRY:\tGRANDE SENTE DU\tGRANDE SENTE\tTYPE\tDET_PRE",
  c!"LEXENTRY:\tGRANDE VOIE\tGRANDE VOIE\tTYPE\tDET_PRE",
  c!"LEXENTRY:\tGRANDE VOIE DES\tGRANDE VOIE\tTYPE\tDET_PRE",
  c!"LEXENTRY:\tGRDEN\tGDN\tTYPE\tDET_SUF",
  c!"LEXENTRY:\tGRDN\tGDN\tTYPE\tDET_SUF",
  c!"LEXENTRY:\tGRDNS\tGDNS\tTYPE\tDET_SUF",
  c!"LEXENTRY:\tGREEN\tGRN\tTYPE\tDET_SUF",
  c!"LEXENTRY:\tGREENS\tGRNS\tTYPE\tDET_SUF",
  c!"LEXENTRY:\tGRN\tGRN\tTYPE\tDET_SUF",
  c!"LEXENTRY:\tGRNS\tGRNS\tTYPE\tDET_SUF",
  c!"LEXENTRY:\tGROUP\tGROUP\tPLACEN\tDETACH",
  c!"LEXENTRY:\tGROUPE\tGROUPE\tPLACEN\tDETACH",
  c!"LEXENTRY:\tGROV\tGRV\tTYPE\tDET_SUF",
  c!"LEXENTRY:\tGROVE\tGRV\tTYPE\tDET_SUF",
  c!"LEXENTRY:\tGROVES\tGRVS\tTYPE\tDET_SUF",
  c!"LEXENTRY:\tGRV\tGRV\tTYPE\tDET_SUF",
  c!"LEXENTRY:\tGRVS\tGRVS\tTYPE\tDET_SUF",
  c!"LEXENTRY:\tGTWAY\tGTWY\tTYPE\tDET_SUF",
  c!"LEXENTRY:\tGTWY\tGTWY\tTYPE\tDET_SUF",
  c!"LEXENTRY:\tHALL\tHALL\tPLACEN\tDETACH",
  c!"LEXENTRY:\tHAMEAU\tHAMEAU\tTYPE\tATT_PRE,DET_PRE",
  c!"LEXENTRY:\tHAMEAU D'\tHAMEAU\tTYPE\tATT_PRE,DET_PRE",
  c!"LEXENTRY:\tHAMEAU DE\tHAMEAU\tTYPE\tDET_PRE",
  c!"LEXENTRY:\tHAMEAU DE L'\tHAMEAU\tTYPE\tATT_PRE,DET_PRE",
  c!"LEXENTRY:\tHAMEAU DE LA\tHAMEAU\tTYPE\tDET_PRE",
  c!"LEXENTRY:\tHAMEAU DES\tHAMEAU\tTYPE\tDET_PRE",
  c!"LEXENTRY:\tHAMEAU DU\tHAMEAU\tTYPE\tDET_PRE",
  c!"LEXENTRY:\tHAMEAU LA\tHAMEAU\tTYPE\tDET_PRE",
  c!"LEXENTRY:\tHARB\tHBR\tTYPE\tDET_SUF",
  c!"LEXENTRY:\tHARBOR\tHBR\tTYPE\tDET_SUF",
  c!"LEXENTRY:\tHARBORS\tHBRS\tTYPE\tDET_SUF",
  c!"LEXENTRY:\tHARBR\tHBR\tTYPE\tDET_SUF",
  c!"LEXENTRY:\tHAVEN\tHVN\tTYPE\tDET_SUF",
  c!"LEXENTRY:\tHAVN\tHVN\tTYPE\tDET_SUF",
  c!"LEXENTRY:\tHBR\tHBR\tTYPE\tDET_SUF",
  c!"LEXENTRY:\tHBRS\tHBRS\tTYPE\tDET_SUF",
  c!"LEXENTRY:\tHEIGHT\tHTS\tTYPE\tDET_SUF",
  c!"LEXENTRY:\tHEIGHTS\tHTS\tTYPE\tDET_SUF",
  c!"LEXENTRY:\tHGTS\tHTS\tTYPE\tDET_SUF",
  c!"LEXENTRY:\tHIGHWAY\tHWY\tTYPE\tDET_SUF"]

/-- data/sample/canada.lex:652-701 -/
def entries13 : List Str := [
  c!"LEXENTRY:\tHIGHWY\tHWY\tTYPE\tDET_SUF",
  c!"LEXENTRY:\tHILL\tHL\tTYPE\tDET_SUF",
  c!"LEXENTRY:\tHILLS\tHLS\tTYPE\tDET_SUF",
  c!"LEXENTRY:\tHIWAY\tHWY\tTYPE\tDET_SUF",
  c!"LEXENTRY:\tHIWY\tHWY\tTYPE\tDET_SUF",
  c!"LEXENTRY:\tHL\tHL\tTYPE\tDET_SUF",
  c!"LEXENTRY:\tHLLW\tHOLW\tTYPE\tDET_SUF",
  c!"LEXENTRY:\tHLS\tHLS\tTYPE\tDET_SUF",
  c!"LEXENTRY:\tHOLLOW\tHOLW\tTYPE\tDET_SUF",
  c!"LEXENTRY:\tHOLLOWS\tHOLW\tTYPE\tDET_SUF",
  c!"LEXENTRY:\tHOLW\tHOLW\tTYPE\tDET_SUF",
  c!"LEXENTRY:\tHOLWS\tHOLW\tTYPE\tDET_SUF",
  c!"LEXENTRY:\tHOSPITAL\tHOSPITAL\tPLACEN\tDETACH",
  c!"LEXENTRY:\tHOTEL\tHOTEL\tPLACEN\tDETACH",
  c!"LEXENTRY:\tHOUSE\tHOUSE\tPLACEN\tDETACH",
  c!"LEXENTRY:\tHRBOR\tHBR\tTYPE\tDET_SUF",
  c!"LEXENTRY:\tHT\tHTS\tTYPE\tDET_SUF",
  c!"LEXENTRY:\tHTS\tHTS\tTYPE\tDET_SUF",
  c!"LEXENTRY:\tHUITIÈME\t8E\tWORD,ORD\tDETACH",
  c!"LEXENTRY:\tHVN\tHVN\tTYPE\tDET_SUF",
  c!"LEXENTRY:\tHWAY\tHWY\tTYPE\tDET_SUF",
  c!"LEXENTRY:\tHWY\tHWY\tTYPE\tDET_SUF",
  c!"LEXENTRY:\tHÔPITAL\tHÔPITAL\tPLACEN\tDETACH",
  c!"LEXENTRY:\tHÔTEL\tHÔTEL\tPLACEN\tDETACH",
  c!"LEXENTRY:\tIMP\tIMPASSE\tTYPE\tDET_PRE",
  c!"LEXENTRY:\tIMP.\tIMPASSE\tTYPE\tDET_PRE",
  c!"LEXENTRY:\tIMPASSE\tIMPASSE\tTYPE\tATT_PRE,DET_PRE",
  c!"LEXENTRY:\tIMPASSE AU\tIMPASSE\tTYPE\tDET_PRE",
  c!"LEXENTRY:\tIMPASSE AUX\tIMPASSE\tTYPE\tDET_PRE",
  c!"LEXENTRY:\tIMPASSE D'\tIMPASSE\tTYPE\tATT_PRE,DET_PRE",
  c!"LEXENTRY:\tIMPASSE DE\tIMPASSE\tTYPE\tDET_PRE",
  c!"LEXENTRY:\tIMPASSE DE L'\tIMPASSE\tTYPE\tATT_PRE,DET_PRE",
  c!"LEXENTRY:\tIMPASSE DE LA\tIMPASSE\tTYPE\tDET_PRE",
  c!"LEXENTRY:\tIMPASSE DES\tIMPASSE\tTYPE\tDET_PRE",
  c!"LEXENTRY:\tIMPASSE DU\tIMPASSE\tTYPE\tDET_PRE",
  c!"LEXENTRY:\tIMPASSE L'\tIMPASSE\tTYPE\tATT_PRE,DET_PRE",
  c!"LEXENTRY:\tIMPASSE À\tIMPASSE\tTYPE\tDET_PRE",
  c!"LEXENTRY:\tINC\tINC\tPLACEN\tDETACH",
  c!"LEXENTRY:\tINCORPORATED\tINCORPORATED\tPLACEN\tDETACH",
  c!"LEXENTRY:\tINLET\tINLT\tTYPE\tDET_SUF",
  c!"LEXENTRY:\tINLT\tINLT\tTYPE\tDET_SUF",
  c!"LEXENTRY:\tINSTITUT\tINSTITUT\tPLACEN\tDETACH",
  c!"LEXENTRY:\tINSTITUTE\tINSTITUTE\tPLACEN\tDETACH",
  c!"LEXENTRY:\tINTERMEDIARY\tINTERMEDIARY\tPLACEN\tDETACH",
  c!"LEXENTRY:\tIS\tIS\tTYPE\tDET_SUF",
  c!"LEXENTRY:\tISLAND\tIS\tTYPE\tDET_SUF",
  c!"LEXENTRY:\tISLANDS\tISS\tTYPE\tDET_SUF",
  c!"LEXENTRY:\tISLE\tISLE\tTYPE\tDET_SUF",
  c!"LEXENTRY:\tISLES\tISLE\tTYPE\tDET_SUF",
  c!"LEXENTRY:\tISLND\tIS\tTYPE\tDET_SUF"]

/-- data/sample/canada.lex:702-751 -/
def entries14 : List Str := [
  c!"LEXENTRY:\tISLNDS\tISS\tTYPE\tDET_SUF",
  c!"LEXENTRY:\tISS\tISS\tTYPE\tDET_SUF",
  c!"LEXENTRY:\tJARDIN\tJARDIN\tPLACEN,TYPE\tATT_PRE,DETACH,DET_PRE",
  c!"LEXENTRY:\tJARDIN DE L'\tJARDIN\tTYPE\tATT_PRE,DET_PRE",
  c!"LEXENTRY:\tJARDIN DE LA\tJARDIN\tTYPE\tDET_PRE",
  c!"LEXENTRY:\tJARDIN DES\tJARDIN\tTYPE\tDET_PRE",
  c!"LEXENTRY:\tJARDIN DU\tJARDIN\tTYPE\tDET_PRE",
  c!"LEXENTRY:\tJARDINS DU\tJARDIN\tTYPE\tDET_PRE",
  c!"LEXENTRY:\tJCT\tJCT\tTYPE\tDET_SUF",
  c!"LEXENTRY:\tJCTION\tJCT\tTYPE\tDET_SUF",
  c!"LEXENTRY:\tJCTN\tJCT\tTYPE\tDET_SUF",
  c!"LEXENTRY:\tJCTNS\tJCTS\tTYPE\tDET_SUF",
  c!"LEXENTRY:\tJCTS\tJCTS\tTYPE\tDET_SUF",
  c!"LEXENTRY:\tJETIE\tJETIE\tTYPE\tDET_PRE",
  c!"LEXENTRY:\tJETÉE\tJETIE\tTYPE\tDET_PRE",
  c!"LEXENTRY:\tJUNCTION\tJCT\tTYPE\tDET_SUF",
  c!"LEXENTRY:\tJUNCTIONS\tJCTS\tTYPE\tDET_SUF",
  c!"LEXENTRY:\tJUNCTN\tJCT\tTYPE\tDET_SUF",
  c!"LEXENTRY:\tJUNCTON\tJCT\tTYPE\tDET_SUF",
  c!"LEXENTRY:\tKEY\tKY\tTYPE\tDET_SUF",
  c!"LEXENTRY:\tKEYS\tKYS\tTYPE\tDET_SUF",
  c!"LEXENTRY:\tKNL\tKNL\tTYPE\tDET_SUF",
  c!"LEXENTRY:\tKNLS\tKNLS\tTYPE\tDET_SUF",
  c!"LEXENTRY:\tKNOL\tKNL\tTYPE\tDET_SUF",
  c!"LEXENTRY:\tKNOLL\tKNL\tTYPE\tDET_SUF",
  c!"LEXENTRY:\tKNOLLS\tKNLS\tTYPE\tDET_SUF",
  c!"LEXENTRY:\tKY\tKY\tTYPE\tDET_SUF",
  c!"LEXENTRY:\tKYS\tKYS\tTYPE\tDET_SUF",
  c!"LEXENTRY:\tL'ORÉE\tL'ORÉE\tTYPE\tDET_PRE",
  c!"LEXENTRY:\tL'ORÉE DU\tL'ORÉE\tTYPE\tDET_PRE",
  c!"LEXENTRY:\tLA RÉSIDENCE\tLA RÉSIDENCE\tTYPE\tDET_PRE",
  c!"LEXENTRY:\tLA RÉSIDENCE DU\tLA RÉSIDENCE\tTYPE\tDET_PRE",
  c!"LEXENTRY:\tLAB\tLAB\tPLACEN\tDETACH",
  c!"LEXENTRY:\tLABORATOIRE\tLABORATOIRE\tPLACEN\tDETACH",
  c!"LEXENTRY:\tLABORATORIES\tLABORATORIES\tPLACEN\tDETACH",
  c!"LEXENTRY:\tLABORATORY\tLABORATORY\tPLACEN\tDETACH",
  c!"LEXENTRY:\tLABS\tLABS\tPLACEN\tDETACH",
  c!"LEXENTRY:\tLAKE\tLK\tTYPE\tDET_SUF",
  c!"LEXENTRY:\tLAKES\tLKS\tTYPE\tDET_SUF",
  c!"LEXENTRY:\tLAND\tLAND\tTYPE\tDET_SUF",
  c!"LEXENTRY:\tLANDING\tLNDG\tTYPE\tDET_SUF",
  c!"LEXENTRY:\tLANE\tLN\tTYPE\tDET_SUF",
  c!"LEXENTRY:\tLANES\tLN\tTYPE\tDET_SUF",
  c!"LEXENTRY:\tLCK\tLCK\tTYPE\tDET_SUF",
  c!"LEXENTRY:\tLCKS\tLCKS\tTYPE\tDET_SUF",
  c!"LEXENTRY:\tLDG\tLDG\tTYPE\tDET_SUF",
  c!"LEXENTRY:\tLDGE\tLDG\tTYPE\tDET_SUF",
  c!"LEXENTRY:\tLE CLOS\tLE CLOS\tTYPE\tDET_PRE",
  c!"LEXENTRY:\tLE CLOS DE\tLE CLOS\tTYPE\tDET_PRE",
  c!"LEXENTRY:\tLE CLOS DE LA\tLE CLOS\tTYPE\tDET_PRE"]

/-- data/sample/canada.lex:752-801 -/
def entries15 : List Str := [
  c!"LEXENTRY:\tLE CLOS DES\tLE CLOS\tTYPE\tDET_PRE",
  c!"LEXENTRY:\tLE CLOS DU\tLE CLOS\tTYPE\tDET_PRE",
  c!"LEXENTRY:\tLE FOND DES\tLE CLOS\tTYPE\tDET_PRE",
  c!"LEXENTRY:\tLE JARDIN\tLE JARDIN\tTYPE\tDET_PRE",
  c!"LEXENTRY:\tLE JARDIN DE\tLE JARDIN\tTYPE\tDET_PRE",
  c!"LEXENTRY:\tLE PARC\tLE PARC\tTYPE\tDET_PRE",
  c!"LEXENTRY:\tLE PARC DE\tLE PARC\tTYPE\tDET_PRE",
  c!"LEXENTRY:\tLE PARC DU\tLE PARC\tTYPE\tDET_PRE",
  c!"LEXENTRY:\tLES JARDINS\tLES JARDINS\tTYPE\tDET_PRE",
  c!"LEXENTRY:\tLES JARDINS DE LA\tLES JARDINS\tTYPE\tDET_PRE",
  c!"LEXENTRY:\tLES JARDINS DES\tLES JARDINS\tTYPE\tDET_PRE",
  c!"LEXENTRY:\tLES JARDINS DU\tLES JARDINS\tTYPE\tDET_PRE",
  c!"LEXENTRY:\tLES TERRASSES\tLES TERRASSES\tTYPE\tDET_PRE",
  c!"LEXENTRY:\tLES TERRASSES DE\tLES TERRASSES\tTYPE\tDET_PRE",
  c!"LEXENTRY:\tLES TERRASSES DE LA\tLES TERRASSES\tTYPE\tDET_PRE",
  c!"LEXENTRY:\tLES VILLAS\tLES VILLAS\tTYPE\tATT_PRE,DET_PRE",
  c!"LEXENTRY:\tLES VILLAS DE L'\tLES VILLAS\tTYPE\tATT_PRE,DET_PRE",
  c!"LEXENTRY:\tLF\tLF\tTYPE\tDET_SUF",
  c!"LEXENTRY:\tLGT\tLGT\tTYPE\tDET_SUF",
  c!"LEXENTRY:\tLGTS\tLGTS\tTYPE\tDET_SUF",
  c!"LEXENTRY:\tLIBRARY\tLIBRARY\tPLACEN\tDETACH",
  c!"LEXENTRY:\tLIEU-DIT\tLIEU-DIT\tTYPE\tDET_PRE",
  c!"LEXENTRY:\tLIGHT\tLGT\tTYPE\tDET_SUF",
  c!"LEXENTRY:\tLIGHTS\tLGTS\tTYPE\tDET_SUF",
  c!"LEXENTRY:\tLIMITED\tLIMITED\tPLACEN\tDETACH",
  c!"LEXENTRY:\tLK\tLK\tTYPE\tDET_SUF",
  c!"LEXENTRY:\tLKS\tLKS\tTYPE\tDET_SUF",
  c!"LEXENTRY:\tLN\tLN\tTYPE\tDET_SUF",
  c!"LEXENTRY:\tLNDG\tLNDG\tTYPE\tDET_SUF",
  c!"LEXENTRY:\tLNDNG\tLNDG\tTYPE\tDET_SUF",
  c!"LEXENTRY:\tLOAF\tLF\tTYPE\tDET_SUF",
  c!"LEXENTRY:\tLOCK\tLCK\tTYPE\tDET_SUF",
  c!"LEXENTRY:\tLOCKS\tLCKS\tTYPE\tDET_SUF",
  c!"LEXENTRY:\tLODG\tLDG\tTYPE\tDET_SUF",
  c!"LEXENTRY:\tLODGE\tLDG\tTYPE\tDET_SUF",
  c!"LEXENTRY:\tLOOP\tLOOP\tTYPE\tDET_SUF",
  c!"LEXENTRY:\tLOOPS\tLOOP\tTYPE\tDET_SUF",
  c!"LEXENTRY:\tLOTISSEMENT\tLOTISSEMENT\tTYPE\tATT_PRE,DET_PRE",
  c!"LEXENTRY:\tLOTISSEMENT DE L'\tLOTISSEMENT\tTYPE\tATT_PRE,DET_PRE",
  c!"LEXENTRY:\tLOTISSEMENT DE LA\tLOTISSEMENT\tTYPE\tDET_PRE",
  c!"LEXENTRY:\tLOTISSEMENT DU\tLOTISSEMENT\tTYPE\tDET_PRE",
  c!"LEXENTRY:\tLTD\tLTD\tPLACEN\tDETACH",
  c!"LEXENTRY:\tLYCÉE\tLYCÉE\tPLACEN\tDETACH",
  c!"LEXENTRY:\tMAIL\tMAIL\tTYPE\tDET_PRE",
  c!"LEXENTRY:\tMAIL AUX\tMAIL\tTYPE\tDET_PRE",
  c!"LEXENTRY:\tMAIL DE\tMAIL\tTYPE\tDET_PRE",
  c!"LEXENTRY:\tMAIL DE L'\tMAIL\tTYPE\tDET_PRE",
  c!"LEXENTRY:\tMAIL DE LA\tMAIL\tTYPE\tDET_PRE",
  c!"LEXENTRY:\tMAIL DES\tMAIL\tTYPE\tDET_PRE",
  c!"LEXENTRY:\tMAIL DU\tMAIL\tTYPE\tDET_PRE"]

/-- data/sample/canada.lex:802-851 -/
def entries16 : List Str := [
  c!"LEXENTRY:\tMALL\tMALL\tTYPE\tDET_SUF",
  c!"LEXENTRY:\tMANOR\tMNR\tTYPE\tDET_SUF",
  c!"LEXENTRY:\tMANORS\tMNRS\tTYPE\tDET_SUF",
  c!"LEXENTRY:\tMARCHI\tMARCHI\tTYPE\tDET_PRE",
  c!"LEXENTRY:\tMARCHÉ\tMARCHI\tTYPE\tDET_PRE",
  c!"LEXENTRY:\tMARCHÉ\tMARCHÉ\tPLACEN\tDETACH",
  c!"LEXENTRY:\tMARCHÉ DE\tMARCHI\tTYPE\tDET_PRE",
  c!"LEXENTRY:\tMARCHÉ DE LA\tMARCHI\tTYPE\tDET_PRE",
  c!"LEXENTRY:\tMARKET\tMARKET\tPLACEN\tDETACH",
  c!"LEXENTRY:\tMB\tMANITOBA\tPROV\tDETACH",
  c!"LEXENTRY:\tMDW\tMDW\tTYPE\tDET_SUF",
  c!"LEXENTRY:\tMDWS\tMDWS\tTYPE\tDET_SUF",
  c!"LEXENTRY:\tMEADOW\tMDW\tTYPE\tDET_SUF",
  c!"LEXENTRY:\tMEADOWS\tMDWS\tTYPE\tDET_SUF",
  c!"LEXENTRY:\tMEDOWS\tMDWS\tTYPE\tDET_SUF",
  c!"LEXENTRY:\tMEWS\tMEWS\tTYPE\tDET_SUF",
  c!"LEXENTRY:\tMILL\tML\tTYPE\tDET_SUF",
  c!"LEXENTRY:\tMILLS\tMLS\tTYPE\tDET_SUF",
  c!"LEXENTRY:\tMISSION\tMSN\tTYPE\tDET_SUF",
  c!"LEXENTRY:\tMISSN\tMSN\tTYPE\tDET_SUF",
  c!"LEXENTRY:\tML\tML\tTYPE\tDET_SUF",
  c!"LEXENTRY:\tMLS\tMLS\tTYPE\tDET_SUF",
  c!"LEXENTRY:\tMNR\tMNR\tTYPE\tDET_SUF",
  c!"LEXENTRY:\tMNRS\tMNRS\tTYPE\tDET_SUF",
  c!"LEXENTRY:\tMNT\tMT\tTYPE\tDET_PRE,DET_SUF",
  c!"LEXENTRY:\tMNTAIN\tMTN\tTYPE\tDET_SUF",
  c!"LEXENTRY:\tMNTN\tMTN\tTYPE\tDET_SUF",
  c!"LEXENTRY:\tMONT\tMONTAGNE\tTYPE\tDET_PRE",
  c!"LEXENTRY:\tMONTAGNE\tMONTAGNE\tTYPE\tDET_PRE",
  c!"LEXENTRY:\tMONTIE\tMONTIE\tTYPE\tATT_PRE,DET_PRE",
  c!"LEXENTRY:\tMONTIE DE L'\tMONTIE\tTYPE\tATT_PRE",
  c!"LEXENTRY:\tMONTÉE\tMONTIE\tTYPE\tDET_PRE",
  c!"LEXENTRY:\tMONTÉE DE LA\tMONTIE\tTYPE\tDET_PRE",
  c!"LEXENTRY:\tMONTÉE DES\tMONTIE\tTYPE\tDET_PRE",
  c!"LEXENTRY:\tMONTÉE DU\tMONTIE\tTYPE\tDET_PRE",
  c!"LEXENTRY:\tMOTORWAY\tMTWY\tTYPE\tDET_SUF",
  c!"LEXENTRY:\tMOUNT\tMT\tTYPE\tDET_PRE,DET_SUF",
  c!"LEXENTRY:\tMOUNTAIN\tMTN\tTYPE\tDET_SUF",
  c!"LEXENTRY:\tMOUNTAINS\tMTNS\tTYPE\tDET_SUF",
  c!"LEXENTRY:\tMOUNTIN\tMTN\tTYPE\tDET_SUF",
  c!"LEXENTRY:\tMSN\tMSN\tTYPE\tDET_SUF",
  c!"LEXENTRY:\tMSSN\tMSN\tTYPE\tDET_SUF",
  c!"LEXENTRY:\tMT\tMT\tTYPE\tDET_PRE,DET_SUF",
  c!"LEXENTRY:\tMT\tMONTAGNE\tTYPE\tDET_PRE",
  c!"LEXENTRY:\tMT.\tMT\tTYPE\tDET_PRE,DET_SUF",
  c!"LEXENTRY:\tMTIN\tMTN\tTYPE\tDET_SUF",
  c!"LEXENTRY:\tMTN\tMTN\tTYPE\tDET_SUF",
  c!"LEXENTRY:\tMTNS\tMTNS\tTYPE\tDET_SUF",
  c!"LEXENTRY:\tMTWY\tMTWY\tTYPE\tDET_SUF",
  c!"LEXENTRY:\tMUSEUM\tMUSEUM\tPLACEN\tDETACH"]

/-- data/sample/canada.lex:852-901 -/
def entries17 : List Str := [
  c!"LEXENTRY:\tMUSÉE\tMUSÉE\tPLACEN\tDETACH",
  c!"LEXENTRY:\tN\tN\tDIRECT\tDETACH",
  c!"LEXENTRY:\tN.\tN\tDIRECT\tDETACH",
  c!"LEXENTRY:\tN.E.\tNE\tDIRECT\tDETACH",
  c!"LEXENTRY:\tN.W.\tNW\tDIRECT\tDETACH",
  c!"LEXENTRY:\tNB\tNEW BRUNSWICK\tPROV\tDETACH",
  c!"LEXENTRY:\tNCK\tNCK\tTYPE\tDET_SUF",
  c!"LEXENTRY:\tNE\tNE\tDIRECT\tDETACH",
  c!"LEXENTRY:\tNE.\tNE\tDIRECT\tDETACH",
  c!"LEXENTRY:\tNECK\tNCK\tTYPE\tDET_SUF",
  c!"LEXENTRY:\tNEUVIÈME\t9E\tWORD,ORD\tDETACH",
  c!"LEXENTRY:\tNF\tNEWFOUNDLAND\tPROV\tDETACH",
  c!"LEXENTRY:\tNINE\t9\tNUMBER\tDETACH",
  c!"LEXENTRY:\tNINETEEN\t19\tNUMBER\tDETACH",
  c!"LEXENTRY:\tNINETEENTH\t19TH\tWORD,ORD\tDETACH",
  c!"LEXENTRY:\tNINETIETH\t90TH\tWORD,ORD\tDETACH",
  c!"LEXENTRY:\tNINETY\t90\tNUMBER\tDETACH",
  c!"LEXENTRY:\tNINTH\t9TH\tWORD,ORD\tDETACH",
  c!"LEXENTRY:\tNO\tNO\tDIRECT\tDETACH",
  c!"LEXENTRY:\tNORD\tN\tDIRECT\tDETACH",
  c!"LEXENTRY:\tNORD-EST\tNE\tDIRECT\tDETACH",
  c!"LEXENTRY:\tNORD-OUEST\tNO\tDIRECT\tDETACH",
  c!"LEXENTRY:\tNORTH\tN\tDIRECT\tDETACH",
  c!"LEXENTRY:\tNORTHEAST\tNE\tDIRECT\tDETACH",
  c!"LEXENTRY:\tNORTHWEST\tNW\tDIRECT\tDETACH",
  c!"LEXENTRY:\tNOUVEAU CHEMIN\tNOUVEAU CHEMIN\tTYPE\tDET_PRE",
  c!"LEXENTRY:\tNOUVEAU CHEMIN DES\tNOUVEAU CHEMIN\tTYPE\tDET_PRE",
  c!"LEXENTRY:\tNOUVEAU-BRUNSWICK\tNEW BRUNSWICK\tPROV\tDETACH",
  c!"LEXENTRY:\tNOUVELLE CITÉ\tNOUVELLE CITÉ\tTYPE\tDET_PRE",
  c!"LEXENTRY:\tNOUVELLE CITÉ DE\tNOUVELLE CITÉ\tTYPE\tDET_PRE",
  c!"LEXENTRY:\tNOUVELLE-ÉCOSSE\tNOVA SCOTIA\tPROV\tDETACH",
  c!"LEXENTRY:\tNS\tNOVA SCOTIA\tPROV\tDETACH",
  c!"LEXENTRY:\tNT\tNT\tPLACEN\tDETACH",
  c!"LEXENTRY:\tNT\tNORTHWEST TERRITORIES\tPROV\tDETACH",
  c!"LEXENTRY:\tNU\tNUNAVUT\tPROV\tDETACH",
  c!"LEXENTRY:\tNW\tNW\tDIRECT\tDETACH",
  c!"LEXENTRY:\tNW.\tNW\tDIRECT\tDETACH",
  c!"LEXENTRY:\tO\tO\tDIRECT\tDETACH",
  c!"LEXENTRY:\tON\tONTARIO\tPROV\tDETACH",
  c!"LEXENTRY:\tONE\t1\tNUMBER\tDETACH",
  c!"LEXENTRY:\tOPAS\tOPAS\tTYPE\tDET_SUF",
  c!"LEXENTRY:\tORCH\tORCH\tTYPE\tDET_SUF",
  c!"LEXENTRY:\tORCHARD\tORCH\tTYPE\tDET_SUF",
  c!"LEXENTRY:\tORCHRD\tORCH\tTYPE\tDET_SUF",
  c!"LEXENTRY:\tORÉE\tORÉE\tTYPE\tDET_PRE",
  c!"LEXENTRY:\tORÉE DE\tORÉE\tTYPE\tDET_PRE",
  c!"LEXENTRY:\tORÉE DU\tORÉE\tTYPE\tDET_PRE",
  c!"LEXENTRY:\tOUEST\tO\tDIRECT\tDETACH",
  c!"LEXENTRY:\tOVAL\tOVAL\tTYPE\tDET_SUF",
  c!"LEXENTRY:\tOVERPASS\tOPAS\tTYPE\tDET_SUF"]

/-- data/sample/canada.lex:902-951 -/
def entries18 : List Str := [
  c!"LEXENTRY:\tOVL\tOVAL\tTYPE\tDET_SUF",
  c!"LEXENTRY:\tP\tHAMEAU\tTYPE\tDET_PRE",
  c!"LEXENTRY:\tP\tSENTIER\tTYPE\tDET_PRE",
  c!"LEXENTRY:\tPARC\tPARC\tPLACEN,TYPE\tATT_PRE,DETACH,DET_PRE",
  c!"LEXENTRY:\tPARC AUX\tPARC\tTYPE\tDET_PRE",
  c!"LEXENTRY:\tPARC DE\tPARC\tTYPE\tDET_PRE",
  c!"LEXENTRY:\tPARC DE L'\tPARC\tTYPE\tATT_PRE,DET_PRE",
  c!"LEXENTRY:\tPARC DE LA\tPARC\tTYPE\tDET_PRE",
  c!"LEXENTRY:\tPARC DES\tPARC\tTYPE\tDET_PRE",
  c!"LEXENTRY:\tPARC DU\tPARC\tTYPE\tDET_PRE",
  c!"LEXENTRY:\tPARK\tPARK\tPLACEN,TYPE\tDETACH,DET_SUF",
  c!"LEXENTRY:\tPARKS\tPARK\tTYPE\tDET_SUF",
  c!"LEXENTRY:\tPARKWAY\tPKWY\tTYPE\tDET_SUF",
  c!"LEXENTRY:\tPARKWAYS\tPKWY\tTYPE\tDET_SUF",
  c!"LEXENTRY:\tPARKWY\tPKWY\tTYPE\tDET_SUF",
  c!"LEXENTRY:\tPARVIS\tPARVIS\tTYPE\tATT_PRE,DET_PRE",
  c!"LEXENTRY:\tPARVIS DE L'\tPARVIS\tTYPE\tATT_PRE,DET_PRE",
  c!"LEXENTRY:\tPARVIS DE LA\tPARVIS\tTYPE\tDET_PRE",
  c!"LEXENTRY:\tPARVIS DES\tPARVIS\tTYPE\tDET_PRE",
  c!"LEXENTRY:\tPARVIS DU\tPARVIS\tTYPE\tDET_PRE",
  c!"LEXENTRY:\tPAS\tPASSAGE\tTYPE\tDET_PRE,DET_SUF",
  c!"LEXENTRY:\tPAS.\tPASSAGE\tTYPE\tDET_PRE,DET_SUF",
  c!"LEXENTRY:\tPASS\tPASS\tTYPE\tDET_SUF",
  c!"LEXENTRY:\tPASS\tPASSAGE\tTYPE\tDET_PRE,DET_SUF",
  c!"LEXENTRY:\tPASS.\tPASSAGE\tTYPE\tDET_PRE,DET_SUF",
  c!"LEXENTRY:\tPASSAGE\tPSGE\tTYPE\tDET_SUF",
  c!"LEXENTRY:\tPASSAGE\tPASSAGE\tTYPE\tATT_PRE,DET_PRE,DET_SUF",
  c!"LEXENTRY:\tPASSAGE AUX\tPASSAGE\tTYPE\tDET_PRE",
  c!"LEXENTRY:\tPASSAGE D'\tPASSAGE\tTYPE\tATT_PRE,DET_PRE",
  c!"LEXENTRY:\tPASSAGE DE\tPASSAGE\tTYPE\tDET_PRE",
  c!"LEXENTRY:\tPASSAGE DE L'\tPASSAGE\tTYPE\tATT_PRE,DET_PRE",
  c!"LEXENTRY:\tPASSAGE DE LA\tPASSAGE\tTYPE\tDET_PRE",
  c!"LEXENTRY:\tPASSAGE DES\tPASSAGE\tTYPE\tDET_PRE",
  c!"LEXENTRY:\tPASSAGE DU\tPASSAGE\tTYPE\tDET_PRE",
  c!"LEXENTRY:\tPASSE\tPASSE\tTYPE\tATT_PRE,DET_PRE",
  c!"LEXENTRY:\tPASSE DE L'\tPASSE\tTYPE\tATT_PRE,DET_PRE",
  c!"LEXENTRY:\tPASSERELLE\tPASSERELLE\tTYPE\tATT_PRE,DET_PRE",
  c!"LEXENTRY:\tPASSERELLE D'\tPASSERELLE\tTYPE\tATT_PRE,DET_PRE",
  c!"LEXENTRY:\tPASSERELLE DE\tPASSERELLE\tTYPE\tDET_PRE",
  c!"LEXENTRY:\tPASSERELLE DE L'\tPASSERELLE\tTYPE\tDET_PRE",
  c!"LEXENTRY:\tPASSERELLE DE LA\tPASSERELLE\tTYPE\tDET_PRE",
  c!"LEXENTRY:\tPASSERELLE DES\tPASSERELLE\tTYPE\tDET_PRE",
  c!"LEXENTRY:\tPASSERELLE DU\tPASSERELLE\tTYPE\tDET_PRE",
  c!"LEXENTRY:\tPATH\tPATH\tTYPE\tDET_SUF",
  c!"LEXENTRY:\tPATHS\tPATH\tTYPE\tDET_SUF",
  c!"LEXENTRY:\tPE\tPRINCE EDWARD ISLAND\tPROV\tDETACH",
  c!"LEXENTRY:\tPETIT CHEMIN\tPETIT CHEMIN\tTYPE\tDET_PRE",
  c!"LEXENTRY:\tPETIT CHEMIN DE\tPETIT CHEMIN\tTYPE\tDET_PRE",
  c!"LEXENTRY:\tPETIT CHEMIN DU\tPETIT CHEMIN\tTYPE\tDET_PRE",
  c!"LEXENTRY:\tPETIT SENTIER\tPETIT SENTIER\tTYPE\tDET_PRE"]

/-- data/sample/canada.lex:952-1001 -/
def entries19 : List Str := [
  c!"LEXENTRY:\tPETIT SENTIER DES\tPETIT SENTIER\tTYPE\tDET_PRE",
  c!"LEXENTRY:\tPETITE IMPASSE\tPETITE IMPASSE\tTYPE\tDET_PRE",
  c!"LEXENTRY:\tPETITE IMPASSE DES\tPETITE IMPASSE\tTYPE\tDET_PRE",
  c!"LEXENTRY:\tPETITE ROUTE\tPETITE ROUTE\tTYPE\tATT_PRE,DET_PRE",
  c!"LEXENTRY:\tPETITE ROUTE DE L'\tPETITE ROUTE\tTYPE\tATT_PRE,DET_PRE",
  c!"LEXENTRY:\tPETITE RUE\tPETITE RUE\tTYPE\tDET_PRE",
  c!"LEXENTRY:\tPETITE RUE DE LA\tPETITE RUE\tTYPE\tDET_PRE",
  c!"LEXENTRY:\tPETITE RUE DU\tPETITE RUE\tTYPE\tDET_PRE",
  c!"LEXENTRY:\tPETITE RUELLE\tPETITE RUELLE\tTYPE\tDET_PRE",
  c!"LEXENTRY:\tPETITE SENTE\tPETITE SENTE\tTYPE\tDET_PRE",
  c!"LEXENTRY:\tPETITE SENTE DES\tPETITE SENTE\tTYPE\tDET_PRE",
  c!"LEXENTRY:\tPETITE VOIE\tPETITE VOIE\tTYPE\tDET_PRE",
  c!"LEXENTRY:\tPETITE VOIE DE\tPETITE VOIE\tTYPE\tDET_PRE",
  c!"LEXENTRY:\tPETITE VOIE DES\tPETITE VOIE\tTYPE\tDET_PRE",
  c!"LEXENTRY:\tPIKE\tPIKE\tTYPE\tDET_SUF",
  c!"LEXENTRY:\tPIKES\tPIKE\tTYPE\tDET_SUF",
  c!"LEXENTRY:\tPINE\tPNE\tTYPE\tDET_SUF",
  c!"LEXENTRY:\tPINES\tPNES\tTYPE\tDET_SUF",
  c!"LEXENTRY:\tPISTE\tPISTE\tTYPE\tDET_PRE",
  c!"LEXENTRY:\tPISTE DU\tPISTE\tTYPE\tDET_PRE",
  c!"LEXENTRY:\tPK\tPARK\tTYPE\tDET_SUF",
  c!"LEXENTRY:\tPKWAY\tPKWY\tTYPE\tDET_SUF",
  c!"LEXENTRY:\tPKWY\tPKWY\tTYPE\tDET_SUF",
  c!"LEXENTRY:\tPKWYS\tPKWY\tTYPE\tDET_SUF",
  c!"LEXENTRY:\tPKY\tPKWY\tTYPE\tDET_SUF",
  c!"LEXENTRY:\tPL\tPL\tTYPE\tDET_PRE,DET_SUF",
  c!"LEXENTRY:\tPL\tPLACE\tTYPE\tDET_PRE",
  c!"LEXENTRY:\tPL.\tPL\tTYPE\tDET_PRE,DET_SUF",
  c!"LEXENTRY:\tPL.\tPLACE\tTYPE\tDET_PRE",
  c!"LEXENTRY:\tPLACE\tPL\tTYPE\tDET_PRE,DET_SUF",
  c!"LEXENTRY:\tPLACE\tPLACE\tTYPE\tATT_PRE,DET_PRE",
  c!"LEXENTRY:\tPLACE AU\tPLACE\tTYPE\tDET_PRE",
  c!"LEXENTRY:\tPLACE AUX\tPLACE\tTYPE\tDET_PRE",
  c!"LEXENTRY:\tPLACE D'\tPLACE\tTYPE\tATT_PRE,DET_PRE",
  c!"LEXENTRY:\tPLACE DE\tPLACE\tTYPE\tDET_PRE",
  c!"LEXENTRY:\tPLACE DE L'\tPLACE\tTYPE\tATT_PRE,DET_PRE",
  c!"LEXENTRY:\tPLACE DE LA\tPLACE\tTYPE\tDET_PRE",
  c!"LEXENTRY:\tPLACE DES\tPLACE\tTYPE\tDET_PRE",
  c!"LEXENTRY:\tPLACE DU\tPLACE\tTYPE\tDET_PRE",
  c!"LEXENTRY:\tPLACE À\tPLACE\tTYPE\tDET_PRE",
  c!"LEXENTRY:\tPLACETTE\tPLACETTE\tTYPE\tDET_PRE",
  c!"LEXENTRY:\tPLACETTE DE\tPLACETTE\tTYPE\tDET_PRE",
  c!"LEXENTRY:\tPLACETTE DE LA\tPLACETTE\tTYPE\tDET_PRE",
  c!"LEXENTRY:\tPLACETTE DES\tPLACETTE\tTYPE\tDET_PRE",
  c!"LEXENTRY:\tPLACETTE DU\tPLACETTE\tTYPE\tDET_PRE",
  c!"LEXENTRY:\tPLAIN\tPLN\tTYPE\tDET_SUF",
  c!"LEXENTRY:\tPLAINE\tPLAINE\tTYPE\tDET_PRE",
  c!"LEXENTRY:\tPLAINE DES\tPLAINE\tTYPE\tDET_PRE",
  c!"LEXENTRY:\tPLAINS\tPLNS\tTYPE\tDET_SUF",
  c!"LEXENTRY:\tPLATEAU\tPLATEAU\tTYPE\tDET_PRE"]

/-- data/sample/canada.lex:1002-1051 -/
def entries20 : List Str := [
  c!"LEXENTRY:\tPLATEAU DE LA\tPLATEAU\tTYPE\tDET_PRE",
  c!"LEXENTRY:\tPLAZA\tPLZ\tTYPE\tDET_SUF",
  c!"LEXENTRY:\tPLN\tPLN\tTYPE\tDET_SUF",
  c!"LEXENTRY:\tPLNS\tPLNS\tTYPE\tDET_SUF",
  c!"LEXENTRY:\tPLZ\tPLZ\tTYPE\tDET_SUF",
  c!"LEXENTRY:\tPLZA\tPLZ\tTYPE\tDET_SUF",
  c!"LEXENTRY:\tPNE\tPNE\tTYPE\tDET_SUF",
  c!"LEXENTRY:\tPNES\tPNES\tTYPE\tDET_SUF",
  c!"LEXENTRY:\tPOINT\tPT\tTYPE\tDET_SUF",
  c!"LEXENTRY:\tPOINT DES\tROND-POINT\tTYPE\tDET_PRE",
  c!"LEXENTRY:\tPOINTS\tPTS\tTYPE\tDET_SUF",
  c!"LEXENTRY:\tPONT\tPONT\tTYPE\tATT_PRE,DET_PRE",
  c!"LEXENTRY:\tPONT AU\tPONT\tTYPE\tDET_PRE",
  c!"LEXENTRY:\tPONT AUX\tPONT\tTYPE\tDET_PRE",
  c!"LEXENTRY:\tPONT D'\tPONT\tTYPE\tATT_PRE,DET_PRE",
  c!"LEXENTRY:\tPONT DE\tPONT\tTYPE\tDET_PRE",
  c!"LEXENTRY:\tPONT DE L'\tPONT\tTYPE\tATT_PRE,DET_PRE",
  c!"LEXENTRY:\tPONT DE LA\tPONT\tTYPE\tDET_PRE",
  c!"LEXENTRY:\tPONT DES\tPONT\tTYPE\tDET_PRE",
  c!"LEXENTRY:\tPONT DU\tPONT\tTYPE\tDET_PRE",
  c!"LEXENTRY:\tPORT\tPRT\tTYPE\tDET_SUF",
  c!"LEXENTRY:\tPORT\tPORT\tTYPE\tATT_PRE,DET_PRE",
  c!"LEXENTRY:\tPORT D'\tPORT\tTYPE\tATT_PRE,DET_PRE",
  c!"LEXENTRY:\tPORT DE\tPORT\tTYPE\tDET_PRE",
  c!"LEXENTRY:\tPORT DE L'\tPORT\tTYPE\tATT_PRE,DET_PRE",
  c!"LEXENTRY:\tPORT DE LA\tPORT\tTYPE\tDET_PRE",
  c!"LEXENTRY:\tPORT DES\tPORT\tTYPE\tDET_PRE",
  c!"LEXENTRY:\tPORT DU\tPORT\tTYPE\tDET_PRE",
  c!"LEXENTRY:\tPORTE\tPORTE\tTYPE\tATT_PRE,DET_PRE",
  c!"LEXENTRY:\tPORTE AUX\tPORTE\tTYPE\tDET_PRE",
  c!"LEXENTRY:\tPORTE D'\tPORTE\tTYPE\tATT_PRE,DET_PRE",
  c!"LEXENTRY:\tPORTE DE\tPORTE\tTYPE\tDET_PRE",
  c!"LEXENTRY:\tPORTE DE L'\tPORTE\tTYPE\tATT_PRE,DET_PRE",
  c!"LEXENTRY:\tPORTE DE LA\tPORTE\tTYPE\tDET_PRE",
  c!"LEXENTRY:\tPORTE DES\tPORTE\tTYPE\tDET_PRE",
  c!"LEXENTRY:\tPORTE DU\tPORTE\tTYPE\tDET_PRE",
  c!"LEXENTRY:\tPORTS\tPRTS\tTYPE\tDET_SUF",
  c!"LEXENTRY:\tPOTERNE\tPOTERNE\tTYPE\tDET_PRE",
  c!"LEXENTRY:\tPOTERNE DES\tPOTERNE\tTYPE\tDET_PRE",
  c!"LEXENTRY:\tPR\tPR\tTYPE\tDET_SUF",
  c!"LEXENTRY:\tPRAIRIE\tPR\tTYPE\tDET_SUF",
  c!"LEXENTRY:\tPRARIE\tPR\tTYPE\tDET_SUF",
  c!"LEXENTRY:\tPREMIER\t1ER\tWORD,ORD\tDETACH",
  c!"LEXENTRY:\tPREMIÈRE\t1ER\tWORD,ORD\tDETACH",
  c!"LEXENTRY:\tPRK\tPARK\tTYPE\tDET_SUF",
  c!"LEXENTRY:\tPROMENADE\tPROMENADE\tTYPE\tATT_PRE,DET_PRE,DET_SUF",
  c!"LEXENTRY:\tPROMENADE \tPROMENADE\tTYPE\tDET_PRE,DET_SUF",
  c!"LEXENTRY:\tPROMENADE DE\tPROMENADE\tTYPE\tDET_PRE",
  c!"LEXENTRY:\tPROMENADE DE L'\tPROMENADE\tTYPE\tATT_PRE,DET_PRE",
  c!"LEXENTRY:\tPROMENADE DE LA\tPROMENADE\tTYPE\tDET_PRE"]

/-- data/sample/canada.lex:1052-1101 -/
def entries21 : List Str := [
  c!"LEXENTRY:\tPROMENADE DES\tPROMENADE\tTYPE\tDET_PRE",
  c!"LEXENTRY:\tPROMENADE DU\tPROMENADE\tTYPE\tDET_PRE",
  c!"LEXENTRY:\tPROMENÉE\tPROMENÉE\tTYPE\tDET_PRE",
  c!"LEXENTRY:\tPROMENÉE DES\tPROMENÉE\tTYPE\tDET_PRE",
  c!"LEXENTRY:\tPRR\tPR\tTYPE\tDET_SUF",
  c!"LEXENTRY:\tPRT\tPRT\tTYPE\tDET_SUF",
  c!"LEXENTRY:\tPRTS\tPRTS\tTYPE\tDET_SUF",
  c!"LEXENTRY:\tPSGE\tPSGE\tTYPE\tDET_SUF",
  c!"LEXENTRY:\tPT\tPT\tTYPE\tDET_SUF",
  c!"LEXENTRY:\tPTS\tPTS\tTYPE\tDET_SUF",
  c!"LEXENTRY:\tQC\tQUÉBEC\tPROV\tDETACH",
  c!"LEXENTRY:\tQRT\tQUARTIER\tTYPE\tDET_PRE",
  c!"LEXENTRY:\tQRT.\tQUARTIER\tTYPE\tDET_PRE",
  c!"LEXENTRY:\tQU\tQUARTIER\tTYPE\tDET_PRE",
  c!"LEXENTRY:\tQU.\tQUARTIER\tTYPE\tDET_PRE",
  c!"LEXENTRY:\tQUA\tQUARTIER\tTYPE\tDET_PRE",
  c!"LEXENTRY:\tQUA.\tQUARTIER\tTYPE\tDET_PRE",
  c!"LEXENTRY:\tQUAI\tQUAI\tTYPE\tATT_PRE,DET_PRE",
  c!"LEXENTRY:\tQUAI AUX\tQUAI\tTYPE\tDET_PRE",
  c!"LEXENTRY:\tQUAI D'\tQUAI\tTYPE\tATT_PRE,DET_PRE",
  c!"LEXENTRY:\tQUAI DE\tQUAI\tTYPE\tDET_PRE",
  c!"LEXENTRY:\tQUAI DE L'\tQUAI\tTYPE\tATT_PRE,DET_PRE",
  c!"LEXENTRY:\tQUAI DE LA\tQUAI\tTYPE\tDET_PRE",
  c!"LEXENTRY:\tQUAI DES\tQUAI\tTYPE\tDET_PRE",
  c!"LEXENTRY:\tQUAI DU\tQUAI\tTYPE\tDET_PRE",
  c!"LEXENTRY:\tQUARTIER\tQUARTIER\tTYPE\tDET_PRE",
  c!"LEXENTRY:\tQUARTIER DE LA\tQUARTIER\tTYPE\tDET_PRE",
  c!"LEXENTRY:\tQUARTIER DES\tQUARTIER\tTYPE\tDET_PRE",
  c!"LEXENTRY:\tQUATRIÈME\t4E\tWORD,ORD\tDETACH",
  c!"LEXENTRY:\tQUEBEC\tQUÉBEC\tPROV\tDETACH",
  c!"LEXENTRY:\tQUIBEC\tQUÉBEC\tPROV\tDETACH",
  c!"LEXENTRY:\tR\tRUE\tTYPE\tDET_PRE",
  c!"LEXENTRY:\tR.\tRUE\tTYPE\tDET_PRE",
  c!"LEXENTRY:\tRAD\tRADL\tTYPE\tDET_SUF",
  c!"LEXENTRY:\tRADIAL\tRADL\tTYPE\tDET_SUF",
  c!"LEXENTRY:\tRADIEL\tRADL\tTYPE\tDET_SUF",
  c!"LEXENTRY:\tRADL\tRADL\tTYPE\tDET_SUF",
  c!"LEXENTRY:\tRAMP\tRAMP\tTYPE\tDET_SUF",
  c!"LEXENTRY:\tRAMPE\tRAMPE\tTYPE\tDET_PRE",
  c!"LEXENTRY:\tRAMPE DE\tRAMPE\tTYPE\tDET_PRE",
  c!"LEXENTRY:\tRAMPE DE LA\tRAMPE\tTYPE\tDET_PRE",
  c!"LEXENTRY:\tRAMPE DU\tRAMPE\tTYPE\tDET_PRE",
  c!"LEXENTRY:\tRANCH\tRNCH\tTYPE\tDET_SUF",
  c!"LEXENTRY:\tRANCHES\tRNCH\tTYPE\tDET_SUF",
  c!"LEXENTRY:\tRANG\tRANG\tTYPE\tATT_PRE,DET_PRE",
  c!"LEXENTRY:\tRANG DE\tRANG\tTYPE\tDET_PRE",
  c!"LEXENTRY:\tRANG DE L'\tRANG\tTYPE\tATT_PRE,DET_PRE",
  c!"LEXENTRY:\tRANG DE LA\tRANG\tTYPE\tDET_PRE",
  c!"LEXENTRY:\tRANG DES\tRANG\tTYPE\tDET_PRE",
  c!"LEXENTRY:\tRANG DU\tRANG\tTYPE\tDET_PRE"]

/-- data/sample/canada.lex:1102-1151 -/
def entries22 : List Str := [
  c!"LEXENTRY:\tRAPID\tRPD\tTYPE\tDET_SUF",
  c!"LEXENTRY:\tRAPIDS\tRPDS\tTYPE\tDET_SUF",
  c!"LEXENTRY:\tRD\tRD\tTYPE\tDET_SUF",
  c!"LEXENTRY:\tRDG\tRDG\tTYPE\tDET_SUF",
  c!"LEXENTRY:\tRDGE\tRDG\tTYPE\tDET_SUF",
  c!"LEXENTRY:\tRDGS\tRDGS\tTYPE\tDET_SUF",
  c!"LEXENTRY:\tRDS\tRDS\tTYPE\tDET_SUF",
  c!"LEXENTRY:\tREMPART\tREMPART\tTYPE\tDET_PRE",
  c!"LEXENTRY:\tREMPART DES\tREMPART\tTYPE\tDET_PRE",
  c!"LEXENTRY:\tREMPART DU\tREMPART\tTYPE\tDET_PRE",
  c!"LEXENTRY:\tREST\tRST\tTYPE\tDET_SUF",
  c!"LEXENTRY:\tRESTAURANT\tRESTAURANT\tPLACEN\tDETACH",
  c!"LEXENTRY:\tRIDGE\tRDG\tTYPE\tDET_SUF",
  c!"LEXENTRY:\tRIDGES\tRDGS\tTYPE\tDET_SUF",
  c!"LEXENTRY:\tRIV\tRIV\tTYPE\tDET_SUF",
  c!"LEXENTRY:\tRIVER\tRIV\tTYPE\tDET_SUF",
  c!"LEXENTRY:\tRIVR\tRIV\tTYPE\tDET_SUF",
  c!"LEXENTRY:\tRNCH\tRNCH\tTYPE\tDET_SUF",
  c!"LEXENTRY:\tRNCHS\tRNCH\tTYPE\tDET_SUF",
  c!"LEXENTRY:\tROAD\tRD\tTYPE\tDET_SUF",
  c!"LEXENTRY:\tROADS\tRDS\tTYPE\tDET_SUF",
  c!"LEXENTRY:\tROCADE\tROCADE\tTYPE\tDET_PRE",
  c!"LEXENTRY:\tROCADE DE\tROCADE\tTYPE\tDET_PRE",
  c!"LEXENTRY:\tROCADE DE LA\tROCADE\tTYPE\tDET_PRE",
  c!"LEXENTRY:\tROND- P\tROND-POINT\tTYPE\tDET_PRE",
  c!"LEXENTRY:\tROND-POINT\tROND-POINT\tTYPE\tATT_PRE,DET_PRE",
  c!"LEXENTRY:\tROND-POINT D'\tROND-POINT\tTYPE\tATT_PRE,DET_PRE",
  c!"LEXENTRY:\tROND-POINT DE\tROND-POINT\tTYPE\tDET_PRE",
  c!"LEXENTRY:\tROND-POINT DE L'\tROND-POINT\tTYPE\tATT_PRE,DET_PRE",
  c!"LEXENTRY:\tROND-POINT DE LA\tROND-POINT\tTYPE\tDET_PRE",
  c!"LEXENTRY:\tROND-POINT DU\tROND-POINT\tTYPE\tDET_PRE",
  c!"LEXENTRY:\tROTONDE\tROTONDE\tTYPE\tATT_PRE,DET_PRE",
  c!"LEXENTRY:\tROTONDE D'\tROTONDE\tTYPE\tATT_PRE,DET_PRE",
  c!"LEXENTRY:\tROTONDE DE LA\tROTONDE\tTYPE\tDET_PRE",
  c!"LEXENTRY:\tROUTE\tRTE\tTYPE\tDET_PRE,DET_SUF",
  c!"LEXENTRY:\tROUTE\tROUTE\tTYPE\tATT_PRE,DET_PRE",
  c!"LEXENTRY:\tROUTE AU\tROUTE\tTYPE\tDET_PRE",
  c!"LEXENTRY:\tROUTE AUX\tROUTE\tTYPE\tDET_PRE",
  c!"LEXENTRY:\tROUTE D'\tROUTE\tTYPE\tATT_PRE,DET_PRE",
  c!"LEXENTRY:\tROUTE DE\tROUTE\tTYPE\tDET_PRE",
  c!"LEXENTRY:\tROUTE DE L'\tROUTE\tTYPE\tATT_PRE,DET_PRE",
  c!"LEXENTRY:\tROUTE DE LA\tROUTE\tTYPE\tDET_PRE",
  c!"LEXENTRY:\tROUTE DES\tROUTE\tTYPE\tDET_PRE",
  c!"LEXENTRY:\tROUTE DU\tROUTE\tTYPE\tDET_PRE",
  c!"LEXENTRY:\tROUTE FORESTIÈRE\tROUTE FORESTIÈRE\tTYPE\tDET_PRE",
  c!"LEXENTRY:\tROUTE FORESTIÈRE D'\tROUTE FORESTIÈRE\tTYPE\tDET_PRE",
  c!"LEXENTRY:\tROUTE FORESTIÈRE DE\tROUTE FORESTIÈRE\tTYPE\tDET_PRE",
  c!"LEXENTRY:\tROUTE FORESTIÈRE DE L'\tROUTE FORESTIÈRE\tTYPE\tDET_PRE",
  c!"LEXENTRY:\tROUTE FORESTIÈRE DE LA\tROUTE FORESTIÈRE\tTYPE\tDET_PRE",
  c!"LEXENTRY:\tROUTE FORESTIÈRE DES\tROUTE FORESTIÈRE\tTYPE\tDET_PRE"]

/-- data/sample/canada.lex:1152-1201 -/
def entries23 : List Str := [
  c!"LEXENTRY:\tROUTE FORESTIÈRE DU\tROUTE FORESTIÈRE\tTYPE\tDET_PRE",
  c!"LEXENTRY:\tROW\tROW\tTYPE\tDET_SUF",
  c!"LEXENTRY:\tRPD\tRPD\tTYPE\tDET_SUF",
  c!"LEXENTRY:\tRPDS\tRPDS\tTYPE\tDET_SUF",
  c!"LEXENTRY:\tRPT\tROND-POINT\tTYPE\tDET_PRE",
  c!"LEXENTRY:\tRPT.\tROND-POINT\tTYPE\tDET_PRE",
  c!"LEXENTRY:\tRST\tRST\tTYPE\tDET_SUF",
  c!"LEXENTRY:\tRT\tRTE\tTYPE\tDET_PRE,DET_SUF",
  c!"LEXENTRY:\tRT.\tRTE\tTYPE\tDET_PRE,DET_SUF",
  c!"LEXENTRY:\tRTE\tRTE\tTYPE\tDET_PRE,DET_SUF",
  c!"LEXENTRY:\tRTE\tROUTE\tTYPE\tDET_PRE",
  c!"LEXENTRY:\tRTE.\tROUTE\tTYPE\tDET_PRE",
  c!"LEXENTRY:\tRUE\tRUE\tTYPE\tATT_PRE,DET_PRE,DET_SUF",
  c!"LEXENTRY:\tRUE AU\tRUE\tTYPE\tDET_PRE",
  c!"LEXENTRY:\tRUE AUX\tRUE\tTYPE\tDET_PRE",
  c!"LEXENTRY:\tRUE D'\tRUE\tTYPE\tATT_PRE,DET_PRE",
  c!"LEXENTRY:\tRUE DE\tRUE\tTYPE\tDET_PRE",
  c!"LEXENTRY:\tRUE DE L'\tRUE\tTYPE\tATT_PRE,DET_PRE",
  c!"LEXENTRY:\tRUE DE LA\tRUE\tTYPE\tDET_PRE",
  c!"LEXENTRY:\tRUE DES\tRUE\tTYPE\tDET_PRE",
  c!"LEXENTRY:\tRUE DU\tRUE\tTYPE\tDET_PRE",
  c!"LEXENTRY:\tRUE L'\tRUE\tTYPE\tATT_PRE,DET_PRE",
  c!"LEXENTRY:\tRUE LA\tRUE\tTYPE\tDET_PRE",
  c!"LEXENTRY:\tRUE LE\tRUE\tTYPE\tDET_PRE",
  c!"LEXENTRY:\tRUE LES\tRUE\tTYPE\tDET_PRE",
  c!"LEXENTRY:\tRUE À\tRUE\tTYPE\tDET_PRE",
  c!"LEXENTRY:\tRUELLE\tRUELLE\tTYPE\tATT_PRE,DET_PRE",
  c!"LEXENTRY:\tRUELLE AU\tRUELLE\tTYPE\tDET_PRE",
  c!"LEXENTRY:\tRUELLE AUX\tRUELLE\tTYPE\tDET_PRE",
  c!"LEXENTRY:\tRUELLE D'\tRUELLE\tTYPE\tDET_PRE",
  c!"LEXENTRY:\tRUELLE DE\tRUELLE\tTYPE\tDET_PRE",
  c!"LEXENTRY:\tRUELLE DE L'\tRUELLE\tTYPE\tATT_PRE,DET_PRE",
  c!"LEXENTRY:\tRUELLE DE LA\tRUELLE\tTYPE\tDET_PRE",
  c!"LEXENTRY:\tRUELLE DES\tRUELLE\tTYPE\tDET_PRE",
  c!"LEXENTRY:\tRUELLE DU\tRUELLE\tTYPE\tDET_PRE",
  c!"LEXENTRY:\tRUELLE À\tRUELLE\tTYPE\tDET_PRE",
  c!"LEXENTRY:\tRUN\tRUN\tTYPE\tDET_SUF",
  c!"LEXENTRY:\tRVR\tRIV\tTYPE\tDET_SUF",
  c!"LEXENTRY:\tRÉSIDENCE\tRÉSIDENCE\tTYPE\tDET_PRE",
  c!"LEXENTRY:\tRÉSIDENCE D'\tRÉSIDENCE\tTYPE\tDET_PRE",
  c!"LEXENTRY:\tRÉSIDENCE DE\tRÉSIDENCE\tTYPE\tDET_PRE",
  c!"LEXENTRY:\tRÉSIDENCE DE L'\tRÉSIDENCE\tTYPE\tDET_PRE",
  c!"LEXENTRY:\tRÉSIDENCE DE LA\tRÉSIDENCE\tTYPE\tDET_PRE",
  c!"LEXENTRY:\tRÉSIDENCE DES\tRÉSIDENCE\tTYPE\tDET_PRE",
  c!"LEXENTRY:\tRÉSIDENCE DU\tRÉSIDENCE\tTYPE\tDET_PRE",
  c!"LEXENTRY:\tRÉSIDENCE L'\tRÉSIDENCE\tTYPE\tDET_PRE",
  c!"LEXENTRY:\tRÉSIDENCE LA\tRÉSIDENCE\tTYPE\tDET_PRE",
  c!"LEXENTRY:\tRÉSIDENCE LE\tRÉSIDENCE\tTYPE\tDET_PRE",
  c!"LEXENTRY:\tRÉSIDENCE LES\tRÉSIDENCE\tTYPE\tDET_PRE",
  c!"LEXENTRY:\tS\tHAMEAU\tTYPE\tDET_PRE"]

/-- data/sample/canada.lex:1202-1251 -/
def entries24 : List Str := [
  c!"LEXENTRY:\tS\tROND-POINT\tTYPE\tDET_PRE",
  c!"LEXENTRY:\tS\tSENTIER\tTYPE\tDET_PRE",
  c!"LEXENTRY:\tS\tS\tDIRECT\tDETACH",
  c!"LEXENTRY:\tS.\tS\tDIRECT\tDETACH",
  c!"LEXENTRY:\tS.E.\tSE\tDIRECT\tDETACH",
  c!"LEXENTRY:\tS.W.\tSW\tDIRECT\tDETACH",
  c!"LEXENTRY:\tSAINT\tST\tWORD\tDETACH",
  c!"LEXENTRY:\tSASKATCHEWAN\tSASKATCHEWAN\tPROV\tDETACH",
  c!"LEXENTRY:\tSCHOOL\tSCHOOL\tPLACEN\tDETACH",
  c!"LEXENTRY:\tSE\tSE\tDIRECT\tDETACH",
  c!"LEXENTRY:\tSE.\tSE\tDIRECT\tDETACH",
  c!"LEXENTRY:\tSECOND\t2ND\tWORD,ORD\tDETACH",
  c!"LEXENTRY:\tSENTE\tSENTE\tTYPE\tATT_PRE,DET_PRE",
  c!"LEXENTRY:\tSENTE AU\tSENTE\tTYPE\tDET_PRE",
  c!"LEXENTRY:\tSENTE AUX\tSENTE\tTYPE\tDET_PRE",
  c!"LEXENTRY:\tSENTE D'\tSENTE\tTYPE\tATT_PRE,DET_PRE",
  c!"LEXENTRY:\tSENTE DE\tSENTE\tTYPE\tDET_PRE",
  c!"LEXENTRY:\tSENTE DE L'\tSENTE\tTYPE\tATT_PRE,DET_PRE",
  c!"LEXENTRY:\tSENTE DE LA\tSENTE\tTYPE\tDET_PRE",
  c!"LEXENTRY:\tSENTE DES\tSENTE\tTYPE\tDET_PRE",
  c!"LEXENTRY:\tSENTE DU\tSENTE\tTYPE\tDET_PRE",
  c!"LEXENTRY:\tSENTIER\tSENTIER\tTYPE\tATT_PRE,DET_PRE",
  c!"LEXENTRY:\tSENTIER AUX\tSENTIER\tTYPE\tDET_PRE",
  c!"LEXENTRY:\tSENTIER D'\tSENTIER\tTYPE\tATT_PRE,DET_PRE",
  c!"LEXENTRY:\tSENTIER DE\tSENTIER\tTYPE\tDET_PRE",
  c!"LEXENTRY:\tSENTIER DE L'\tSENTIER\tTYPE\tATT_PRE,DET_PRE",
  c!"LEXENTRY:\tSENTIER DE LA\tSENTIER\tTYPE\tDET_PRE",
  c!"LEXENTRY:\tSENTIER DES\tSENTIER\tTYPE\tDET_PRE",
  c!"LEXENTRY:\tSENTIER DU\tSENTIER\tTYPE\tDET_PRE",
  c!"LEXENTRY:\tSENTIERS\tSENTIER\tTYPE\tDET_PRE",
  c!"LEXENTRY:\tSENTIERS DES\tSENTIER\tTYPE\tDET_PRE",
  c!"LEXENTRY:\tSEPTIÈME\t7E\tWORD,ORD\tDETACH",
  c!"LEXENTRY:\tSEUIL\tSEUIL\tTYPE\tDET_PRE",
  c!"LEXENTRY:\tSEUIL DE\tSEUIL\tTYPE\tDET_PRE",
  c!"LEXENTRY:\tSEVEN\t7\tNUMBER\tDETACH",
  c!"LEXENTRY:\tSEVENTEEN\t17\tNUMBER\tDETACH",
  c!"LEXENTRY:\tSEVENTEENTH\t17TH\tWORD,ORD\tDETACH",
  c!"LEXENTRY:\tSEVENTH\t7TH\tWORD,ORD\tDETACH",
  c!"LEXENTRY:\tSEVENTIETH\t70TH\tWORD,ORD\tDETACH",
  c!"LEXENTRY:\tSEVENTY\t70\tNUMBER\tDETACH",
  c!"LEXENTRY:\tSHL\tSHL\tTYPE\tDET_SUF",
  c!"LEXENTRY:\tSHLS\tSHLS\tTYPE\tDET_SUF",
  c!"LEXENTRY:\tSHOAL\tSHL\tTYPE\tDET_SUF",
  c!"LEXENTRY:\tSHOALS\tSHLS\tTYPE\tDET_SUF",
  c!"LEXENTRY:\tSHOAR\tSHR\tTYPE\tDET_SUF",
  c!"LEXENTRY:\tSHOARS\tSHRS\tTYPE\tDET_SUF",
  c!"LEXENTRY:\tSHOP\tSHOP\tPLACEN\tDETACH",
  c!"LEXENTRY:\tSHORE\tSHR\tTYPE\tDET_SUF",
  c!"LEXENTRY:\tSHORES\tSHRS\tTYPE\tDET_SUF",
  c!"LEXENTRY:\tSHR\tSHR\tTYPE\tDET_SUF"]

/-- data/sample/canada.lex:1252-1301 -/
def entries25 : List Str := [
  c!"LEXENTRY:\tSHRS\tSHRS\tTYPE\tDET_SUF",
  c!"LEXENTRY:\tSITE\tSITE\tUNITH\tDETACH",
  c!"LEXENTRY:\tSIX\t6\tNUMBER\tDETACH",
  c!"LEXENTRY:\tSIXIÈME\t6E\tWORD,ORD\tDETACH",
  c!"LEXENTRY:\tSIXTEEN\t16\tNUMBER\tDETACH",
  c!"LEXENTRY:\tSIXTEENTH\t16TH\tWORD,ORD\tDETACH",
  c!"LEXENTRY:\tSIXTH\t6TH\tWORD,ORD\tDETACH",
  c!"LEXENTRY:\tSIXTIETH\t60TH\tWORD,ORD\tDETACH",
  c!"LEXENTRY:\tSIXTY\t60\tNUMBER\tDETACH",
  c!"LEXENTRY:\tSK\tSASKATCHEWAN\tPROV\tDETACH",
  c!"LEXENTRY:\tSKWY\tSKWY\tTYPE\tDET_SUF",
  c!"LEXENTRY:\tSKYWAY\tSKWY\tTYPE\tDET_SUF",
  c!"LEXENTRY:\tSMT\tSMT\tTYPE\tDET_SUF",
  c!"LEXENTRY:\tSO\tSO\tDIRECT\tDETACH",
  c!"LEXENTRY:\tSOUTH\tS\tDIRECT\tDETACH",
  c!"LEXENTRY:\tSOUTHEAST\tSE\tDIRECT\tDETACH",
  c!"LEXENTRY:\tSOUTHWEST\tSW\tDIRECT\tDETACH",
  c!"LEXENTRY:\tSPG\tSPG\tTYPE\tDET_SUF",
  c!"LEXENTRY:\tSPGS\tSPGS\tTYPE\tDET_SUF",
  c!"LEXENTRY:\tSPNG\tSPG\tTYPE\tDET_SUF",
  c!"LEXENTRY:\tSPNGS\tSPGS\tTYPE\tDET_SUF",
  c!"LEXENTRY:\tSPRING\tSPG\tTYPE\tDET_SUF",
  c!"LEXENTRY:\tSPRINGS\tSPGS\tTYPE\tDET_SUF",
  c!"LEXENTRY:\tSPRNG\tSPG\tTYPE\tDET_SUF",
  c!"LEXENTRY:\tSPRNGS\tSPGS\tTYPE\tDET_SUF",
  c!"LEXENTRY:\tSPUR\tSPUR\tTYPE\tDET_SUF",
  c!"LEXENTRY:\tSPURS\tSPUR\tTYPE\tDET_SUF",
  c!"LEXENTRY:\tSQ\tSQ\tTYPE\tDET_PRE,DET_SUF",
  c!"LEXENTRY:\tSQ\tSQUARE\tTYPE\tDET_PRE",
  c!"LEXENTRY:\tSQ.\tSQ\tTYPE\tDET_PRE,DET_SUF",
  c!"LEXENTRY:\tSQ.\tSQUARE\tTYPE\tDET_PRE",
  c!"LEXENTRY:\tSQR\tSQ\tTYPE\tDET_SUF",
  c!"LEXENTRY:\tSQRE\tSQ\tTYPE\tDET_SUF",
  c!"LEXENTRY:\tSQS\tSQS\tTYPE\tDET_SUF",
  c!"LEXENTRY:\tSQU\tSQ\tTYPE\tDET_SUF",
  c!"LEXENTRY:\tSQUARE\tSQ\tTYPE\tDET_PRE,DET_SUF",
  c!"LEXENTRY:\tSQUARE\tSQUARE\tTYPE\tATT_PRE,DET_PRE",
  c!"LEXENTRY:\tSQUARE AUX\tSQUARE\tTYPE\tDET_PRE",
  c!"LEXENTRY:\tSQUARE D'\tSQUARE\tTYPE\tATT_PRE,DET_PRE",
  c!"LEXENTRY:\tSQUARE DE\tSQUARE\tTYPE\tDET_PRE",
  c!"LEXENTRY:\tSQUARE DE L'\tSQUARE\tTYPE\tATT_PRE,DET_PRE",
  c!"LEXENTRY:\tSQUARE DE LA\tSQUARE\tTYPE\tDET_PRE",
  c!"LEXENTRY:\tSQUARE DES\tSQUARE\tTYPE\tDET_PRE",
  c!"LEXENTRY:\tSQUARE DU\tSQUARE\tTYPE\tDET_PRE",
  c!"LEXENTRY:\tSQUARE LES\tSQUARE\tTYPE\tDET_PRE",
  c!"LEXENTRY:\tSQUARES\tSQS\tTYPE\tDET_SUF",
  c!"LEXENTRY:\tST\tST\tTYPE,WORD\tDETACH,DET_SUF",
  c!"LEXENTRY:\tST.\tST\tTYPE\tDET_SUF",
  c!"LEXENTRY:\tSTADE\tSTADE\tPLACEN\tDETACH",
  c!"LEXENTRY:\tSTADIUM\tSTADIUM\tPLACEN\tDETACH"]

/-- data/sample/canada.lex:1302-1351 -/
def entries26 : List Str := [
  c!"LEXENTRY:\tSTATION\tSTATION\tPLACEN\tDETACH",
  c!"LEXENTRY:\tSTE\tSTE\tUNITH\tDETACH",
  c!"LEXENTRY:\tSTORE\tSTORE\tPLACEN\tDETACH",
  c!"LEXENTRY:\tSTR\tST\tTYPE\tDET_SUF",
  c!"LEXENTRY:\tSTRA\tSTRA\tTYPE\tDET_SUF",
  c!"LEXENTRY:\tSTRAV\tSTRA\tTYPE\tDET_SUF",
  c!"LEXENTRY:\tSTRAVE\tSTRA\tTYPE\tDET_SUF",
  c!"LEXENTRY:\tSTRAVEN\tSTRA\tTYPE\tDET_SUF",
  c!"LEXENTRY:\tSTRAVENUE\tSTRA\tTYPE\tDET_SUF",
  c!"LEXENTRY:\tSTRAVN\tSTRA\tTYPE\tDET_SUF",
  c!"LEXENTRY:\tSTREAM\tSTRM\tTYPE\tDET_SUF",
  c!"LEXENTRY:\tSTREET\tST\tTYPE\tDET_SUF",
  c!"LEXENTRY:\tSTREETS\tSTS\tTYPE\tDET_SUF",
  c!"LEXENTRY:\tSTREME\tSTRM\tTYPE\tDET_SUF",
  c!"LEXENTRY:\tSTRM\tSTRM\tTYPE\tDET_SUF",
  c!"LEXENTRY:\tSTRT\tST\tTYPE\tDET_SUF",
  c!"LEXENTRY:\tSTRVN\tSTRA\tTYPE\tDET_SUF",
  c!"LEXENTRY:\tSTRVNUE\tSTRA\tTYPE\tDET_SUF",
  c!"LEXENTRY:\tSTS\tSTS\tTYPE\tDET_SUF",
  c!"LEXENTRY:\tSUD\tS\tDIRECT\tDETACH",
  c!"LEXENTRY:\tSUD-EST\tSE\tDIRECT\tDETACH",
  c!"LEXENTRY:\tSUD-OUEST\tSO\tDIRECT\tDETACH",
  c!"LEXENTRY:\tSUITE\tSTE\tUNITH\tDETACH",
  c!"LEXENTRY:\tSUMIT\tSMT\tTYPE\tDET_SUF",
  c!"LEXENTRY:\tSUMITT\tSMT\tTYPE\tDET_SUF",
  c!"LEXENTRY:\tSUMMIT\tSMT\tTYPE\tDET_SUF",
  c!"LEXENTRY:\tSW\tSW\tDIRECT\tDETACH",
  c!"LEXENTRY:\tSW.\tSW\tDIRECT\tDETACH",
  c!"LEXENTRY:\tTEN\t10\tNUMBER\tDETACH",
  c!"LEXENTRY:\tTENTH\t10TH\tWORD,ORD\tDETACH",
  c!"LEXENTRY:\tTER\tTER\tTYPE\tDET_SUF",
  c!"LEXENTRY:\tTERR\tTER\tTYPE\tDET_SUF",
  c!"LEXENTRY:\tTERRACE\tTER\tTYPE\tDET_SUF",
  c!"LEXENTRY:\tTERRASSE\tTERRASSE\tTYPE\tATT_PRE,DET_PRE",
  c!"LEXENTRY:\tTERRASSE DE L'\tTERRASSE\tTYPE\tATT_PRE,DET_PRE",
  c!"LEXENTRY:\tTERRASSE DE LA \tTERRASSE\tTYPE\tDET_PRE",
  c!"LEXENTRY:\tTERRE-NEUVE\tNEWFOUNDLAND\tPROV\tDETACH",
  c!"LEXENTRY:\tTERRITOIRES DU NORD-OUEST\tNORTHWEST TERRITORIES\tPROV\tDETACH",
  c!"LEXENTRY:\tTHEATER\tTHEATER\tPLACEN\tDETACH",
  c!"LEXENTRY:\tTHEATRE\tTHEATRE\tPLACEN\tDETACH",
  c!"LEXENTRY:\tTHIRD\t3RD\tWORD,ORD\tDETACH",
  c!"LEXENTRY:\tTHIRTEEN\t13\tNUMBER\tDETACH",
  c!"LEXENTRY:\tTHIRTEENTH\t13TH\tWORD,ORD\tDETACH",
  c!"LEXENTRY:\tTHIRTIETH\t30TH\tWORD,ORD\tDETACH",
  c!"LEXENTRY:\tTHIRTY\t30\tNUMBER\tDETACH",
  c!"LEXENTRY:\tTHREE\t3\tNUMBER\tDETACH",
  c!"LEXENTRY:\tTHROUGHWAY\tTRWY\tTYPE\tDET_SUF",
  c!"LEXENTRY:\tTHÉÂTRE\tTHÉÂTRE\tPLACEN\tDETACH",
  c!"LEXENTRY:\tTPK\tTPKE\tTYPE\tDET_SUF",
  c!"LEXENTRY:\tTPKE\tTPKE\tTYPE\tDET_SUF"]

/-- data/sample/canada.lex:1352-1401 -/
def entries27 : List Str := [
  c!"LEXENTRY:\tTR\tTRL\tTYPE\tDET_SUF",
  c!"LEXENTRY:\tTRA\tTRAVERSE\tTYPE\tDET_PRE",
  c!"LEXENTRY:\tTRA.\tTRAVERSE\tTYPE\tDET_PRE",
  c!"LEXENTRY:\tTRACE\tTRCE\tTYPE\tDET_SUF",
  c!"LEXENTRY:\tTRACES\tTRCE\tTYPE\tDET_SUF",
  c!"LEXENTRY:\tTRACK\tTRAK\tTYPE\tDET_SUF",
  c!"LEXENTRY:\tTRACKS\tTRAK\tTYPE\tDET_SUF",
  c!"LEXENTRY:\tTRAFFICWAY\tTRFY\tTYPE\tDET_SUF",
  c!"LEXENTRY:\tTRAIL\tTRL\tTYPE\tDET_SUF",
  c!"LEXENTRY:\tTRAILS\tTRL\tTYPE\tDET_SUF",
  c!"LEXENTRY:\tTRAK\tTRAK\tTYPE\tDET_SUF",
  c!"LEXENTRY:\tTRAVERSE\tTRAVERSE\tTYPE\tATT_PRE,DET_PRE",
  c!"LEXENTRY:\tTRAVERSE DE\tTRAVERSE\tTYPE\tDET_PRE",
  c!"LEXENTRY:\tTRAVERSE DE L'\tTRAVERSE\tTYPE\tATT_PRE,DET_PRE",
  c!"LEXENTRY:\tTRAVERSE DE LA\tTRAVERSE\tTYPE\tDET_PRE",
  c!"LEXENTRY:\tTRAVERSE DU\tTRAVERSE\tTYPE\tDET_PRE",
  c!"LEXENTRY:\tTRCE\tTRCE\tTYPE\tDET_SUF",
  c!"LEXENTRY:\tTRFY\tTRFY\tTYPE\tDET_SUF",
  c!"LEXENTRY:\tTRIANGLE DE\tTRAVERSE\tTYPE\tDET_PRE",
  c!"LEXENTRY:\tTRK\tTRAK\tTYPE\tDET_SUF",
  c!"LEXENTRY:\tTRKS\tTRAK\tTYPE\tDET_SUF",
  c!"LEXENTRY:\tTRL\tTRL\tTYPE\tDET_SUF",
  c!"LEXENTRY:\tTRLS\tTRL\tTYPE\tDET_SUF",
  c!"LEXENTRY:\tTRNPK\tTPKE\tTYPE\tDET_SUF",
  c!"LEXENTRY:\tTROISIÈME\t3E\tWORD,ORD\tDETACH",
  c!"LEXENTRY:\tTRPK\tTPKE\tTYPE\tDET_SUF",
  c!"LEXENTRY:\tTRUST\tTRUST\tPLACEN\tDETACH",
  c!"LEXENTRY:\tTRWY\tTRWY\tTYPE\tDET_SUF",
  c!"LEXENTRY:\tTUNEL\tTUNL\tTYPE\tDET_SUF",
  c!"LEXENTRY:\tTUNL\tTUNL\tTYPE\tDET_SUF",
  c!"LEXENTRY:\tTUNLS\tTUNL\tTYPE\tDET_SUF",
  c!"LEXENTRY:\tTUNNEL\tTUNL\tTYPE\tDET_SUF",
  c!"LEXENTRY:\tTUNNELS\tTUNL\tTYPE\tDET_SUF",
  c!"LEXENTRY:\tTUNNL\tTUNL\tTYPE\tDET_SUF",
  c!"LEXENTRY:\tTURNPIKE\tTPKE\tTYPE\tDET_SUF",
  c!"LEXENTRY:\tTURNPK\tTPKE\tTYPE\tDET_SUF",
  c!"LEXENTRY:\tTWELFTH\t12TH\tWORD,ORD\tDETACH",
  c!"LEXENTRY:\tTWELVE\t12\tNUMBER\tDETACH",
  c!"LEXENTRY:\tTWENTIETH\t20TH\tWORD,ORD\tDETACH",
  c!"LEXENTRY:\tTWENTY\t20\tNUMBER\tDETACH",
  c!"LEXENTRY:\tTWO\t2\tNUMBER\tDETACH",
  c!"LEXENTRY:\tUN\tUN\tTYPE\tDET_SUF",
  c!"LEXENTRY:\tUNDERPASS\tUPAS\tTYPE\tDET_SUF",
  c!"LEXENTRY:\tUNION\tUN\tTYPE\tDET_SUF",
  c!"LEXENTRY:\tUNIONS\tUNS\tTYPE\tDET_SUF",
  c!"LEXENTRY:\tUNIT\tUNIT\tUNITH\tDETACH",
  c!"LEXENTRY:\tUNITÉ\tUNITÉ\tUNITH\tDETACH",
  c!"LEXENTRY:\tUNIVERSITAIRE\tUNIVERSITAIRE\tPLACEN\tDETACH",
  c!"LEXENTRY:\tUNIVERSITY\tUNIVERSITY\tPLACEN\tDETACH",
  c!"LEXENTRY:\tUNIVERSITÉ\tUNIVERSITÉ\tPLACEN\tDETACH"]

/-- data/sample/canada.lex:1402-1451 -/
def entries28 : List Str := [
  c!"LEXENTRY:\tUNS\tUNS\tTYPE\tDET_SUF",
  c!"LEXENTRY:\tUPAS\tUPAS\tTYPE\tDET_SUF",
  c!"LEXENTRY:\tVAL\tVALLÉE\tTYPE\tDET_PRE",
  c!"LEXENTRY:\tVALLEY\tVLY\tTYPE\tDET_SUF",
  c!"LEXENTRY:\tVALLEYS\tVLYS\tTYPE\tDET_SUF",
  c!"LEXENTRY:\tVALLY\tVLY\tTYPE\tDET_SUF",
  c!"LEXENTRY:\tVALLÉE\tVALLÉE\tTYPE\tDET_PRE",
  c!"LEXENTRY:\tVALLÉE AUX\tVALLÉE\tTYPE\tDET_PRE",
  c!"LEXENTRY:\tVALLÉE DES\tVALLÉE\tTYPE\tDET_PRE",
  c!"LEXENTRY:\tVDCT\tVIA\tTYPE\tDET_SUF",
  c!"LEXENTRY:\tVENELLE\tVENELLE\tTYPE\tDET_PRE",
  c!"LEXENTRY:\tVENELLE AU\tVENELLE\tTYPE\tDET_PRE",
  c!"LEXENTRY:\tVENELLE DE\tVENELLE\tTYPE\tDET_PRE",
  c!"LEXENTRY:\tVENELLE DES\tVENELLE\tTYPE\tDET_PRE",
  c!"LEXENTRY:\tVENELLE DU\tVENELLE\tTYPE\tDET_PRE",
  c!"LEXENTRY:\tVIA\tVIA\tTYPE\tDET_SUF",
  c!"LEXENTRY:\tVIADCT\tVIA\tTYPE\tDET_SUF",
  c!"LEXENTRY:\tVIADUCT\tVIA\tTYPE\tDET_SUF",
  c!"LEXENTRY:\tVIEILLE ROUTE\tVIEILLE ROUTE\tTYPE\tDET_PRE",
  c!"LEXENTRY:\tVIEILLE ROUTE DE \tVIEILLE ROUTE\tTYPE\tDET_PRE",
  c!"LEXENTRY:\tVIEILLE RUE\tVIEILLE RUE\tTYPE\tDET_PRE",
  c!"LEXENTRY:\tVIEILLE RUE AUX\tVIEILLE RUE\tTYPE\tDET_PRE",
  c!"LEXENTRY:\tVIEUX CHEMIN\tVIEUX CHEMIN\tTYPE\tDET_PRE",
  c!"LEXENTRY:\tVIEUX CHEMIN DE\tVIEUX CHEMIN\tTYPE\tDET_PRE",
  c!"LEXENTRY:\tVIEW\tVW\tTYPE\tDET_SUF",
  c!"LEXENTRY:\tVIEWS\tVWS\tTYPE\tDET_SUF",
  c!"LEXENTRY:\tVILL\tVLG\tTYPE\tDET_SUF",
  c!"LEXENTRY:\tVILLA\tVILLA\tTYPE\tATT_PRE,DET_PRE",
  c!"LEXENTRY:\tVILLA D'\tVILLA\tTYPE\tATT_PRE,DET_PRE",
  c!"LEXENTRY:\tVILLA DE\tVILLA\tTYPE\tDET_PRE",
  c!"LEXENTRY:\tVILLA DE L'\tVILLA\tTYPE\tATT_PRE,DET_PRE",
  c!"LEXENTRY:\tVILLA DE LA\tVILLA\tTYPE\tDET_PRE",
  c!"LEXENTRY:\tVILLA DES\tVILLA\tTYPE\tDET_PRE",
  c!"LEXENTRY:\tVILLA DU\tVILLA\tTYPE\tDET_PRE",
  c!"LEXENTRY:\tVILLA LES\tVILLA\tTYPE\tDET_PRE",
  c!"LEXENTRY:\tVILLAG\tVLG\tTYPE\tDET_SUF",
  c!"LEXENTRY:\tVILLAGE\tVLG\tTYPE\tDET_SUF",
  c!"LEXENTRY:\tVILLAGE\tVILLAGE\tTYPE\tDET_PRE",
  c!"LEXENTRY:\tVILLAGE DE\tVILLAGE\tTYPE\tDET_PRE",
  c!"LEXENTRY:\tVILLAGE DES\tVILLAGE\tTYPE\tDET_PRE",
  c!"LEXENTRY:\tVILLAGES\tVLGS\tTYPE\tDET_SUF",
  c!"LEXENTRY:\tVILLAS\tVILLAS\tTYPE\tDET_PRE",
  c!"LEXENTRY:\tVILLAS D'\tVILLAS\tTYPE\tDET_PRE",
  c!"LEXENTRY:\tVILLE\tVL\tTYPE\tDET_SUF",
  c!"LEXENTRY:\tVILLE DE\tVILLE DE\tTYPE\tDET_PRE",
  c!"LEXENTRY:\tVILLG\tVLG\tTYPE\tDET_SUF",
  c!"LEXENTRY:\tVILLIAGE\tVLG\tTYPE\tDET_SUF",
  c!"LEXENTRY:\tVIS\tVIS\tTYPE\tDET_SUF",
  c!"LEXENTRY:\tVIST\tVIS\tTYPE\tDET_SUF",
  c!"LEXENTRY:\tVISTA\tVIS\tTYPE\tDET_SUF"]

/-- data/sample/canada.lex:1452-1501 -/
def entries29 : List Str := [
  c!"LEXENTRY:\tVL\tVL\tTYPE\tDET_SUF",
  c!"LEXENTRY:\tVLG\tVLG\tTYPE\tDET_SUF",
  c!"LEXENTRY:\tVLGS\tVLGS\tTYPE\tDET_SUF",
  c!"LEXENTRY:\tVLLY\tVLY\tTYPE\tDET_SUF",
  c!"LEXENTRY:\tVLY\tVLY\tTYPE\tDET_SUF",
  c!"LEXENTRY:\tVLYS\tVLYS\tTYPE\tDET_SUF",
  c!"LEXENTRY:\tVOIE\tVOIE\tTYPE\tATT_PRE,DET_PRE",
  c!"LEXENTRY:\tVOIE AU\tVOIE\tTYPE\tDET_PRE",
  c!"LEXENTRY:\tVOIE AUX\tVOIE\tTYPE\tDET_PRE",
  c!"LEXENTRY:\tVOIE D'\tVOIE\tTYPE\tATT_PRE,DET_PRE",
  c!"LEXENTRY:\tVOIE DE\tVOIE\tTYPE\tDET_PRE",
  c!"LEXENTRY:\tVOIE DE L'\tVOIE\tTYPE\tATT_PRE,DET_PRE",
  c!"LEXENTRY:\tVOIE DE LA\tVOIE\tTYPE\tDET_PRE",
  c!"LEXENTRY:\tVOIE DES\tVOIE\tTYPE\tDET_PRE",
  c!"LEXENTRY:\tVOIE DU\tVOIE\tTYPE\tDET_PRE",
  c!"LEXENTRY:\tVOIRIE\tVOIRIE\tTYPE\tDET_PRE",
  c!"LEXENTRY:\tVOIRIE DE LA\tVOIRIE\tTYPE\tDET_PRE",
  c!"LEXENTRY:\tVOIRIE DES\tVOIRIE\tTYPE\tDET_PRE",
  c!"LEXENTRY:\tVST\tVIS\tTYPE\tDET_SUF",
  c!"LEXENTRY:\tVSTA\tVIS\tTYPE\tDET_SUF",
  c!"LEXENTRY:\tVW\tVW\tTYPE\tDET_SUF",
  c!"LEXENTRY:\tVWS\tVWS\tTYPE\tDET_SUF",
  c!"LEXENTRY:\tW\tW\tDIRECT\tDETACH",
  c!"LEXENTRY:\tW.\tW\tDIRECT\tDETACH",
  c!"LEXENTRY:\tWALK\tWALK\tTYPE\tDET_SUF",
  c!"LEXENTRY:\tWALKS\tWALK\tTYPE\tDET_SUF",
  c!"LEXENTRY:\tWALL\tWALL\tTYPE\tDET_SUF",
  c!"LEXENTRY:\tWAY\tWAY\tTYPE\tDET_SUF",
  c!"LEXENTRY:\tWAYS\tWAYS\tTYPE\tDET_SUF",
  c!"LEXENTRY:\tWELL\tWL\tTYPE\tDET_SUF",
  c!"LEXENTRY:\tWELLS\tWLS\tTYPE\tDET_SUF",
  c!"LEXENTRY:\tWEST\tW\tDIRECT\tDETACH",
  c!"LEXENTRY:\tWL\tWL\tTYPE\tDET_SUF",
  c!"LEXENTRY:\tWLS\tWLS\tTYPE\tDET_SUF",
  c!"LEXENTRY:\tWY\tWAY\tTYPE\tDET_SUF",
  c!"LEXENTRY:\tXING\tXING\tTYPE\tDET_SUF",
  c!"LEXENTRY:\tXRD\tXRD\tTYPE\tDET_SUF",
  c!"LEXENTRY:\tYT\tYUKON\tPROV\tDETACH",
  c!"LEXENTRY:\tÉCHANGEUR\tÉCHANGEUR\tTYPE\tDET_PRE",
  c!"LEXENTRY:\tÉCHANGEUR D'\tÉCHANGEUR\tTYPE\tDET_PRE",
  c!"LEXENTRY:\tÉCHANGEUR DE\tÉCHANGEUR\tTYPE\tDET_PRE",
  c!"LEXENTRY:\tÉCHANGEUR DE LA\tÉCHANGEUR\tTYPE\tDET_PRE",
  c!"LEXENTRY:\tÉCHANGEUR DES\tÉCHANGEUR\tTYPE\tDET_PRE",
  c!"LEXENTRY:\tÉCOLE\tÉCOLE\tPLACEN\tDETACH",
  c!"LEXENTRY:\tÉTOILE\tÉTOILE\tTYPE\tDET_PRE",
  c!"LEXENTRY:\tÉTOILE D'\tÉTOILE\tTYPE\tDET_PRE",
  c!"LEXENTRY:\tÉTOILE DE\tÉTOILE\tTYPE\tDET_PRE",
  c!"LEXENTRY:\tÉTOILE DE LA\tÉTOILE\tTYPE\tDET_PRE",
  c!"LEXENTRY:\tÉTOILE DES\tÉTOILE\tTYPE\tDET_PRE",
  c!"LEXENTRY:\tÉTOILE DU\tÉTOILE\tTYPE\tDET_PRE"]

/-- data/sample/canada.lex:1502-1504 -/
def entries30 : List Str := [
  c!"LEXENTRY:\tÎLE\tÎLE\tTYPE\tDET_PRE",
  c!"LEXENTRY:\tÎLE DE LA\tÎLE\tTYPE\tDET_PRE",
  c!"LEXENTRY:\tÎLE-DU-PRINCE-ÉDOUARD\tPRINCE EDWARD ISLAND\tPROV\tDETACH"]

/-- The text, and what is claimed of it. -/
def lexicon : LexSample where
  header := c!"LEXICON:\tlex-canada.txt\tFRE\tfr_CA"
  body := entries0 ++ entries1 ++ entries2 ++ entries3 ++ entries4 ++ entries5 ++ entries6 ++ entries7 ++ entries8
     ++ entries9 ++ entries10 ++ entries11 ++ entries12 ++ entries13 ++ entries14 ++ entries15 ++ entries16
     ++ entries17 ++ entries18 ++ entries19 ++ entries20 ++ entries21 ++ entries22 ++ entries23 ++ entries24
     ++ entries25 ++ entries26 ++ entries27 ++ entries28 ++ entries29 ++ entries30
  lang := .FRE
  locale := c!"fr_CA"
  classes := [
    .BOXH, .UNITH, .NUMBER, .WORD, .ORD, .PROV, .PLACEN, .TYPE, .NATION, .DIRECT, .ROAD]

set_option maxRecDepth 1000000 in
theorem lexicon_checked : checkLex lexicon [0, 7, 8, 10, 10, 75, 76, 79, 235, 465, 565] = true := by decide +kernel

/-- What of the grammar cannot match. -/
def pair : Pair where
  sample := sample
  lexicon := lexicon
  idle := [
    c!"BUILDT -> BLDNG -> 0.4",
    c!"QUALIF DIRECT -> QUALIF PREDIR -> 0.8",
    c!"DIRECT QUALIF -> PREDIR QUALIF -> 0.8",
    c!"QUALIF -> QUALIF -> 0.8",
    c!"DIRECT QUALIF -> SUFDIR QUALIF -> 0.8",
    c!"QUALIF DIRECT -> QUALIF SUFDIR -> 0.8",
    c!"DIRECT CITY -> CITY CITY -> 0.6",
    c!"CITY -> CITY -> 0.8"]
  null := [.building, .qual, .ruralroute]

/-- What shows it. -/
def pairCert : PairCert where
  dead := [.BUILDT, .CITY, .QUALIF]
  barren := []
  reach := [
    c!"ADDRESS", c!"micro", c!"macro", c!"housenumber", c!"street", c!"pobox", c!"unit", c!"city", c!"prov",
    c!"postal", c!"country", c!"prefixtype", c!"basename", c!"suffixtype", c!"prefix", c!"road", c!"suffix",
    c!"ptype", c!"stype"]

set_option maxRecDepth 100000 in
theorem pair_checked : checkPair pair pairCert = true := by decide +kernel

end AS.Sample.Canada
