import Verif.Lemmas.LexCheck
import Verif.Lemmas.PairCheck
import Verif.Sample.Belgium
/-
The lexicon data/sample/belgium.lex (all 802 lines), and what of belgium.gmr cannot match with it. Written by
tools/lexicons.py.
-/
namespace AS.Sample.Belgium

/-- data/sample/belgium.lex:2-51 -/
def entries0 : List Str := [
  c!"LEXENTRY:\t#\tAPT\tUNITH\tDETACH",
  c!"LEXENTRY:\t1\t1\tNUMBER\tDETACH",
  c!"LEXENTRY:\t10\t10\tNUMBER\tDETACH",
  c!"LEXENTRY:\t10TH\t10TH\tWORD,ORD\tDETACH",
  c!"LEXENTRY:\t11\t11\tNUMBER\tDETACH",
  c!"LEXENTRY:\t11TH\t11TH\tWORD,ORD\tDETACH",
  c!"LEXENTRY:\t12\t12\tNUMBER\tDETACH",
  c!"LEXENTRY:\t12TH\t12TH\tWORD,ORD\tDETACH",
  c!"LEXENTRY:\t13\t13\tNUMBER\tDETACH",
  c!"LEXENTRY:\t13TH\t13TH\tWORD,ORD\tDETACH",
  c!"LEXENTRY:\t14\t14\tNUMBER\tDETACH",
  c!"LEXENTRY:\t14TH\t14TH\tWORD,ORD\tDETACH",
  c!"LEXENTRY:\t15\t15\tNUMBER\tDETACH",
  c!"LEXENTRY:\t15TH\t15TH\tWORD,ORD\tDETACH",
  c!"LEXENTRY:\t16\t16\tNUMBER\tDETACH",
  c!"LEXENTRY:\t16TH\t16TH\tWORD,ORD\tDETACH",
  c!"LEXENTRY:\t17\t17\tNUMBER\tDETACH",
  c!"LEXENTRY:\t17TH\t17TH\tWORD,ORD\tDETACH",
  c!"LEXENTRY:\t18\t18\tNUMBER\tDETACH",
  c!"LEXENTRY:\t18TH\t18TH\tWORD,ORD\tDETACH",
  c!"LEXENTRY:\t19\t19\tNUMBER\tDETACH",
  c!"LEXENTRY:\t19TH\t19TH\tWORD,ORD\tDETACH",
  c!"LEXENTRY:\t1ST\t1ST\tWORD,ORD\tDETACH",
  c!"LEXENTRY:\t2\t2\tNUMBER\tDETACH",
  c!"LEXENTRY:\t20\t20\tNUMBER\tDETACH",
  c!"LEXENTRY:\t20TH\t20TH\tWORD,ORD\tDETACH",
  c!"LEXENTRY:\t2ND\t2ND\tWORD,ORD\tDETACH",
  c!"LEXENTRY:\t3\t3\tNUMBER\tDETACH",
  c!"LEXENTRY:\t30\t30\tNUMBER\tDETACH",
  c!"LEXENTRY:\t30TH\t30TH\tWORD,ORD\tDETACH",
  c!"LEXENTRY:\t3RD\t3RD\tWORD,ORD\tDETACH",
  c!"LEXENTRY:\t4\t4\tNUMBER\tDETACH",
  c!"LEXENTRY:\t40\t40\tNUMBER\tDETACH",
  c!"LEXENTRY:\t40TH\t40TH\tWORD,ORD\tDETACH",
  c!"LEXENTRY:\t4TH\t4TH\tWORD,ORD\tDETACH",
  c!"LEXENTRY:\t5\t5\tNUMBER\tDETACH",
  c!"LEXENTRY:\t50\t50\tNUMBER\tDETACH",
  c!"LEXENTRY:\t50TH\t50TH\tWORD,ORD\tDETACH",
  c!"LEXENTRY:\t5TH\t5TH\tWORD,ORD\tDETACH",
  c!"LEXENTRY:\t6\t6\tNUMBER\tDETACH",
  c!"LEXENTRY:\t60\t60\tNUMBER\tDETACH",
  c!"LEXENTRY:\t60TH\t60TH\tWORD,ORD\tDETACH",
  c!"LEXENTRY:\t6TH\t6TH\tWORD,ORD\tDETACH",
  c!"LEXENTRY:\t7\t7\tNUMBER\tDETACH",
  c!"LEXENTRY:\t70\t70\tNUMBER\tDETACH",
  c!"LEXENTRY:\t70TH\t70TH\tWORD,ORD\tDETACH",
  c!"LEXENTRY:\t7TH\t7TH\tWORD,ORD\tDETACH",
  c!"LEXENTRY:\t8\t8\tNUMBER\tDETACH",
  c!"LEXENTRY:\t80\t80\tNUMBER\tDETACH",
  c!"LEXENTRY:\t80TH\t80TH\tWORD,ORD\tDETACH"]

/-- data/sample/belgium.lex:52-101 -/
def entries1 : List Str := [
  c!"LEXENTRY:\t8TH\t8TH\tWORD,ORD\tDETACH",
  c!"LEXENTRY:\t9\t9\tNUMBER\tDETACH",
  c!"LEXENTRY:\t90\t90\tNUMBER\tDETACH",
  c!"LEXENTRY:\t90TH\t90TH\tWORD,ORD\tDETACH",
  c!"LEXENTRY:\t9TH\t9TH\tWORD,ORD\tDETACH",
  c!"LEXENTRY:\tA.\tANDRÉ\tWORD\tDETACH",
  c!"LEXENTRY:\tACADEMIE\tACADEMIE\tPLACEN\tDETACH",
  c!"LEXENTRY:\tAEROPORT\tAEROPORT\tPLACEN\tDETACH",
  c!"LEXENTRY:\tAFZETGEBIED\tAFZETGEBIED\tPLACEN\tDETACH",
  c!"LEXENTRY:\tAGENTUUR\tAGENTUUR\tPLACEN\tDETACH",
  c!"LEXENTRY:\tAKKER\tAKKER\tTYPE\tATT_SUF,DET_SUF",
  c!"LEXENTRY:\tAKKERS\tAKKERS\tTYPE\tATT_SUF,DET_SUF",
  c!"LEXENTRY:\tALLEE\tALLEE\tTYPE\tATT_SUF,DET_SUF",
  c!"LEXENTRY:\tALLÉE\tALLÉE\tTYPE\tDET_PRE",
  c!"LEXENTRY:\tALLÉE D'\tALLÉE D'\tTYPE\tATT_PRE",
  c!"LEXENTRY:\tALLÉE DE\tALLÉE DE\tTYPE\tDET_PRE",
  c!"LEXENTRY:\tALLÉE DE L'\tALLÉE DE L'\tTYPE\tATT_PRE",
  c!"LEXENTRY:\tALLÉE DE LA\tALLÉE DE LA\tTYPE\tDET_PRE",
  c!"LEXENTRY:\tALLÉE DES\tALLÉE DES\tTYPE\tDET_PRE",
  c!"LEXENTRY:\tALLÉE DU\tALLÉE DU\tTYPE\tDET_PRE",
  c!"LEXENTRY:\tALLÉE LE\tALLÉE LE\tTYPE\tDET_PRE",
  c!"LEXENTRY:\tALLÉES DES\tALLÉES DES\tTYPE\tDET_PRE",
  c!"LEXENTRY:\tANCIEN CHEMIN\tANCIEN CHEMIN\tTYPE\tDET_PRE",
  c!"LEXENTRY:\tANCIEN CHEMIN DE\tANCIEN CHEMIN DE\tTYPE\tDET_PRE",
  c!"LEXENTRY:\tANCIENNE ROUTE DE\tANCIENNE ROUTE DE\tTYPE\tDET_PRE",
  c!"LEXENTRY:\tANDRÉ\tANDRÉ\tWORD\tDETACH",
  c!"LEXENTRY:\tAPARTMENT\tAPT\tUNITH\tDETACH",
  c!"LEXENTRY:\tAPT\tAPT\tUNITH\tDETACH",
  c!"LEXENTRY:\tASBL\tASBL\tPLACEN\tDETACH",
  c!"LEXENTRY:\tASSOCIATION\tASSOCIATION\tPLACEN\tDETACH",
  c!"LEXENTRY:\tAUTOROUTE\tAUTOROUTE\tTYPE\tDET_PRE",
  c!"LEXENTRY:\tAVE\tAVENUE\tTYPE\tDET_PRE,DET_SUF",
  c!"LEXENTRY:\tAVENUE\tAVENUE\tTYPE\tDET_PRE,DET_SUF",
  c!"LEXENTRY:\tAVENUE D'\tAVENUE D'\tTYPE\tATT_PRE",
  c!"LEXENTRY:\tAVENUE DE\tAVENUE DE\tTYPE\tDET_PRE",
  c!"LEXENTRY:\tAVENUE DE L'\tAVENUE DE L'\tTYPE\tATT_PRE",
  c!"LEXENTRY:\tAVENUE DE LA\tAVENUE DE LA\tTYPE\tDET_PRE",
  c!"LEXENTRY:\tAVENUE DES\tAVENUE DES\tTYPE\tDET_PRE",
  c!"LEXENTRY:\tAVENUE DU\tAVENUE DU\tTYPE\tDET_PRE",
  c!"LEXENTRY:\tBAAN\tBAAN\tTYPE\tATT_SUF,DET_SUF",
  c!"LEXENTRY:\tBACH\tBACH\tTYPE\tATT_SUF,DET_SUF",
  c!"LEXENTRY:\tBAKKERIJ\tBAKKERIJ\tPLACEN\tDETACH",
  c!"LEXENTRY:\tBANK\tBANK\tPLACEN\tDETACH",
  c!"LEXENTRY:\tBANQUE\tBANQUE\tPLACEN\tDETACH",
  c!"LEXENTRY:\tBARRIÈRE D'\tBARRIÈRE D'\tTYPE\tATT_PRE",
  c!"LEXENTRY:\tBAZAAR\tBAZAAR\tPLACEN\tDETACH",
  c!"LEXENTRY:\tBE\tBELGIUM\tNATION\tDETACH",
  c!"LEXENTRY:\tBEEMD\tBEEMD\tTYPE\tATT_SUF",
  c!"LEXENTRY:\tBEL\tBELGIUM\tNATION\tDETACH",
  c!"LEXENTRY:\tBELGIUM\tBELGIUM\tNATION\tDETACH"]

/-- data/sample/belgium.lex:102-151 -/
def entries2 : List Str := [
  c!"LEXENTRY:\tBERG\tBERG\tTYPE\tATT_SUF,DET_SUF",
  c!"LEXENTRY:\tBERGE AU\tBERGE AU\tTYPE\tDET_PRE",
  c!"LEXENTRY:\tBERGWEG\tBERGWEG\tTYPE\tATT_SUF,DET_SUF",
  c!"LEXENTRY:\tBG\tBERG\tTYPE\tATT_SUF,DET_SUF",
  c!"LEXENTRY:\tBG.\tBERG\tTYPE\tATT_SUF",
  c!"LEXENTRY:\tBIBLIOTEEK\tBIBLIOTEEK\tPLACEN\tDETACH",
  c!"LEXENTRY:\tBIBLIOTHÈQUE\tBIBLIOTHÈQUE\tPLACEN\tDETACH",
  c!"LEXENTRY:\tBIOSCOOP\tBIOSCOOP\tPLACEN\tDETACH",
  c!"LEXENTRY:\tBLD\tBOULEVARD\tTYPE\tDET_PRE,DET_SUF",
  c!"LEXENTRY:\tBLDG\tBLDG\tUNITH\tDETACH",
  c!"LEXENTRY:\tBN\tBAAN\tTYPE\tATT_SUF,DET_SUF",
  c!"LEXENTRY:\tBN.\tBAAN\tTYPE\tATT_SUF",
  c!"LEXENTRY:\tBOEKERIJ\tBOEKERIJ\tPLACEN\tDETACH",
  c!"LEXENTRY:\tBOEKHANDEL\tBOEKHANDEL\tPLACEN\tDETACH",
  c!"LEXENTRY:\tBOITE\tBOITE\tUNITH\tDETACH",
  c!"LEXENTRY:\tBOITE POSTALE\tBOITE POSTALE\tBOXH\tDETACH",
  c!"LEXENTRY:\tBORG\tBORG\tTYPE\tATT_SUF",
  c!"LEXENTRY:\tBOUCLE DES\tBOUCLE DES\tTYPE\tDET_PRE",
  c!"LEXENTRY:\tBOUCLE DU\tBOUCLE DU\tTYPE\tDET_PRE",
  c!"LEXENTRY:\tBOULANGERIE\tBOULANGERIE\tPLACEN\tDETACH",
  c!"LEXENTRY:\tBOULEVARD\tBOULEVARD\tTYPE\tDET_PRE,DET_SUF",
  c!"LEXENTRY:\tBOULEVARD D'\tBOULEVARD D'\tTYPE\tATT_PRE",
  c!"LEXENTRY:\tBOULEVARD DE\tBOULEVARD DE\tTYPE\tDET_PRE",
  c!"LEXENTRY:\tBOULEVARD DE L'\tBOULEVARD DE L'\tTYPE\tATT_PRE",
  c!"LEXENTRY:\tBOULEVARD DE LA\tBOULEVARD DE LA\tTYPE\tDET_PRE",
  c!"LEXENTRY:\tBOULEVARD DES\tBOULEVARD DES\tTYPE\tDET_PRE",
  c!"LEXENTRY:\tBOULEVARD DU\tBOULEVARD DU\tTYPE\tDET_PRE",
  c!"LEXENTRY:\tBP\tBOITE POSTALE\tBOXH\tDETACH",
  c!"LEXENTRY:\tBRETELLE\tBRETELLE\tTYPE\tDET_PRE",
  c!"LEXENTRY:\tBROOK\tBROOK\tTYPE\tDET_SUF",
  c!"LEXENTRY:\tBRUCH\tBRUCH\tTYPE\tATT_SUF",
  c!"LEXENTRY:\tBRUG\tBRUG\tTYPE\tATT_SUF,DET_SUF",
  c!"LEXENTRY:\tBRUSELAS\tBRUSELAS\tCITY\tDETACH",
  c!"LEXENTRY:\tBRUSSEL\tBRUSSEL\tCITY\tDETACH",
  c!"LEXENTRY:\tBRUSSELLE\tBRUSSELLE\tCITY\tDETACH",
  c!"LEXENTRY:\tBRUSSELS\tBRUSSELS\tCITY\tDETACH",
  c!"LEXENTRY:\tBRUXELLES\tBRUXELLES\tCITY\tDETACH",
  c!"LEXENTRY:\tBRÜCKE\tBRÜCKE\tTYPE\tATT_SUF",
  c!"LEXENTRY:\tBRÜSSEL\tBRÜSSEL\tCITY\tDETACH",
  c!"LEXENTRY:\tBTE\tBTE\tUNITH\tDETACH",
  c!"LEXENTRY:\tBUILDING\tBLDG\tUNITH\tDETACH",
  c!"LEXENTRY:\tBUREAU\tBUREAU\tPLACEN\tDETACH",
  c!"LEXENTRY:\tBURG\tBURG\tTYPE\tATT_SUF",
  c!"LEXENTRY:\tBUS\tBUS\tUNITH\tDETACH",
  c!"LEXENTRY:\tBV\tBV\tPLACEN\tDETACH",
  c!"LEXENTRY:\tBVBA\tBVBA\tPLACEN\tDETACH",
  c!"LEXENTRY:\tCAFÉ\tCAFÉ\tPLACEN\tDETACH",
  c!"LEXENTRY:\tCARREFOUR\tCARREFOUR\tTYPE\tDET_PRE",
  c!"LEXENTRY:\tCARREFOUR DE\tCARREFOUR DE\tTYPE\tDET_PRE",
  c!"LEXENTRY:\tCARREFOUR DE L'\tCARREFOUR DE L'\tTYPE\tATT_PRE"]

/-- data/sample/belgium.lex:152-201 -/
def entries3 : List Str := [
  c!"LEXENTRY:\tCARREFOUR DE LA\tCARREFOUR DE LA\tTYPE\tDET_PRE",
  c!"LEXENTRY:\tCARREFOUR DES\tCARREFOUR DES\tTYPE\tDET_PRE",
  c!"LEXENTRY:\tCARREFOUR DU\tCARREFOUR DU\tTYPE\tDET_PRE",
  c!"LEXENTRY:\tCARRIÈRE\tCARRIÈRE\tTYPE\tDET_PRE",
  c!"LEXENTRY:\tCARRIÈRE D'\tCARRIÈRE D'\tTYPE\tATT_PRE",
  c!"LEXENTRY:\tCARRIÈRE DES\tCARRIÈRE DES\tTYPE\tDET_PRE",
  c!"LEXENTRY:\tCARRIÈRE DU\tCARRIÈRE DU\tTYPE\tDET_PRE",
  c!"LEXENTRY:\tCARRÉ\tCARRÉ\tTYPE\tDET_PRE",
  c!"LEXENTRY:\tCARRÉ DES\tCARRÉ DES\tTYPE\tDET_PRE",
  c!"LEXENTRY:\tCARRÉ DU\tCARRÉ DU\tTYPE\tDET_PRE",
  c!"LEXENTRY:\tCENTER\tCENTER\tPLACEN\tDETACH",
  c!"LEXENTRY:\tCENTRE\tCENTRE\tPLACEN\tDETACH",
  c!"LEXENTRY:\tCENTRUM\tCENTRUM\tPLACEN,TYPE\tATT_SUF,DETACH,DET_SUF",
  c!"LEXENTRY:\tCHAUSSEE\tCHAUSSEE\tTYPE\tATT_SUF",
  c!"LEXENTRY:\tCHAUSSÉE\tCHAUSSÉE\tTYPE\tDET_PRE",
  c!"LEXENTRY:\tCHAUSSÉE D'\tCHAUSSÉE D'\tTYPE\tATT_PRE",
  c!"LEXENTRY:\tCHAUSSÉE DE\tCHAUSSÉE DE\tTYPE\tDET_PRE",
  c!"LEXENTRY:\tCHAUSSÉE DE L'\tCHAUSSÉE DE L'\tTYPE\tATT_PRE",
  c!"LEXENTRY:\tCHAUSSÉE DE LA\tCHAUSSÉE DE LA\tTYPE\tDET_PRE",
  c!"LEXENTRY:\tCHAUSSÉE DES\tCHAUSSÉE DES\tTYPE\tDET_PRE",
  c!"LEXENTRY:\tCHAUSSÉE DU\tCHAUSSÉE DU\tTYPE\tDET_PRE",
  c!"LEXENTRY:\tCHEMIN\tCHEMIN\tTYPE\tDET_PRE",
  c!"LEXENTRY:\tCHEMIN AU\tCHEMIN AU\tTYPE\tDET_PRE",
  c!"LEXENTRY:\tCHEMIN AUX\tCHEMIN AUX\tTYPE\tDET_PRE",
  c!"LEXENTRY:\tCHEMIN D'\tCHEMIN D'\tTYPE\tATT_PRE",
  c!"LEXENTRY:\tCHEMIN DE\tCHEMIN DE\tTYPE\tDET_PRE",
  c!"LEXENTRY:\tCHEMIN DE L'\tCHEMIN DE L'\tTYPE\tATT_PRE",
  c!"LEXENTRY:\tCHEMIN DE LA\tCHEMIN DE LA\tTYPE\tDET_PRE",
  c!"LEXENTRY:\tCHEMIN DES\tCHEMIN DES\tTYPE\tDET_PRE",
  c!"LEXENTRY:\tCHEMIN DU\tCHEMIN DU\tTYPE\tDET_PRE",
  c!"LEXENTRY:\tCHEMIN LES\tCHEMIN LES\tTYPE\tDET_PRE",
  c!"LEXENTRY:\tCHEMIN À\tCHEMIN À\tTYPE\tDET_PRE",
  c!"LEXENTRY:\tCHÂTEAU\tCHÂTEAU\tPLACEN\tDETACH",
  c!"LEXENTRY:\tCINEMA\tCINEMA\tPLACEN\tDETACH",
  c!"LEXENTRY:\tCINÉMA\tCINÉMA\tPLACEN\tDETACH",
  c!"LEXENTRY:\tCITÉ\tCITÉ\tTYPE\tDET_PRE",
  c!"LEXENTRY:\tCITÉ AU\tCITÉ AU\tTYPE\tDET_PRE",
  c!"LEXENTRY:\tCITÉ D'\tCITÉ D'\tTYPE\tATT_PRE",
  c!"LEXENTRY:\tCITÉ DE\tCITÉ DE\tTYPE\tDET_PRE",
  c!"LEXENTRY:\tCITÉ DE L'\tCITÉ DE L'\tTYPE\tATT_PRE",
  c!"LEXENTRY:\tCITÉ DE LA\tCITÉ DE LA\tTYPE\tDET_PRE",
  c!"LEXENTRY:\tCITÉ DES\tCITÉ DES\tTYPE\tDET_PRE",
  c!"LEXENTRY:\tCITÉ DU\tCITÉ DU\tTYPE\tDET_PRE",
  c!"LEXENTRY:\tCLOS\tCLOS\tTYPE\tDET_PRE",
  c!"LEXENTRY:\tCLOS D'\tCLOS D'\tTYPE\tATT_PRE",
  c!"LEXENTRY:\tCLOS DE\tCLOS DE\tTYPE\tDET_PRE",
  c!"LEXENTRY:\tCLOS DE L'\tCLOS DE L'\tTYPE\tATT_PRE",
  c!"LEXENTRY:\tCLOS DE LA\tCLOS DE LA\tTYPE\tDET_PRE",
  c!"LEXENTRY:\tCLOS DES\tCLOS DES\tTYPE\tDET_PRE",
  c!"LEXENTRY:\tCLOS DU\tCLOS DU\tTYPE\tDET_PRE"]

/-- data/sample/belgium.lex:202-251 -/
def entries4 : List Str := [
  c!"LEXENTRY:\tCLOSERIE DE LA\tCLOSERIE DE LA\tTYPE\tDET_PRE",
  c!"LEXENTRY:\tCO\tCO\tPLACEN\tDETACH",
  c!"LEXENTRY:\tCOIN DE L'\tCOIN DE L'\tTYPE\tATT_PRE",
  c!"LEXENTRY:\tCOIN DES\tCOIN DES\tTYPE\tDET_PRE",
  c!"LEXENTRY:\tCOIN DU\tCOIN DU\tTYPE\tDET_PRE",
  c!"LEXENTRY:\tCOL DE\tCOL DE\tTYPE\tDET_PRE",
  c!"LEXENTRY:\tCOLLEGE\tCOLLEGE\tPLACEN\tDETACH",
  c!"LEXENTRY:\tCOLLÈGE\tCOLLÈGE\tPLACEN\tDETACH",
  c!"LEXENTRY:\tCOMPAGNIE\tCOMPAGNIE\tPLACEN\tDETACH",
  c!"LEXENTRY:\tCOMPANY\tCOMPANY\tPLACEN\tDETACH",
  c!"LEXENTRY:\tCONSERVATORIUM\tCONSERVATORIUM\tPLACEN\tDETACH",
  c!"LEXENTRY:\tCONTOUR DE L'\tCONTOUR DE L'\tTYPE\tATT_PRE",
  c!"LEXENTRY:\tCONTOUR DU\tCONTOUR DU\tTYPE\tDET_PRE",
  c!"LEXENTRY:\tCORNICHE\tCORNICHE\tTYPE\tDET_PRE",
  c!"LEXENTRY:\tCORNICHE D'\tCORNICHE D'\tTYPE\tATT_PRE",
  c!"LEXENTRY:\tCORNICHE DE LA\tCORNICHE DE LA\tTYPE\tDET_PRE",
  c!"LEXENTRY:\tCORON\tCORON\tTYPE\tDET_PRE",
  c!"LEXENTRY:\tCORON DES\tCORON DES\tTYPE\tDET_PRE",
  c!"LEXENTRY:\tCORON DU\tCORON DU\tTYPE\tDET_PRE",
  c!"LEXENTRY:\tCORP\tCORP\tPLACEN\tDETACH",
  c!"LEXENTRY:\tCORPORATIE\tCORPORATIE\tPLACEN\tDETACH",
  c!"LEXENTRY:\tCOTEAU D'\tCOTEAU D'\tTYPE\tATT_PRE",
  c!"LEXENTRY:\tCOUR\tCOUR\tTYPE\tDET_PRE",
  c!"LEXENTRY:\tCOUR D'\tCOUR D'\tTYPE\tATT_PRE",
  c!"LEXENTRY:\tCOUR DE\tCOUR DE\tTYPE\tDET_PRE",
  c!"LEXENTRY:\tCOUR DE L'\tCOUR DE L'\tTYPE\tATT_PRE",
  c!"LEXENTRY:\tCOUR DE LA\tCOUR DE LA\tTYPE\tDET_PRE",
  c!"LEXENTRY:\tCOUR DES\tCOUR DES\tTYPE\tDET_PRE",
  c!"LEXENTRY:\tCOUR DU\tCOUR DU\tTYPE\tDET_PRE",
  c!"LEXENTRY:\tCOURS\tCOURS\tTYPE\tDET_PRE",
  c!"LEXENTRY:\tCOURS D'\tCOURS D'\tTYPE\tATT_PRE",
  c!"LEXENTRY:\tCOURS DE\tCOURS DE\tTYPE\tDET_PRE",
  c!"LEXENTRY:\tCOURS DE L'\tCOURS DE L'\tTYPE\tATT_PRE",
  c!"LEXENTRY:\tCOURS DE LA\tCOURS DE LA\tTYPE\tDET_PRE",
  c!"LEXENTRY:\tCOURS DES\tCOURS DES\tTYPE\tDET_PRE",
  c!"LEXENTRY:\tCOURS DU\tCOURS DU\tTYPE\tDET_PRE",
  c!"LEXENTRY:\tCROIX\tCROIX\tTYPE\tDET_PRE",
  c!"LEXENTRY:\tCROIX DE\tCROIX DE\tTYPE\tDET_PRE",
  c!"LEXENTRY:\tCROIX DES\tCROIX DES\tTYPE\tDET_PRE",
  c!"LEXENTRY:\tCROIX DU\tCROIX DU\tTYPE\tDET_PRE",
  c!"LEXENTRY:\tCVA\tCVA\tPLACEN\tDETACH",
  c!"LEXENTRY:\tCÔTE\tCÔTE\tTYPE\tDET_PRE",
  c!"LEXENTRY:\tCÔTE DE\tCÔTE DE\tTYPE\tDET_PRE",
  c!"LEXENTRY:\tCÔTE DES\tCÔTE DES\tTYPE\tDET_PRE",
  c!"LEXENTRY:\tDAL\tDAL\tTYPE\tATT_SUF,DET_SUF",
  c!"LEXENTRY:\tDAM\tDAM\tTYPE\tATT_SUF,DET_SUF",
  c!"LEXENTRY:\tDAMM\tDAMM\tTYPE\tATT_SUF",
  c!"LEXENTRY:\tDANS\tDANS\tTYPE\tATT_SUF",
  c!"LEXENTRY:\tDIEP\tDIEP\tTYPE\tATT_SUF",
  c!"LEXENTRY:\tDIGUE DE\tDIGUE DE\tTYPE\tDET_PRE"]

/-- data/sample/belgium.lex:252-301 -/
def entries5 : List Str := [
  c!"LEXENTRY:\tDIGUE DES\tDIGUE DES\tTYPE\tDET_PRE",
  c!"LEXENTRY:\tDIGUE DU\tDIGUE DU\tTYPE\tDET_PRE",
  c!"LEXENTRY:\tDIJK\tDIJK\tTYPE\tATT_SUF,DET_SUF",
  c!"LEXENTRY:\tDOK\tDOK\tTYPE\tATT_SUF",
  c!"LEXENTRY:\tDOMAINE\tDOMAINE\tTYPE\tDET_PRE",
  c!"LEXENTRY:\tDOMAINE DE\tDOMAINE DE\tTYPE\tDET_PRE",
  c!"LEXENTRY:\tDOMAINE DE LA\tDOMAINE DE LA\tTYPE\tDET_PRE",
  c!"LEXENTRY:\tDOMAINE DES\tDOMAINE DES\tTYPE\tDET_PRE",
  c!"LEXENTRY:\tDOMAINE DU\tDOMAINE DU\tTYPE\tDET_PRE",
  c!"LEXENTRY:\tDOMEIN\tDOMEIN\tTYPE\tDET_SUF",
  c!"LEXENTRY:\tDONK\tDONK\tTYPE\tATT_SUF,DET_SUF",
  c!"LEXENTRY:\tDOORGANG\tDOORGANG\tTYPE\tATT_SUF",
  c!"LEXENTRY:\tDR\tDREEF\tTYPE\tATT_SUF,DET_SUF",
  c!"LEXENTRY:\tDREEF\tDREEF\tTYPE\tATT_SUF,DET_SUF",
  c!"LEXENTRY:\tDRÈVE\tDRÈVE\tTYPE\tDET_PRE",
  c!"LEXENTRY:\tDRÈVE AUX\tDRÈVE AUX\tTYPE\tDET_PRE",
  c!"LEXENTRY:\tDRÈVE D'\tDRÈVE D'\tTYPE\tATT_PRE",
  c!"LEXENTRY:\tDRÈVE DE\tDRÈVE DE\tTYPE\tDET_PRE",
  c!"LEXENTRY:\tDRÈVE DE L'\tDRÈVE DE L'\tTYPE\tATT_PRE",
  c!"LEXENTRY:\tDRÈVE DE LA\tDRÈVE DE LA\tTYPE\tDET_PRE",
  c!"LEXENTRY:\tDRÈVE DES\tDRÈVE DES\tTYPE\tDET_PRE",
  c!"LEXENTRY:\tDRÈVE DU\tDRÈVE DU\tTYPE\tDET_PRE",
  c!"LEXENTRY:\tDWARSSTRAAT\tDWARSSTRAAT\tTYPE\tATT_SUF,DET_SUF",
  c!"LEXENTRY:\tDWARSSTRAAT \tDWARSSTRAAT\tTYPE\tATT_SUF",
  c!"LEXENTRY:\tE\tE\tDIRECT\tDETACH",
  c!"LEXENTRY:\tEAST\tE\tDIRECT\tDETACH",
  c!"LEXENTRY:\tEENMANSZAAK\tEENMANSZAAK\tPLACEN\tDETACH",
  c!"LEXENTRY:\tEETHUIS\tEETHUIS\tPLACEN\tDETACH",
  c!"LEXENTRY:\tEIGHT\t8\tNUMBER\tDETACH",
  c!"LEXENTRY:\tEIGHTEEN\t18\tNUMBER\tDETACH",
  c!"LEXENTRY:\tEIGHTEENTH\t18TH\tWORD,ORD\tDETACH",
  c!"LEXENTRY:\tEIGHTH\t8TH\tWORD,ORD\tDETACH",
  c!"LEXENTRY:\tEIGHTIETH\t80TH\tWORD,ORD\tDETACH",
  c!"LEXENTRY:\tEIGHTY\t80\tNUMBER\tDETACH",
  c!"LEXENTRY:\tEIND\tEIND\tTYPE\tATT_SUF,DET_SUF",
  c!"LEXENTRY:\tEINDE\tEINDE\tTYPE\tATT_SUF,DET_SUF",
  c!"LEXENTRY:\tELEVEN\t11\tNUMBER\tDETACH",
  c!"LEXENTRY:\tELEVENTH\t11TH\tWORD,ORD\tDETACH",
  c!"LEXENTRY:\tENCLOS\tENCLOS\tTYPE\tDET_PRE",
  c!"LEXENTRY:\tENCLOS AUX\tENCLOS AUX\tTYPE\tDET_PRE",
  c!"LEXENTRY:\tENCLOS DE\tENCLOS DE\tTYPE\tDET_PRE",
  c!"LEXENTRY:\tENCLOS DE L'\tENCLOS DE L'\tTYPE\tATT_PRE",
  c!"LEXENTRY:\tENCLOS DES\tENCLOS DES\tTYPE\tDET_PRE",
  c!"LEXENTRY:\tENCLOS DU\tENCLOS DU\tTYPE\tDET_PRE",
  c!"LEXENTRY:\tERF\tERF\tTYPE\tATT_SUF,DET_SUF",
  c!"LEXENTRY:\tESCALIER DE LA\tESCALIER DE LA\tTYPE\tDET_PRE",
  c!"LEXENTRY:\tESCALIER DU\tESCALIER DU\tTYPE\tDET_PRE",
  c!"LEXENTRY:\tESPACE\tESPACE\tTYPE\tDET_PRE",
  c!"LEXENTRY:\tESPLANADE\tESPLANADE\tTYPE\tDET_PRE",
  c!"LEXENTRY:\tESPLANADE DE L'\tESPLANADE DE L'\tTYPE\tATT_PRE"]

/-- data/sample/belgium.lex:302-351 -/
def entries6 : List Str := [
  c!"LEXENTRY:\tESPLANADE DE LA\tESPLANADE DE LA\tTYPE\tDET_PRE",
  c!"LEXENTRY:\tESPLANADE DU\tESPLANADE DU\tTYPE\tDET_PRE",
  c!"LEXENTRY:\tFACULTÉ\tFACULTÉ\tPLACEN\tDETACH",
  c!"LEXENTRY:\tFAUBOURG\tFAUBOURG\tTYPE\tDET_PRE",
  c!"LEXENTRY:\tFAUBOURG D'\tFAUBOURG D'\tTYPE\tATT_PRE",
  c!"LEXENTRY:\tFAUBOURG DE\tFAUBOURG DE\tTYPE\tDET_PRE",
  c!"LEXENTRY:\tFAUBOURG DE LA\tFAUBOURG DE LA\tTYPE\tDET_PRE",
  c!"LEXENTRY:\tFAUBOURG DES\tFAUBOURG DES\tTYPE\tDET_PRE",
  c!"LEXENTRY:\tFAUBOURG DU\tFAUBOURG DU\tTYPE\tDET_PRE",
  c!"LEXENTRY:\tFELD\tFELD\tTYPE\tATT_SUF,DET_SUF",
  c!"LEXENTRY:\tFIFTEEN\t15\tNUMBER\tDETACH",
  c!"LEXENTRY:\tFIFTEENTH\t15TH\tWORD,ORD\tDETACH",
  c!"LEXENTRY:\tFIFTH\t5TH\tWORD,ORD\tDETACH",
  c!"LEXENTRY:\tFIFTIETH\t50TH\tWORD,ORD\tDETACH",
  c!"LEXENTRY:\tFIFTY\t50\tNUMBER\tDETACH",
  c!"LEXENTRY:\tFILMKUNST\tFILMKUNST\tPLACEN\tDETACH",
  c!"LEXENTRY:\tFIRMA\tFIRMA\tPLACEN\tDETACH",
  c!"LEXENTRY:\tFIRST\t1ST\tWORD,ORD\tDETACH",
  c!"LEXENTRY:\tFIVE\t5\tNUMBER\tDETACH",
  c!"LEXENTRY:\tFL\tFL\tUNITH\tDETACH",
  c!"LEXENTRY:\tFLOOR\tFL\tUNITH\tDETACH",
  c!"LEXENTRY:\tFORTIETH\t40TH\tWORD,ORD\tDETACH",
  c!"LEXENTRY:\tFORTY\t40\tNUMBER\tDETACH",
  c!"LEXENTRY:\tFOUR\t4\tNUMBER\tDETACH",
  c!"LEXENTRY:\tFOURTEEN\t14\tNUMBER\tDETACH",
  c!"LEXENTRY:\tFOURTEENTH\t14TH\tWORD,ORD\tDETACH",
  c!"LEXENTRY:\tFOUTH\t4TH\tWORD,ORD\tDETACH",
  c!"LEXENTRY:\tGAANDERIJ\tGAANDERIJ\tPLACEN\tDETACH",
  c!"LEXENTRY:\tGAARD\tGAARD\tTYPE\tATT_SUF,DET_SUF",
  c!"LEXENTRY:\tGAARDE\tGAARDE\tTYPE\tATT_SUF,DET_SUF",
  c!"LEXENTRY:\tGALERIE\tGALERIE\tPLACEN,TYPE\tDETACH,DET_PRE",
  c!"LEXENTRY:\tGALERIE D'\tGALERIE D'\tTYPE\tATT_PRE",
  c!"LEXENTRY:\tGALERIE DE\tGALERIE DE\tTYPE\tDET_PRE",
  c!"LEXENTRY:\tGALERIE DE L'\tGALERIE DE L'\tTYPE\tATT_PRE",
  c!"LEXENTRY:\tGALERIE DE LA\tGALERIE DE LA\tTYPE\tDET_PRE",
  c!"LEXENTRY:\tGALERIE DES\tGALERIE DES\tTYPE\tDET_PRE",
  c!"LEXENTRY:\tGALERIE DU\tGALERIE DU\tTYPE\tDET_PRE",
  c!"LEXENTRY:\tGALERIJ\tGALERIJ\tPLACEN,TYPE\tATT_SUF,DETACH",
  c!"LEXENTRY:\tGANG\tGANG\tTYPE\tATT_SUF",
  c!"LEXENTRY:\tGARE\tGARE\tPLACEN\tDETACH",
  c!"LEXENTRY:\tGASSE\tGASSE\tTYPE\tATT_SUF,DET_SUF",
  c!"LEXENTRY:\tGCV\tGCV\tPLACEN\tDETACH",
  c!"LEXENTRY:\tGENOOTSCHAP\tGENOOTSCHAP\tPLACEN\tDETACH",
  c!"LEXENTRY:\tGESTICHT\tGESTICHT\tPLACEN\tDETACH",
  c!"LEXENTRY:\tGEZELSCHAP\tGEZELSCHAP\tPLACEN\tDETACH",
  c!"LEXENTRY:\tGILDE\tGILDE\tPLACEN\tDETACH",
  c!"LEXENTRY:\tGRABEN\tGRABEN\tTYPE\tATT_SUF",
  c!"LEXENTRY:\tGRACHT\tGRACHT\tTYPE\tATT_SUF,DET_SUF",
  c!"LEXENTRY:\tGRANDE RUE\tGRANDE RUE\tTYPE\tDET_PRE",
  c!"LEXENTRY:\tGROEP\tGROEP\tPLACEN\tDETACH"]

/-- data/sample/belgium.lex:352-401 -/
def entries7 : List Str := [
  c!"LEXENTRY:\tGROUP\tGROUP\tPLACEN\tDETACH",
  c!"LEXENTRY:\tGROUPE\tGROUPE\tPLACEN\tDETACH",
  c!"LEXENTRY:\tGYMNASIUM\tGYMNASIUM\tPLACEN\tDETACH",
  c!"LEXENTRY:\tGÄSSCHEN\tGÄSSCHEN\tTYPE\tATT_SUF",
  c!"LEXENTRY:\tHAAG\tHAAG\tTYPE\tATT_SUF,DET_SUF",
  c!"LEXENTRY:\tHAFEN\tHAFEN\tTYPE\tATT_SUF",
  c!"LEXENTRY:\tHAGE\tHAGE\tTYPE\tATT_SUF,DET_SUF",
  c!"LEXENTRY:\tHAL\tHAL\tPLACEN\tDETACH",
  c!"LEXENTRY:\tHALL\tHALL\tPLACEN\tDETACH",
  c!"LEXENTRY:\tHAMEAU\tHAMEAU\tTYPE\tDET_PRE",
  c!"LEXENTRY:\tHAMEAU D'\tHAMEAU D'\tTYPE\tATT_PRE",
  c!"LEXENTRY:\tHAMEAU DE\tHAMEAU DE\tTYPE\tDET_PRE",
  c!"LEXENTRY:\tHAMEAU DE L'\tHAMEAU DE L'\tTYPE\tATT_PRE",
  c!"LEXENTRY:\tHAMEAU DE LA\tHAMEAU DE LA\tTYPE\tDET_PRE",
  c!"LEXENTRY:\tHAMEAU DES\tHAMEAU DES\tTYPE\tDET_PRE",
  c!"LEXENTRY:\tHAMEAU DU\tHAMEAU DU\tTYPE\tDET_PRE",
  c!"LEXENTRY:\tHAVEN\tHAVEN\tTYPE\tATT_SUF",
  c!"LEXENTRY:\tHEI\tHEI\tTYPE\tATT_SUF",
  c!"LEXENTRY:\tHEIDE\tHEIDE\tTYPE\tDET_SUF",
  c!"LEXENTRY:\tHELLING\tHELLING\tTYPE\tATT_SUF",
  c!"LEXENTRY:\tHEUVEL\tHEUVEL\tTYPE\tATT_SUF",
  c!"LEXENTRY:\tHOEK\tHOEK\tTYPE\tATT_SUF,DET_SUF",
  c!"LEXENTRY:\tHOF\tHOF\tTYPE\tATT_SUF,DET_SUF",
  c!"LEXENTRY:\tHORST\tHORST\tTYPE\tATT_SUF,DET_SUF",
  c!"LEXENTRY:\tHOSPITAAL\tHOSPITAAL\tPLACEN\tDETACH",
  c!"LEXENTRY:\tHOTEL\tHOTEL\tPLACEN\tDETACH",
  c!"LEXENTRY:\tHUIS\tHUIS\tPLACEN\tDETACH",
  c!"LEXENTRY:\tHÔPITAL\tHÔPITAL\tPLACEN\tDETACH",
  c!"LEXENTRY:\tHÔTEL\tHÔTEL\tPLACEN\tDETACH",
  c!"LEXENTRY:\tHÖHE\tHÖHE\tTYPE\tATT_SUF,DET_SUF",
  c!"LEXENTRY:\tIMP\tIMPASSE\tTYPE\tDET_PRE",
  c!"LEXENTRY:\tIMPASSE\tIMPASSE\tTYPE\tDET_PRE",
  c!"LEXENTRY:\tIMPASSE AUX\tIMPASSE AUX\tTYPE\tDET_PRE",
  c!"LEXENTRY:\tIMPASSE D'\tIMPASSE D'\tTYPE\tATT_PRE",
  c!"LEXENTRY:\tIMPASSE DE\tIMPASSE DE\tTYPE\tDET_PRE",
  c!"LEXENTRY:\tIMPASSE DE L'\tIMPASSE DE L'\tTYPE\tATT_PRE",
  c!"LEXENTRY:\tIMPASSE DE LA\tIMPASSE DE LA\tTYPE\tDET_PRE",
  c!"LEXENTRY:\tIMPASSE DES\tIMPASSE DES\tTYPE\tDET_PRE",
  c!"LEXENTRY:\tIMPASSE DU\tIMPASSE DU\tTYPE\tDET_PRE",
  c!"LEXENTRY:\tINRICHTING\tINRICHTING\tPLACEN\tDETACH",
  c!"LEXENTRY:\tINSTITUT\tINSTITUT\tPLACEN\tDETACH",
  c!"LEXENTRY:\tINSTITUUT\tINSTITUUT\tPLACEN\tDETACH",
  c!"LEXENTRY:\tJARDIN\tJARDIN\tPLACEN,TYPE\tDETACH,DET_PRE",
  c!"LEXENTRY:\tJARDIN DE\tJARDIN DE\tTYPE\tDET_PRE",
  c!"LEXENTRY:\tJARDIN DES\tJARDIN DES\tTYPE\tDET_PRE",
  c!"LEXENTRY:\tKAAI\tKAAI\tTYPE\tATT_SUF,DET_SUF",
  c!"LEXENTRY:\tKADE\tKADE\tTYPE\tATT_SUF,DET_SUF",
  c!"LEXENTRY:\tKAMP\tKAMP\tTYPE\tATT_SUF,DET_SUF",
  c!"LEXENTRY:\tKANAAL\tKANAAL\tTYPE\tATT_SUF,DET_SUF",
  c!"LEXENTRY:\tKINA\tKINA\tPLACEN\tDETACH"]

/-- data/sample/belgium.lex:402-451 -/
def entries8 : List Str := [
  c!"LEXENTRY:\tKINGDOM OF BELGIUM\tBELGIUM\tNATION\tDETACH",
  c!"LEXENTRY:\tKONINKRIJK BELGIË\tBELGIUM\tNATION\tDETACH",
  c!"LEXENTRY:\tKRUISPUNT\tKRUISPUNT\tTYPE\tDET_SUF",
  c!"LEXENTRY:\tKUNSTRICHTING\tKUNSTRICHTING\tPLACEN\tDETACH",
  c!"LEXENTRY:\tKÖNIGREICH BELGIEN\tBELGIUM\tNATION\tDETACH",
  c!"LEXENTRY:\tLAAN\tLAAN\tTYPE\tATT_SUF,DET_PRE,DET_SUF",
  c!"LEXENTRY:\tLAAN OP\tLAAN OP\tTYPE\tDET_PRE",
  c!"LEXENTRY:\tLABORATOIRE\tLABORATOIRE\tPLACEN\tDETACH",
  c!"LEXENTRY:\tLABORATORIUM\tLABORATORIUM\tPLACEN\tDETACH",
  c!"LEXENTRY:\tLEI\tLEI\tTYPE\tATT_SUF",
  c!"LEXENTRY:\tLES JARDINS DE\tLES JARDINS DE\tTYPE\tDET_PRE",
  c!"LEXENTRY:\tLES JARDINS DE L'\tLES JARDINS DE L'\tTYPE\tATT_PRE",
  c!"LEXENTRY:\tLEVÉE DE\tLEVÉE DE\tTYPE\tDET_PRE",
  c!"LEXENTRY:\tLIEU-DIT\tLIEU-DIT\tTYPE\tDET_PRE",
  c!"LEXENTRY:\tLN\tLAAN\tTYPE\tDET_PRE,DET_SUF",
  c!"LEXENTRY:\tLO\tLO\tTYPE\tATT_SUF",
  c!"LEXENTRY:\tLOOP\tLOOP\tTYPE\tATT_SUF",
  c!"LEXENTRY:\tLOTISSEMENT\tLOTISSEMENT\tTYPE\tDET_PRE",
  c!"LEXENTRY:\tLOTISSEMENT DE\tLOTISSEMENT DE\tTYPE\tDET_PRE",
  c!"LEXENTRY:\tLOTISSEMENT DES\tLOTISSEMENT DES\tTYPE\tDET_PRE",
  c!"LEXENTRY:\tLOTISSEMENT DU\tLOTISSEMENT DU\tTYPE\tDET_PRE",
  c!"LEXENTRY:\tLUCHTHAVEN\tLUCHTHAVEN\tPLACEN\tDETACH",
  c!"LEXENTRY:\tLYCÉE\tLYCÉE\tPLACEN\tDETACH",
  c!"LEXENTRY:\tMAATSCHAPPIJ\tMAATSCHAPPIJ\tPLACEN\tDETACH",
  c!"LEXENTRY:\tMAIL\tMAIL\tTYPE\tDET_PRE",
  c!"LEXENTRY:\tMAIL DE LA\tMAIL DE LA\tTYPE\tDET_PRE",
  c!"LEXENTRY:\tMANOIR\tMANOIR\tPLACEN\tDETACH",
  c!"LEXENTRY:\tMARCHÉ\tMARCHÉ\tPLACEN,TYPE\tDETACH,DET_PRE",
  c!"LEXENTRY:\tMARCHÉ AU\tMARCHÉ AU\tTYPE\tDET_PRE",
  c!"LEXENTRY:\tMARCHÉ AUX\tMARCHÉ AUX\tTYPE\tDET_PRE",
  c!"LEXENTRY:\tMARKT\tMARKT\tPLACEN,TYPE\tATT_SUF,DETACH,DET_SUF",
  c!"LEXENTRY:\tMKT\tMARKT\tTYPE\tATT_SUF",
  c!"LEXENTRY:\tMOLEN\tMOLEN\tTYPE\tATT_SUF,DET_SUF",
  c!"LEXENTRY:\tMONTÉE DU\tMONTÉE DU\tTYPE\tDET_PRE",
  c!"LEXENTRY:\tMUSEUM\tMUSEUM\tPLACEN\tDETACH",
  c!"LEXENTRY:\tMUSÉE\tMUSÉE\tPLACEN\tDETACH",
  c!"LEXENTRY:\tN\tN\tDIRECT\tDETACH",
  c!"LEXENTRY:\tNE\tNE\tDIRECT\tDETACH",
  c!"LEXENTRY:\tNINE\t9\tNUMBER\tDETACH",
  c!"LEXENTRY:\tNINETEEN\t19\tNUMBER\tDETACH",
  c!"LEXENTRY:\tNINETEENTH\t19TH\tWORD,ORD\tDETACH",
  c!"LEXENTRY:\tNINETIETH\t90TH\tWORD,ORD\tDETACH",
  c!"LEXENTRY:\tNINETY\t90\tNUMBER\tDETACH",
  c!"LEXENTRY:\tNINTH\t9TH\tWORD,ORD\tDETACH",
  c!"LEXENTRY:\tNORTH\tN\tDIRECT\tDETACH",
  c!"LEXENTRY:\tNORTHEAST\tNE\tDIRECT\tDETACH",
  c!"LEXENTRY:\tNORTHWEST\tNW\tDIRECT\tDETACH",
  c!"LEXENTRY:\tNOUVEAU CHEMIN\tNOUVEAU CHEMIN\tTYPE\tDET_PRE",
  c!"LEXENTRY:\tNOUVELLE ROUTE DE\tNOUVELLE ROUTE DE\tTYPE\tDET_PRE",
  c!"LEXENTRY:\tNV\tNV\tPLACEN\tDETACH"]

/-- data/sample/belgium.lex:452-501 -/
def entries9 : List Str := [
  c!"LEXENTRY:\tNW\tNW\tDIRECT\tDETACH",
  c!"LEXENTRY:\tONE\t1\tNUMBER\tDETACH",
  c!"LEXENTRY:\tOORD\tOORD\tTYPE\tATT_SUF",
  c!"LEXENTRY:\tPAD\tPAD\tTYPE\tATT_SUF,DET_SUF",
  c!"LEXENTRY:\tPARC\tPARC\tPLACEN,TYPE\tDETACH,DET_PRE",
  c!"LEXENTRY:\tPARC DE\tPARC DE\tTYPE\tDET_PRE",
  c!"LEXENTRY:\tPARC DE L'\tPARC DE L'\tTYPE\tATT_PRE",
  c!"LEXENTRY:\tPARC DE LA\tPARC DE LA\tTYPE\tDET_PRE",
  c!"LEXENTRY:\tPARC DES\tPARC DES\tTYPE\tDET_PRE",
  c!"LEXENTRY:\tPARC DU\tPARC DU\tTYPE\tDET_PRE",
  c!"LEXENTRY:\tPARK\tPARK\tTYPE\tATT_PRE,ATT_SUF,DET_PRE,DET_SUF",
  c!"LEXENTRY:\tPARVIS\tPARVIS\tTYPE\tDET_PRE",
  c!"LEXENTRY:\tPARVIS DE L'\tPARVIS DE L'\tTYPE\tATT_PRE",
  c!"LEXENTRY:\tPARVIS DE LA\tPARVIS DE LA\tTYPE\tDET_PRE",
  c!"LEXENTRY:\tPARVIS DES\tPARVIS DES\tTYPE\tDET_PRE",
  c!"LEXENTRY:\tPASSAGE\tPASSAGE\tTYPE\tATT_SUF,DET_PRE,DET_SUF",
  c!"LEXENTRY:\tPASSAGE DE\tPASSAGE DE\tTYPE\tDET_PRE",
  c!"LEXENTRY:\tPASSAGE DE LA\tPASSAGE DE LA\tTYPE\tDET_PRE",
  c!"LEXENTRY:\tPASSAGE DES\tPASSAGE DES\tTYPE\tDET_PRE",
  c!"LEXENTRY:\tPASSAGE DU\tPASSAGE DU\tTYPE\tDET_PRE",
  c!"LEXENTRY:\tPB\tPOSTBUS\tBOXH\tDETACH",
  c!"LEXENTRY:\tPETIT CHEMIN DE\tPETIT CHEMIN DE\tTYPE\tDET_PRE",
  c!"LEXENTRY:\tPETIT SENTIER\tPETIT SENTIER\tTYPE\tDET_PRE",
  c!"LEXENTRY:\tPETITE RUE\tPETITE RUE\tTYPE\tDET_PRE",
  c!"LEXENTRY:\tPETITE RUE AU\tPETITE RUE AU\tTYPE\tDET_PRE",
  c!"LEXENTRY:\tPETITE RUE DE\tPETITE RUE DE\tTYPE\tDET_PRE",
  c!"LEXENTRY:\tPETITE RUE DE L'\tPETITE RUE DE L'\tTYPE\tATT_PRE",
  c!"LEXENTRY:\tPETITE RUE DE LA\tPETITE RUE DE LA\tTYPE\tDET_PRE",
  c!"LEXENTRY:\tPETITE RUE DES\tPETITE RUE DES\tTYPE\tDET_PRE",
  c!"LEXENTRY:\tPETITE RUE DU\tPETITE RUE DU\tTYPE\tDET_PRE",
  c!"LEXENTRY:\tPETITE RUE L'\tPETITE RUE L'\tTYPE\tATT_PRE",
  c!"LEXENTRY:\tPF\tPOSTFACH\tBOXH\tDETACH",
  c!"LEXENTRY:\tPFAD\tPFAD\tTYPE\tATT_SUF",
  c!"LEXENTRY:\tPFUHL\tPFUHL\tTYPE\tDET_SUF",
  c!"LEXENTRY:\tPISTE\tPISTE\tTYPE\tDET_PRE",
  c!"LEXENTRY:\tPK\tPARK\tTYPE\tATT_SUF",
  c!"LEXENTRY:\tPLAATS\tPLAATS\tTYPE\tATT_SUF,DET_SUF",
  c!"LEXENTRY:\tPLACE\tPLACE\tTYPE\tDET_PRE",
  c!"LEXENTRY:\tPLACE AUX\tPLACE AUX\tTYPE\tDET_PRE",
  c!"LEXENTRY:\tPLACE D'\tPLACE D'\tTYPE\tATT_PRE",
  c!"LEXENTRY:\tPLACE DE\tPLACE DE\tTYPE\tDET_PRE",
  c!"LEXENTRY:\tPLACE DE L'\tPLACE DE L'\tTYPE\tATT_PRE",
  c!"LEXENTRY:\tPLACE DE LA\tPLACE DE LA\tTYPE\tDET_PRE",
  c!"LEXENTRY:\tPLACE DES\tPLACE DES\tTYPE\tDET_PRE",
  c!"LEXENTRY:\tPLACE DU\tPLACE DU\tTYPE\tDET_PRE",
  c!"LEXENTRY:\tPLACE L'\tPLACE L'\tTYPE\tATT_PRE",
  c!"LEXENTRY:\tPLACE À\tPLACE À\tTYPE\tDET_PRE",
  c!"LEXENTRY:\tPLACETTE\tPLACETTE\tTYPE\tDET_PRE",
  c!"LEXENTRY:\tPLACETTE AUX\tPLACETTE AUX\tTYPE\tDET_PRE",
  c!"LEXENTRY:\tPLAINE DE LA\tPLAINE DE LA\tTYPE\tDET_PRE"]

/-- data/sample/belgium.lex:502-551 -/
def entries10 : List Str := [
  c!"LEXENTRY:\tPLAINE DES\tPLAINE DES\tTYPE\tDET_PRE",
  c!"LEXENTRY:\tPLAINE DU\tPLAINE DU\tTYPE\tDET_PRE",
  c!"LEXENTRY:\tPLANTSOEN\tPLANTSOEN\tTYPE\tATT_SUF,DET_SUF",
  c!"LEXENTRY:\tPLATEAU\tPLATEAU\tTYPE\tDET_PRE",
  c!"LEXENTRY:\tPLATEAU DE\tPLATEAU DE\tTYPE\tDET_PRE",
  c!"LEXENTRY:\tPLATEAU DE L'\tPLATEAU DE L'\tTYPE\tATT_PRE",
  c!"LEXENTRY:\tPLATEAU DE LA\tPLATEAU DE LA\tTYPE\tDET_PRE",
  c!"LEXENTRY:\tPLATEAU DU\tPLATEAU DU\tTYPE\tDET_PRE",
  c!"LEXENTRY:\tPLATZ\tPLAATS\tTYPE\tATT_SUF",
  c!"LEXENTRY:\tPLATZ\tPLATZ\tTYPE\tATT_PRE,ATT_SUF,DET_SUF",
  c!"LEXENTRY:\tPLEIN\tPLEIN\tTYPE\tATT_PRE,ATT_SUF,DET_PRE,DET_SUF",
  c!"LEXENTRY:\tPONT\tPONT\tTYPE\tDET_PRE",
  c!"LEXENTRY:\tPONT AUX\tPONT AUX\tTYPE\tDET_PRE",
  c!"LEXENTRY:\tPONT D'\tPONT D'\tTYPE\tATT_PRE",
  c!"LEXENTRY:\tPONT DE\tPONT DE\tTYPE\tDET_PRE",
  c!"LEXENTRY:\tPONT DE L'\tPONT DE L'\tTYPE\tATT_PRE",
  c!"LEXENTRY:\tPONT DE LA\tPONT DE LA\tTYPE\tDET_PRE",
  c!"LEXENTRY:\tPONT DES\tPONT DES\tTYPE\tDET_PRE",
  c!"LEXENTRY:\tPONT DU\tPONT DU\tTYPE\tDET_PRE",
  c!"LEXENTRY:\tPONT À\tPONT À\tTYPE\tDET_PRE",
  c!"LEXENTRY:\tPOORT\tPOORT\tTYPE\tATT_SUF,DET_SUF",
  c!"LEXENTRY:\tPORTE\tPORTE\tTYPE\tDET_PRE",
  c!"LEXENTRY:\tPORTE D'\tPORTE D'\tTYPE\tATT_PRE",
  c!"LEXENTRY:\tPORTE DE\tPORTE DE\tTYPE\tDET_PRE",
  c!"LEXENTRY:\tPORTE DE L'\tPORTE DE L'\tTYPE\tATT_PRE",
  c!"LEXENTRY:\tPORTE DES\tPORTE DES\tTYPE\tDET_PRE",
  c!"LEXENTRY:\tPORTE DU\tPORTE DU\tTYPE\tDET_PRE",
  c!"LEXENTRY:\tPOSTBUS\tPOSTBUS\tBOXH\tDETACH",
  c!"LEXENTRY:\tPOSTE\tPOSTE\tPLACEN\tDETACH",
  c!"LEXENTRY:\tPOSTFACH\tPOSTFACH\tBOXH\tDETACH",
  c!"LEXENTRY:\tPROMENADE\tPROMENADE\tTYPE\tATT_SUF,DET_PRE",
  c!"LEXENTRY:\tPROMENADE D'\tPROMENADE D'\tTYPE\tATT_PRE",
  c!"LEXENTRY:\tPROMENADE DE\tPROMENADE DE\tTYPE\tDET_PRE",
  c!"LEXENTRY:\tPROMENADE DE L'\tPROMENADE DE L'\tTYPE\tATT_PRE",
  c!"LEXENTRY:\tPROMENADE DE LA\tPROMENADE DE LA\tTYPE\tDET_PRE",
  c!"LEXENTRY:\tPROMENADE DES\tPROMENADE DES\tTYPE\tDET_PRE",
  c!"LEXENTRY:\tPROMENADE DU\tPROMENADE DU\tTYPE\tDET_PRE",
  c!"LEXENTRY:\tPVBA\tPVBA\tPLACEN\tDETACH",
  c!"LEXENTRY:\tQUAI\tQUAI\tTYPE\tDET_PRE",
  c!"LEXENTRY:\tQUAI AU\tQUAI AU\tTYPE\tDET_PRE",
  c!"LEXENTRY:\tQUAI AUX\tQUAI AUX\tTYPE\tDET_PRE",
  c!"LEXENTRY:\tQUAI D'\tQUAI D'\tTYPE\tATT_PRE",
  c!"LEXENTRY:\tQUAI DE\tQUAI DE\tTYPE\tDET_PRE",
  c!"LEXENTRY:\tQUAI DE L'\tQUAI DE L'\tTYPE\tATT_PRE",
  c!"LEXENTRY:\tQUAI DE LA\tQUAI DE LA\tTYPE\tDET_PRE",
  c!"LEXENTRY:\tQUAI DES\tQUAI DES\tTYPE\tDET_PRE",
  c!"LEXENTRY:\tQUAI DU\tQUAI DU\tTYPE\tDET_PRE",
  c!"LEXENTRY:\tQUAI À\tQUAI À\tTYPE\tDET_PRE",
  c!"LEXENTRY:\tQUARTIER\tQUARTIER\tTYPE\tDET_PRE",
  c!"LEXENTRY:\tQUARTIER AU\tQUARTIER AU\tTYPE\tDET_PRE"]

/-- data/sample/belgium.lex:552-601 -/
def entries11 : List Str := [
  c!"LEXENTRY:\tQUARTIER DE\tQUARTIER DE\tTYPE\tDET_PRE",
  c!"LEXENTRY:\tQUARTIER DE L'\tQUARTIER DE L'\tTYPE\tATT_PRE",
  c!"LEXENTRY:\tQUARTIER DE LA\tQUARTIER DE LA\tTYPE\tDET_PRE",
  c!"LEXENTRY:\tQUARTIER DES\tQUARTIER DES\tTYPE\tDET_PRE",
  c!"LEXENTRY:\tQUARTIER DU\tQUARTIER DU\tTYPE\tDET_PRE",
  c!"LEXENTRY:\tRAMPE\tRAMPE\tTYPE\tDET_PRE",
  c!"LEXENTRY:\tRAMPE D'\tRAMPE D'\tTYPE\tATT_PRE",
  c!"LEXENTRY:\tRAMPE DE\tRAMPE DE\tTYPE\tDET_PRE",
  c!"LEXENTRY:\tRAMPE DES\tRAMPE DES\tTYPE\tDET_PRE",
  c!"LEXENTRY:\tRAMPE DU\tRAMPE DU\tTYPE\tDET_PRE",
  c!"LEXENTRY:\tRANGÉE\tRANGÉE\tTYPE\tDET_PRE",
  c!"LEXENTRY:\tREI\tREI\tTYPE\tATT_SUF",
  c!"LEXENTRY:\tREMPART\tREMPART\tTYPE\tDET_PRE",
  c!"LEXENTRY:\tREMPART D'\tREMPART D'\tTYPE\tATT_PRE",
  c!"LEXENTRY:\tREMPART DE L'\tREMPART DE L'\tTYPE\tATT_PRE",
  c!"LEXENTRY:\tREMPART DE LA\tREMPART DE LA\tTYPE\tDET_PRE",
  c!"LEXENTRY:\tREMPART DES\tREMPART DES\tTYPE\tDET_PRE",
  c!"LEXENTRY:\tREMPART DU\tREMPART DU\tTYPE\tDET_PRE",
  c!"LEXENTRY:\tRESTAURANT\tRESTAURANT\tPLACEN\tDETACH",
  c!"LEXENTRY:\tRESTAURATIE\tRESTAURATIE\tPLACEN\tDETACH",
  c!"LEXENTRY:\tRING\tRING\tTYPE\tATT_SUF",
  c!"LEXENTRY:\tROAD\tROAD\tTYPE\tDET_SUF",
  c!"LEXENTRY:\tROCADE\tROCADE\tTYPE\tDET_PRE",
  c!"LEXENTRY:\tROND-POINT\tROND-POINT\tTYPE\tDET_PRE",
  c!"LEXENTRY:\tROND-POINT DE\tROND-POINT DE\tTYPE\tDET_PRE",
  c!"LEXENTRY:\tROND-POINT DE L'\tROND-POINT DE L'\tTYPE\tATT_PRE",
  c!"LEXENTRY:\tROND-POINT DE LA\tROND-POINT DE LA\tTYPE\tDET_PRE",
  c!"LEXENTRY:\tROND-POINT DES\tROND-POINT DES\tTYPE\tDET_PRE",
  c!"LEXENTRY:\tROND-POINT DU\tROND-POINT DU\tTYPE\tDET_PRE",
  c!"LEXENTRY:\tROUTE\tROUTE\tTYPE\tDET_PRE",
  c!"LEXENTRY:\tROUTE D'\tROUTE D'\tTYPE\tATT_PRE",
  c!"LEXENTRY:\tROUTE DE\tROUTE DE\tTYPE\tDET_PRE",
  c!"LEXENTRY:\tROUTE DE L'\tROUTE DE L'\tTYPE\tATT_PRE",
  c!"LEXENTRY:\tROUTE DE LA\tROUTE DE LA\tTYPE\tDET_PRE",
  c!"LEXENTRY:\tROUTE DES\tROUTE DES\tTYPE\tDET_PRE",
  c!"LEXENTRY:\tROUTE DU\tROUTE DU\tTYPE\tDET_PRE",
  c!"LEXENTRY:\tROYAUME DE BELGIQUE\tBELGIUM\tNATION\tDETACH",
  c!"LEXENTRY:\tRTE\tROUTE\tTYPE\tDET_PRE",
  c!"LEXENTRY:\tRUE\tRUE\tTYPE\tDET_PRE",
  c!"LEXENTRY:\tRUE A.\tRUE AUX\tTYPE\tDET_PRE",
  c!"LEXENTRY:\tRUE AU\tRUE AU\tTYPE\tDET_PRE",
  c!"LEXENTRY:\tRUE AUX\tRUE AUX\tTYPE\tDET_PRE",
  c!"LEXENTRY:\tRUE D'\tRUE D'\tTYPE\tATT_PRE",
  c!"LEXENTRY:\tRUE DE\tRUE DE\tTYPE\tDET_PRE",
  c!"LEXENTRY:\tRUE DE L'\tRUE DE L'\tTYPE\tATT_PRE",
  c!"LEXENTRY:\tRUE DE LA\tRUE DE LA\tTYPE\tDET_PRE",
  c!"LEXENTRY:\tRUE DES\tRUE DES\tTYPE\tDET_PRE",
  c!"LEXENTRY:\tRUE DU\tRUE DU\tTYPE\tDET_PRE",
  c!"LEXENTRY:\tRUE L'\tRUE L'\tTYPE\tATT_PRE",
  c!"LEXENTRY:\tRUE LA\tRUE LA\tTYPE\tDET_PRE"]

/-- data/sample/belgium.lex:602-651 -/
def entries12 : List Str := [
  c!"LEXENTRY:\tRUE LE\tRUE LE\tTYPE\tDET_PRE",
  c!"LEXENTRY:\tRUE LES\tRUE LES\tTYPE\tDET_PRE",
  c!"LEXENTRY:\tRUE À\tRUE À\tTYPE\tDET_PRE",
  c!"LEXENTRY:\tRUE À LA\tRUE À LA\tTYPE\tDET_PRE",
  c!"LEXENTRY:\tRUELLE\tRUELLE\tTYPE\tDET_PRE",
  c!"LEXENTRY:\tRUELLE AU\tRUELLE AU\tTYPE\tDET_PRE",
  c!"LEXENTRY:\tRUELLE AUX\tRUELLE AUX\tTYPE\tDET_PRE",
  c!"LEXENTRY:\tRUELLE D'\tRUELLE D'\tTYPE\tATT_PRE",
  c!"LEXENTRY:\tRUELLE DE\tRUELLE DE\tTYPE\tDET_PRE",
  c!"LEXENTRY:\tRUELLE DE L'\tRUELLE DE L'\tTYPE\tATT_PRE",
  c!"LEXENTRY:\tRUELLE DE LA\tRUELLE DE LA\tTYPE\tDET_PRE",
  c!"LEXENTRY:\tRUELLE DES\tRUELLE DES\tTYPE\tDET_PRE",
  c!"LEXENTRY:\tRUELLE DU\tRUELLE DU\tTYPE\tDET_PRE",
  c!"LEXENTRY:\tRUELLE À\tRUELLE À\tTYPE\tDET_PRE",
  c!"LEXENTRY:\tRUI\tRUI\tTYPE\tATT_SUF",
  c!"LEXENTRY:\tRÉSIDENCE\tRÉSIDENCE\tTYPE\tDET_PRE",
  c!"LEXENTRY:\tRÉSIDENCE D'\tRÉSIDENCE D'\tTYPE\tATT_PRE",
  c!"LEXENTRY:\tRÉSIDENCE DE\tRÉSIDENCE DE\tTYPE\tDET_PRE",
  c!"LEXENTRY:\tRÉSIDENCE DE L'\tRÉSIDENCE DE L'\tTYPE\tATT_PRE",
  c!"LEXENTRY:\tRÉSIDENCE DE LA\tRÉSIDENCE DE LA\tTYPE\tDET_PRE",
  c!"LEXENTRY:\tRÉSIDENCE DES\tRÉSIDENCE DES\tTYPE\tDET_PRE",
  c!"LEXENTRY:\tRÉSIDENCE DU\tRÉSIDENCE DU\tTYPE\tDET_PRE",
  c!"LEXENTRY:\tRÉSIDENCE LA\tRÉSIDENCE LA\tTYPE\tDET_PRE",
  c!"LEXENTRY:\tRÉSIDENCE LE\tRÉSIDENCE LE\tTYPE\tDET_PRE",
  c!"LEXENTRY:\tRÉSIDENCE LES\tRÉSIDENCE LES\tTYPE\tDET_PRE",
  c!"LEXENTRY:\tS\tS\tDIRECT\tDETACH",
  c!"LEXENTRY:\tSA\tSA\tPLACEN\tDETACH",
  c!"LEXENTRY:\tSAINT\tST\tWORD\tDETACH",
  c!"LEXENTRY:\tSC\tSC\tPLACEN\tDETACH",
  c!"LEXENTRY:\tSCA\tSCA\tPLACEN\tDETACH",
  c!"LEXENTRY:\tSCHANS\tSCHANS\tTYPE\tDET_SUF",
  c!"LEXENTRY:\tSCHOOL\tSCHOOL\tPLACEN\tDETACH",
  c!"LEXENTRY:\tSCHOUWBURG\tSCHOUWBURG\tPLACEN\tDETACH",
  c!"LEXENTRY:\tSCS\tSCS\tPLACEN\tDETACH",
  c!"LEXENTRY:\tSE\tSE\tDIRECT\tDETACH",
  c!"LEXENTRY:\tSECOND\t2ND\tWORD,ORD\tDETACH",
  c!"LEXENTRY:\tSENTE DE\tSENTE DE\tTYPE\tDET_PRE",
  c!"LEXENTRY:\tSENTE DE L'\tSENTE DE L'\tTYPE\tATT_PRE",
  c!"LEXENTRY:\tSENTE DE LA\tSENTE DE LA\tTYPE\tDET_PRE",
  c!"LEXENTRY:\tSENTE DES\tSENTE DES\tTYPE\tDET_PRE",
  c!"LEXENTRY:\tSENTIER\tSENTIER\tTYPE\tDET_PRE",
  c!"LEXENTRY:\tSENTIER AUX\tSENTIER AUX\tTYPE\tDET_PRE",
  c!"LEXENTRY:\tSENTIER D'\tSENTIER D'\tTYPE\tATT_PRE",
  c!"LEXENTRY:\tSENTIER DE\tSENTIER DE\tTYPE\tDET_PRE",
  c!"LEXENTRY:\tSENTIER DE L'\tSENTIER DE L'\tTYPE\tATT_PRE",
  c!"LEXENTRY:\tSENTIER DE LA\tSENTIER DE LA\tTYPE\tDET_PRE",
  c!"LEXENTRY:\tSENTIER DES\tSENTIER DES\tTYPE\tDET_PRE",
  c!"LEXENTRY:\tSENTIER DU\tSENTIER DU\tTYPE\tDET_PRE",
  c!"LEXENTRY:\tSENTIER À\tSENTIER À\tTYPE\tDET_PRE",
  c!"LEXENTRY:\tSENTIERS DES\tSENTIERS DES\tTYPE\tDET_PRE"]

/-- data/sample/belgium.lex:652-701 -/
def entries13 : List Str := [
  c!"LEXENTRY:\tSEVEN\t7\tNUMBER\tDETACH",
  c!"LEXENTRY:\tSEVENTEEN\t17\tNUMBER\tDETACH",
  c!"LEXENTRY:\tSEVENTEENTH\t17TH\tWORD,ORD\tDETACH",
  c!"LEXENTRY:\tSEVENTH\t7TH\tWORD,ORD\tDETACH",
  c!"LEXENTRY:\tSEVENTIETH\t70TH\tWORD,ORD\tDETACH",
  c!"LEXENTRY:\tSEVENTY\t70\tNUMBER\tDETACH",
  c!"LEXENTRY:\tSINGEL\tSINGEL\tTYPE\tATT_SUF,DET_SUF",
  c!"LEXENTRY:\tSIX\t6\tNUMBER\tDETACH",
  c!"LEXENTRY:\tSIXTEEN\t16\tNUMBER\tDETACH",
  c!"LEXENTRY:\tSIXTEENTH\t16TH\tWORD,ORD\tDETACH",
  c!"LEXENTRY:\tSIXTH\t6TH\tWORD,ORD\tDETACH",
  c!"LEXENTRY:\tSIXTIETH\t60TH\tWORD,ORD\tDETACH",
  c!"LEXENTRY:\tSIXTY\t60\tNUMBER\tDETACH",
  c!"LEXENTRY:\tSLUIS\tSLUIS\tTYPE\tATT_SUF,DET_SUF",
  c!"LEXENTRY:\tSNC\tSNC\tPLACEN\tDETACH",
  c!"LEXENTRY:\tSOCIÉTÉ\tSOCIÉTÉ\tPLACEN\tDETACH",
  c!"LEXENTRY:\tSOUTH\tS\tDIRECT\tDETACH",
  c!"LEXENTRY:\tSOUTHEAST\tSE\tDIRECT\tDETACH",
  c!"LEXENTRY:\tSOUTHWEST\tSW\tDIRECT\tDETACH",
  c!"LEXENTRY:\tSPOOR\tSPOOR\tTYPE\tATT_SUF",
  c!"LEXENTRY:\tSPORTPARK\tSPORTPARK\tPLACEN\tDETACH",
  c!"LEXENTRY:\tSPRL\tSPRL\tPLACEN\tDETACH",
  c!"LEXENTRY:\tSQ\tSQUARE\tTYPE\tATT_SUF",
  c!"LEXENTRY:\tSQUARE\tSQUARE\tTYPE\tATT_SUF,DET_PRE,DET_SUF",
  c!"LEXENTRY:\tSQUARE D'\tSQUARE D'\tTYPE\tATT_PRE",
  c!"LEXENTRY:\tSQUARE DE\tSQUARE DE\tTYPE\tDET_PRE",
  c!"LEXENTRY:\tSQUARE DE L'\tSQUARE DE L'\tTYPE\tATT_PRE",
  c!"LEXENTRY:\tSQUARE DE LA\tSQUARE DE LA\tTYPE\tDET_PRE",
  c!"LEXENTRY:\tSQUARE DES\tSQUARE DES\tTYPE\tDET_PRE",
  c!"LEXENTRY:\tSQUARE DU\tSQUARE DU\tTYPE\tDET_PRE",
  c!"LEXENTRY:\tST\tST\tWORD\tDETACH",
  c!"LEXENTRY:\tSTADE\tSTADE\tPLACEN\tDETACH",
  c!"LEXENTRY:\tSTADIE\tSTADIE\tPLACEN\tDETACH",
  c!"LEXENTRY:\tSTADION\tSTADION\tPLACEN\tDETACH",
  c!"LEXENTRY:\tSTADIUM\tSTADIUM\tPLACEN\tDETACH",
  c!"LEXENTRY:\tSTATION\tSTATION\tPLACEN\tDETACH",
  c!"LEXENTRY:\tSTE\tSTE\tUNITH\tDETACH",
  c!"LEXENTRY:\tSTEDE\tSTEDE\tTYPE\tATT_SUF",
  c!"LEXENTRY:\tSTEEG\tSTEEG\tTYPE\tATT_SUF,DET_SUF",
  c!"LEXENTRY:\tSTEEGJE\tSTEEGJE\tTYPE\tATT_SUF,DET_SUF",
  c!"LEXENTRY:\tSTEEN\tSTEEN\tTYPE\tATT_SUF",
  c!"LEXENTRY:\tSTEENWEG\tSTEENWEG\tTYPE\tATT_SUF",
  c!"LEXENTRY:\tSTEENWEG NAAR\tSTEENWEG NAAR\tTYPE\tDET_PRE",
  c!"LEXENTRY:\tSTEENWEG OP\tSTEENWEG OP\tTYPE\tDET_PRE",
  c!"LEXENTRY:\tSTEG\tSTEG\tTYPE\tDET_SUF",
  c!"LEXENTRY:\tSTEIN\tSTEIN\tTYPE\tATT_SUF,DET_SUF",
  c!"LEXENTRY:\tSTR\tSTRAAT\tTYPE\tATT_SUF",
  c!"LEXENTRY:\tSTRAAT\tSTRAAT\tTYPE\tATT_SUF,DET_SUF",
  c!"LEXENTRY:\tSTRAATJE\tSTRAATJE\tTYPE\tATT_SUF",
  c!"LEXENTRY:\tSTRAATWEG\tSTRAATWEG\tTYPE\tATT_SUF"]

/-- data/sample/belgium.lex:702-751 -/
def entries14 : List Str := [
  c!"LEXENTRY:\tSTRASSE\tSTRASSE\tTYPE\tATT_SUF,DET_SUF",
  c!"LEXENTRY:\tSTREET\tSTREET\tTYPE\tDET_SUF",
  c!"LEXENTRY:\tSTWG\tSTEENWEG\tTYPE\tATT_SUF",
  c!"LEXENTRY:\tSUITE \tSTE\tUNITH\tDETACH",
  c!"LEXENTRY:\tSV\tSV\tPLACEN\tDETACH",
  c!"LEXENTRY:\tSW\tSW\tDIRECT\tDETACH",
  c!"LEXENTRY:\tSWG\tSTEENWEG\tTYPE\tATT_SUF",
  c!"LEXENTRY:\tTAL\tTAL\tTYPE\tATT_SUF",
  c!"LEXENTRY:\tTEN\t10\tNUMBER\tDETACH",
  c!"LEXENTRY:\tTENTH\t10TH\tWORD,ORD\tDETACH",
  c!"LEXENTRY:\tTERRASSE DE LA\tTERRASSE DE LA\tTYPE\tDET_PRE",
  c!"LEXENTRY:\tTHEATER\tTHEATER\tPLACEN\tDETACH",
  c!"LEXENTRY:\tTHIRD\t3RD\tWORD,ORD\tDETACH",
  c!"LEXENTRY:\tTHIRTEEN\t13\tNUMBER\tDETACH",
  c!"LEXENTRY:\tTHIRTEENTH\t13TH\tWORD,ORD\tDETACH",
  c!"LEXENTRY:\tTHIRTIETH\t30TH\tWORD,ORD\tDETACH",
  c!"LEXENTRY:\tTHIRTY\t30\tNUMBER\tDETACH",
  c!"LEXENTRY:\tTHREE\t3\tNUMBER\tDETACH",
  c!"LEXENTRY:\tTHÉÂTRE\tTHÉÂTRE\tPLACEN\tDETACH",
  c!"LEXENTRY:\tTONEEL\tTONEEL\tPLACEN\tDETACH",
  c!"LEXENTRY:\tTRAVERSE D'\tTRAVERSE D'\tTYPE\tATT_PRE",
  c!"LEXENTRY:\tTRAVERSE DES\tTRAVERSE DES\tTYPE\tDET_PRE",
  c!"LEXENTRY:\tTUIN\tTUIN\tTYPE\tATT_SUF,DET_SUF",
  c!"LEXENTRY:\tTUNNEL\tTUNNEL\tTYPE\tATT_SUF,DET_SUF",
  c!"LEXENTRY:\tTUNNEL DE\tTUNNEL DE\tTYPE\tDET_PRE",
  c!"LEXENTRY:\tTUNNEL DU\tTUNNEL DU\tTYPE\tDET_PRE",
  c!"LEXENTRY:\tTWELFTH\t12TH\tWORD,ORD\tDETACH",
  c!"LEXENTRY:\tTWELVE\t12\tNUMBER\tDETACH",
  c!"LEXENTRY:\tTWENTIETH\t20TH\tWORD,ORD\tDETACH",
  c!"LEXENTRY:\tTWENTY\t20\tNUMBER\tDETACH",
  c!"LEXENTRY:\tTWO\t2\tNUMBER\tDETACH",
  c!"LEXENTRY:\tUFER\tUFER\tTYPE\tATT_SUF",
  c!"LEXENTRY:\tUNIVERSITAIRE\tUNIVERSITAIRE\tPLACEN\tDETACH",
  c!"LEXENTRY:\tUNIVERSITEIT\tUNIVERSITEIT\tPLACEN\tDETACH",
  c!"LEXENTRY:\tUNIVERSITÉ\tUNIVERSITÉ\tPLACEN\tDETACH",
  c!"LEXENTRY:\tVAART\tVAART\tTYPE\tATT_SUF,DET_SUF",
  c!"LEXENTRY:\tVAL\tVALLÉE\tTYPE\tDET_PRE",
  c!"LEXENTRY:\tVALLON D'\tVALLON D'\tTYPE\tATT_PRE",
  c!"LEXENTRY:\tVALLON DES\tVALLON DES\tTYPE\tDET_PRE",
  c!"LEXENTRY:\tVALLÉE\tVALLÉE\tTYPE\tDET_PRE",
  c!"LEXENTRY:\tVALLÉE DE\tVALLÉE DE\tTYPE\tDET_PRE",
  c!"LEXENTRY:\tVALLÉE DE L'\tVALLÉE DE L'\tTYPE\tATT_PRE",
  c!"LEXENTRY:\tVALLÉE DES\tVALLÉE DES\tTYPE\tDET_PRE",
  c!"LEXENTRY:\tVALLÉE DU\tVALLÉE DU\tTYPE\tDET_PRE",
  c!"LEXENTRY:\tVALLÉE À\tVALLÉE À\tTYPE\tDET_PRE",
  c!"LEXENTRY:\tVEER\tVEER\tTYPE\tATT_SUF,DET_SUF",
  c!"LEXENTRY:\tVEG\tVEG\tPLACEN\tDETACH",
  c!"LEXENTRY:\tVELD\tVELD\tTYPE\tATT_SUF,DET_SUF",
  c!"LEXENTRY:\tVEN\tVEN\tTYPE\tATT_SUF",
  c!"LEXENTRY:\tVENELLE\tVENELLE\tTYPE\tDET_PRE"]

/-- data/sample/belgium.lex:752-801 -/
def entries15 : List Str := [
  c!"LEXENTRY:\tVENELLE AU\tVENELLE AU\tTYPE\tDET_PRE",
  c!"LEXENTRY:\tVENELLE AUX\tVENELLE AUX\tTYPE\tDET_PRE",
  c!"LEXENTRY:\tVENELLE DE\tVENELLE DE\tTYPE\tDET_PRE",
  c!"LEXENTRY:\tVENELLE DE L'\tVENELLE DE L'\tTYPE\tATT_PRE",
  c!"LEXENTRY:\tVENELLE DE LA\tVENELLE DE LA\tTYPE\tDET_PRE",
  c!"LEXENTRY:\tVENELLE DES\tVENELLE DES\tTYPE\tDET_PRE",
  c!"LEXENTRY:\tVENELLE DU\tVENELLE DU\tTYPE\tDET_PRE",
  c!"LEXENTRY:\tVENNOOTSCHAP\tVENNOOTSCHAP\tPLACEN\tDETACH",
  c!"LEXENTRY:\tVERENIGING\tVERENIGING\tPLACEN\tDETACH",
  c!"LEXENTRY:\tVEST\tVEST\tTYPE\tATT_SUF",
  c!"LEXENTRY:\tVESTING\tVESTING\tTYPE\tDET_SUF",
  c!"LEXENTRY:\tVGN\tVGN\tPLACEN\tDETACH",
  c!"LEXENTRY:\tVIADUC DE L'\tVIADUC DE L'\tTYPE\tATT_PRE",
  c!"LEXENTRY:\tVIEILLE ROUTE DE\tVIEILLE ROUTE DE\tTYPE\tDET_PRE",
  c!"LEXENTRY:\tVIEUX CHEMIN\tVIEUX CHEMIN\tTYPE\tDET_PRE",
  c!"LEXENTRY:\tVIEUX CHEMIN DE\tVIEUX CHEMIN DE\tTYPE\tDET_PRE",
  c!"LEXENTRY:\tVIEUX CHEMIN DE L'\tVIEUX CHEMIN DE L'\tTYPE\tATT_PRE",
  c!"LEXENTRY:\tVILLA DES\tVILLA DES\tTYPE\tDET_PRE",
  c!"LEXENTRY:\tVILLE DE\tVILLE DE\tTYPE\tDET_PRE",
  c!"LEXENTRY:\tVLIEGHAVEN\tVLIEGHAVEN\tPLACEN\tDETACH",
  c!"LEXENTRY:\tVLIEGVELD\tVLIEGVELD\tPLACEN\tDETACH",
  c!"LEXENTRY:\tVLIET\tVLIET\tTYPE\tATT_SUF",
  c!"LEXENTRY:\tVOF\tVOF\tPLACEN\tDETACH",
  c!"LEXENTRY:\tVOIE\tVOIE\tTYPE\tDET_PRE",
  c!"LEXENTRY:\tVOIE AUX\tVOIE AUX\tTYPE\tDET_PRE",
  c!"LEXENTRY:\tVOIE D'\tVOIE D'\tTYPE\tATT_PRE",
  c!"LEXENTRY:\tVOIE DE\tVOIE DE\tTYPE\tDET_PRE",
  c!"LEXENTRY:\tVOIE DE L'\tVOIE DE L'\tTYPE\tATT_PRE",
  c!"LEXENTRY:\tVOIE DE LA\tVOIE DE LA\tTYPE\tDET_PRE",
  c!"LEXENTRY:\tVOIE DES\tVOIE DES\tTYPE\tDET_PRE",
  c!"LEXENTRY:\tVOIE DU\tVOIE DU\tTYPE\tDET_PRE",
  c!"LEXENTRY:\tVOIRIE\tVOIRIE\tTYPE\tDET_PRE",
  c!"LEXENTRY:\tVZW\tVZW\tPLACEN\tDETACH",
  c!"LEXENTRY:\tW\tW\tDIRECT\tDETACH",
  c!"LEXENTRY:\tWAL\tWAL\tTYPE\tATT_SUF",
  c!"LEXENTRY:\tWALL\tWALL\tTYPE\tATT_SUF",
  c!"LEXENTRY:\tWARANDE\tWARANDE\tTYPE\tATT_SUF",
  c!"LEXENTRY:\tWEG\tWEG\tTYPE\tATT_PRE,ATT_SUF,DET_PRE,DET_SUF",
  c!"LEXENTRY:\tWEGEL\tWEGEL\tTYPE\tATT_SUF,DET_SUF",
  c!"LEXENTRY:\tWEIDE\tWEIDE\tTYPE\tATT_SUF",
  c!"LEXENTRY:\tWERF\tWERF\tTYPE\tATT_SUF,DET_SUF",
  c!"LEXENTRY:\tWEST\tW\tDIRECT\tDETACH",
  c!"LEXENTRY:\tWIESEN\tWIESEN\tTYPE\tATT_SUF",
  c!"LEXENTRY:\tWIJK\tWIJK\tTYPE\tATT_SUF",
  c!"LEXENTRY:\tWINKEL\tWINKEL\tPLACEN,TYPE\tATT_SUF,DETACH",
  c!"LEXENTRY:\tZAAK\tZAAK\tPLACEN\tDETACH",
  c!"LEXENTRY:\tZIJDE\tZIJDE\tTYPE\tATT_SUF",
  c!"LEXENTRY:\tÉCHANGEUR\tÉCHANGEUR\tTYPE\tDET_PRE",
  c!"LEXENTRY:\tÉCHANGEUR DES\tÉCHANGEUR DES\tTYPE\tDET_PRE",
  c!"LEXENTRY:\tÉCOLE\tÉCOLE\tPLACEN\tDETACH"]

/-- data/sample/belgium.lex:802-802 -/
def entries16 : List Str := [
  c!"LEXENTRY:\tÎLE\tÎLE\tTYPE\tDET_PRE"]

/-- The text, and what is claimed of it. -/
def lexicon : LexSample where
  header := c!"LEXICON:\tlex-belgium.txt\tFRE\tfr_BE"
  body := entries0 ++ entries1 ++ entries2 ++ entries3 ++ entries4 ++ entries5 ++ entries6 ++ entries7 ++ entries8
     ++ entries9 ++ entries10 ++ entries11 ++ entries12 ++ entries13 ++ entries14 ++ entries15 ++ entries16
  lang := .FRE
  locale := c!"fr_BE"
  classes := [
    .UNITH, .NUMBER, .WORD, .ORD, .PLACEN, .TYPE, .NATION, .BOXH, .CITY, .DIRECT]

set_option maxRecDepth 1000000 in
theorem lexicon_checked : checkLex lexicon [0, 1, 3, 3, 56, 60, 96, 115, 132, 274] = true := by decide +kernel

/-- What of the grammar cannot match. -/
def pair : Pair where
  sample := sample
  lexicon := lexicon
  idle := [
    c!"@postal @city @region @country",
    c!"BUILDT -> BLDNG -> 0.7",
    c!"BUILDT WORD -> BLDNG BLDNG -> 0.6",
    c!"BUILDT WORD WORD -> BLDNG BLDNG BLDNG -> 0.5",
    c!"BUILDT WORD WORD WORD -> BLDNG BLDNG BLDNG BLDNG -> 0.4",
    c!"[region]",
    c!"PROV -> PROV -> 0.9"]
  null := [.building, .predir, .qual, .pretype, .sufdir, .ruralroute, .prov]

/-- What shows it. -/
def pairCert : PairCert where
  dead := [.BUILDT, .PROV]
  barren := [c!"region"]
  reach := [
    c!"ADDRESS", c!"micro", c!"macro", c!"streetname", c!"housenumber", c!"unit", c!"pobox", c!"postal",
    c!"city", c!"country"]

set_option maxRecDepth 100000 in
theorem pair_checked : checkPair pair pairCert = true := by decide +kernel

end AS.Sample.Belgium
