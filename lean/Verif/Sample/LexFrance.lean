import Verif.Lemmas.LexCheck
import Verif.Lemmas.PairCheck
import Verif.Sample.France
/-
The lexicon data/sample/france.lex (all 781 lines), and what of france.gmr cannot match with it. Written by
tools/lexicons.py.
-/
namespace AS.Sample.France

/-- data/sample/france.lex:2-51 -/
def entries0 : List Str := [
  c!"LEXENTRY:\t\t\tWORD\tDETACH",
  c!"LEXENTRY:\t1\t1\tNUMBER\tDETACH",
  c!"LEXENTRY:\t10\t10\tNUMBER\tDETACH",
  c!"LEXENTRY:\t100\t100\tNUMBER\tDETACH",
  c!"LEXENTRY:\t10E\t10E\tWORD,ORD\tDETACH",
  c!"LEXENTRY:\t11\t11\tNUMBER\tDETACH",
  c!"LEXENTRY:\t12\t12\tNUMBER\tDETACH",
  c!"LEXENTRY:\t13\t13\tNUMBER\tDETACH",
  c!"LEXENTRY:\t14\t14\tNUMBER\tDETACH",
  c!"LEXENTRY:\t15\t15\tNUMBER\tDETACH",
  c!"LEXENTRY:\t16\t16\tNUMBER\tDETACH",
  c!"LEXENTRY:\t17\t17\tNUMBER\tDETACH",
  c!"LEXENTRY:\t18\t18\tNUMBER\tDETACH",
  c!"LEXENTRY:\t19\t19\tNUMBER\tDETACH",
  c!"LEXENTRY:\t1ER\t1ER\tWORD,ORD\tDETACH",
  c!"LEXENTRY:\t1ÈRE\t1ER\tWORD,ORD\tDETACH",
  c!"LEXENTRY:\t2\t2\tNUMBER\tDETACH",
  c!"LEXENTRY:\t20\t20\tNUMBER\tDETACH",
  c!"LEXENTRY:\t2E\t2E\tWORD,ORD\tDETACH",
  c!"LEXENTRY:\t3\t3\tNUMBER\tDETACH",
  c!"LEXENTRY:\t30\t30\tNUMBER\tDETACH",
  c!"LEXENTRY:\t3E\t3E\tWORD,ORD\tDETACH",
  c!"LEXENTRY:\t4\t4\tNUMBER\tDETACH",
  c!"LEXENTRY:\t40\t40\tNUMBER\tDETACH",
  c!"LEXENTRY:\t4E\t4E\tWORD,ORD\tDETACH",
  c!"LEXENTRY:\t5\t5\tNUMBER\tDETACH",
  c!"LEXENTRY:\t50\t50\tNUMBER\tDETACH",
  c!"LEXENTRY:\t5E\t5E\tWORD,ORD\tDETACH",
  c!"LEXENTRY:\t6\t6\tNUMBER\tDETACH",
  c!"LEXENTRY:\t60\t60\tNUMBER\tDETACH",
  c!"LEXENTRY:\t6E\t6E\tWORD,ORD\tDETACH",
  c!"LEXENTRY:\t7\t7\tNUMBER\tDETACH",
  c!"LEXENTRY:\t7E\t7E\tWORD,ORD\tDETACH",
  c!"LEXENTRY:\t8\t8\tNUMBER\tDETACH",
  c!"LEXENTRY:\t8E\t8E\tWORD,ORD\tDETACH",
  c!"LEXENTRY:\t9\t9\tNUMBER\tDETACH",
  c!"LEXENTRY:\t9E\t9E\tWORD,ORD\tDETACH",
  c!"LEXENTRY:\tAEROPORT\tAEROPORT\tPLACEN\tDETACH",
  c!"LEXENTRY:\tALL\tALLÉE\tTYPE\tDET_PRE",
  c!"LEXENTRY:\tALLEE\tALLÉE\tTYPE\tATT_PRE,DET_PRE",
  c!"LEXENTRY:\tALLÉE\tALLÉE\tTYPE\tATT_PRE,DET_PRE",
  c!"LEXENTRY:\tALLÉE AUX\tALLÉE\tTYPE\tDET_PRE",
  c!"LEXENTRY:\tALLÉE D'\tALLÉE\tTYPE\tATT_PRE",
  c!"LEXENTRY:\tALLÉE DE\tALLÉE\tTYPE\tDET_PRE",
  c!"LEXENTRY:\tALLÉE DE L'\tALLÉE\tTYPE\tATT_PRE",
  c!"LEXENTRY:\tALLÉE DE LA\tALLÉE\tTYPE\tDET_PRE",
  c!"LEXENTRY:\tALLÉE DES\tALLÉE\tTYPE\tDET_PRE",
  c!"LEXENTRY:\tALLÉE DU\tALLÉE\tTYPE\tDET_PRE",
  c!"LEXENTRY:\tALLÉE L'\tALLÉE\tTYPE\tATT_PRE",
  c!"LEXENTRY:\tALLÉE LA\tALLÉE\tTYPE\tDET_PRE"]

/-- data/sample/france.lex:52-101 -/
def entries1 : List Str := [
  c!"LEXENTRY:\tALLÉE LE\tALLÉE\tTYPE\tDET_PRE",
  c!"LEXENTRY:\tALLÉE LES \tALLÉE\tTYPE\tDET_PRE",
  c!"LEXENTRY:\tALLÉES\tALLÉES\tTYPE\tDET_PRE",
  c!"LEXENTRY:\tALLÉES DES\tALLÉES\tTYPE\tDET_PRE",
  c!"LEXENTRY:\tANCIEN CHEMIN\tANCIEN CHEMIN\tTYPE\tDET_PRE",
  c!"LEXENTRY:\tANCIEN CHEMIN DE \tANCIEN CHEMIN\tTYPE\tDET_PRE",
  c!"LEXENTRY:\tANCIENNE ROUTE\tANCIENNE ROUTE\tTYPE\tDET_PRE",
  c!"LEXENTRY:\tANCIENNE ROUTE DE\tANCIENNE ROUTE\tTYPE\tDET_PRE",
  c!"LEXENTRY:\tANCIENNE RUE\tANCIENNE RUE\tTYPE\tDET_PRE",
  c!"LEXENTRY:\tANCIENNE RUE AUX\tANCIENNE RUE\tTYPE\tDET_PRE",
  c!"LEXENTRY:\tAPARTEMENT\tAPARTEMENT\tUNITH\tDETACH",
  c!"LEXENTRY:\tAPP\tAPARTEMENT\tUNITH\tDETACH",
  c!"LEXENTRY:\tAPP.\tAPARTEMENT\tUNITH\tDETACH",
  c!"LEXENTRY:\tASBL\tASBL\tPLACEN\tDETACH",
  c!"LEXENTRY:\tASSOCIATION\tASSOCIATION\tPLACEN\tDETACH",
  c!"LEXENTRY:\tAUTOROUTE\tAUTOROUTE\tTYPE\tATT_PRE,DET_PRE",
  c!"LEXENTRY:\tAUTOROUTE DE\tAUTOROUTE\tTYPE\tDET_PRE",
  c!"LEXENTRY:\tAUTOROUTE DE L'\tAUTOROUTE\tTYPE\tATT_PRE",
  c!"LEXENTRY:\tAUTOROUTE DU\tAUTOROUTE\tTYPE\tDET_PRE",
  c!"LEXENTRY:\tAV\tAVENUE\tTYPE\tDET_PRE,DET_SUF",
  c!"LEXENTRY:\tAV.\tAVENUE\tTYPE\tDET_PRE,DET_SUF",
  c!"LEXENTRY:\tAVE\tAVENUE\tTYPE\tDET_PRE,DET_SUF",
  c!"LEXENTRY:\tAVE.\tAVENUE\tTYPE\tDET_PRE,DET_SUF",
  c!"LEXENTRY:\tAVENUE\tAVENUE\tTYPE\tATT_PRE,DET_PRE,DET_SUF",
  c!"LEXENTRY:\tAVENUE D'\tAVENUE\tTYPE\tATT_PRE",
  c!"LEXENTRY:\tAVENUE DE\tAVENUE\tTYPE\tDET_PRE",
  c!"LEXENTRY:\tAVENUE DE L'\tAVENUE\tTYPE\tATT_PRE",
  c!"LEXENTRY:\tAVENUE DE LA\tAVENUE\tTYPE\tDET_PRE",
  c!"LEXENTRY:\tAVENUE DES\tAVENUE\tTYPE\tDET_PRE",
  c!"LEXENTRY:\tAVENUE DU\tAVENUE\tTYPE\tDET_PRE",
  c!"LEXENTRY:\tAVENUE LA \tAVENUE\tTYPE\tDET_PRE",
  c!"LEXENTRY:\tBANQUE\tBANQUE\tPLACEN\tDETACH",
  c!"LEXENTRY:\tBAT\tBÂTIMENT\tUNITH\tDETACH",
  c!"LEXENTRY:\tBAT.\tBÂTIMENT\tUNITH\tDETACH",
  c!"LEXENTRY:\tBD\tBOULEVARD\tTYPE\tDET_PRE,DET_SUF",
  c!"LEXENTRY:\tBD.\tBOULEVARD\tTYPE\tDET_PRE,DET_SUF",
  c!"LEXENTRY:\tBERGE\tBERGE\tTYPE\tDET_PRE",
  c!"LEXENTRY:\tBERGE DE\tBERGE\tTYPE\tDET_PRE",
  c!"LEXENTRY:\tBERGE DE LA\tBERGE\tTYPE\tDET_PRE",
  c!"LEXENTRY:\tBIBLIOTHÈQUE\tBIBLIOTHÈQUE\tPLACEN\tDETACH",
  c!"LEXENTRY:\tBLD\tBOULEVARD\tTYPE\tDET_PRE,DET_SUF",
  c!"LEXENTRY:\tBLD.\tBOULEVARD\tTYPE\tDET_PRE,DET_SUF",
  c!"LEXENTRY:\tBOULANGERIE\tBOULANGERIE\tPLACEN\tDETACH",
  c!"LEXENTRY:\tBOULEVARD\tBOULEVARD\tTYPE\tATT_PRE,DET_PRE,DET_SUF",
  c!"LEXENTRY:\tBOULEVARD D'\tBOULEVARD\tTYPE\tATT_PRE",
  c!"LEXENTRY:\tBOULEVARD DE\tBOULEVARD\tTYPE\tDET_PRE",
  c!"LEXENTRY:\tBOULEVARD DE L'\tBOULEVARD\tTYPE\tATT_PRE",
  c!"LEXENTRY:\tBOULEVARD DE LA\tBOULEVARD\tTYPE\tDET_PRE",
  c!"LEXENTRY:\tBOULEVARD DES\tBOULEVARD\tTYPE\tDET_PRE",
  c!"LEXENTRY:\tBOULEVARD DU\tBOULEVARD\tTYPE\tDET_PRE"]

/-- data/sample/france.lex:102-151 -/
def entries2 : List Str := [
  c!"LEXENTRY:\tBRETELLE\tBRETELLE\tTYPE\tDET_PRE",
  c!"LEXENTRY:\tBUREAU\tBUREAU\tPLACEN\tDETACH",
  c!"LEXENTRY:\tBÂTIMENT\tBÂTIMENT\tUNITH\tDETACH",
  c!"LEXENTRY:\tBIS\tBIS\tUNITH\tDETACH",
  c!"LEXENTRY:\tBOITE\tBOITE\tUNITH\tDETACH",
  c!"LEXENTRY:\tÀ\tÀ\tUNITH\tDETACH",
  c!"LEXENTRY:\tET\tET\tUNITH\tDETACH",
  c!"LEXENTRY:\tBOITE POSTALE\tBOITE POSTALE\tBOXH\tDETACH",
  c!"LEXENTRY:\tBP\tBOITE POSTALE\tBOXH\tDETACH",
  c!"LEXENTRY:\tCAFÉ\tCAFÉ\tPLACEN\tDETACH",
  c!"LEXENTRY:\tCAIE\tCAIE\tWORD\tDETACH",
  c!"LEXENTRY:\tCANAL\tCANAL\tTYPE\tDET_PRE",
  c!"LEXENTRY:\tCARREFOUR\tCARREFOUR\tTYPE\tATT_PRE,DET_PRE",
  c!"LEXENTRY:\tCARREFOUR AUX\tCARREFOUR\tTYPE\tDET_PRE",
  c!"LEXENTRY:\tCARREFOUR D'\tCARREFOUR\tTYPE\tATT_PRE",
  c!"LEXENTRY:\tCARREFOUR DE\tCARREFOUR\tTYPE\tDET_PRE",
  c!"LEXENTRY:\tCARREFOUR DE L'\tCARREFOUR\tTYPE\tATT_PRE",
  c!"LEXENTRY:\tCARREFOUR DE LA\tCARREFOUR\tTYPE\tDET_PRE",
  c!"LEXENTRY:\tCARREFOUR DES\tCARREFOUR\tTYPE\tDET_PRE",
  c!"LEXENTRY:\tCARREFOUR DU\tCARREFOUR\tTYPE\tDET_PRE",
  c!"LEXENTRY:\tCARRÉ\tCARRÉ\tTYPE\tATT_PRE,DET_PRE",
  c!"LEXENTRY:\tCARRÉ AU\tCARRÉ\tTYPE\tDET_PRE",
  c!"LEXENTRY:\tCARRÉ DE LA\tCARRÉ\tTYPE\tDET_PRE",
  c!"LEXENTRY:\tCARRÉ DES\tCARRÉ\tTYPE\tDET_PRE",
  c!"LEXENTRY:\tCARRÉ DU\tCARRÉ\tTYPE\tDET_PRE",
  c!"LEXENTRY:\tCARRÉ À L'\tCARRÉ\tTYPE\tATT_PRE",
  c!"LEXENTRY:\tCARRÉ À LA\tCARRÉ\tTYPE\tDET_PRE",
  c!"LEXENTRY:\tCEDEX\tCEDEX\tBOXH\tDETACH",
  c!"LEXENTRY:\tCENT\t100\tNUMBER\tDETACH",
  c!"LEXENTRY:\tCENTRE\tCENTRE\tPLACEN,TYPE\tDETACH,DET_PRE",
  c!"LEXENTRY:\tCENTRE COMMERCIAL\tCENTRE COMMERCIAL\tPLACEN,TYPE\tDETACH,DET_PRE",
  c!"LEXENTRY:\tCERCLE\tCERCLE\tTYPE\tDET_PRE",
  c!"LEXENTRY:\tCERCLE DE LA\tCERCLE\tTYPE\tDET_PRE",
  c!"LEXENTRY:\tCH\tCHAUSSÉE\tTYPE\tDET_PRE",
  c!"LEXENTRY:\tCH.\tCHAUSSÉE\tTYPE\tDET_PRE",
  c!"LEXENTRY:\tCHAMP\tCHAMP\tTYPE\tDET_PRE",
  c!"LEXENTRY:\tCHAMP DE\tCHAMP\tTYPE\tDET_PRE",
  c!"LEXENTRY:\tCHAMP DE LA\tCHAMP\tTYPE\tDET_PRE",
  c!"LEXENTRY:\tCHAMP DU\tCHAMP\tTYPE\tDET_PRE",
  c!"LEXENTRY:\tCHAUSSÉE\tCHAUSSÉE\tTYPE\tATT_PRE,DET_PRE",
  c!"LEXENTRY:\tCHAUSSÉE DE\tCHAUSSÉE\tTYPE\tDET_PRE",
  c!"LEXENTRY:\tCHAUSSÉE DE L'\tCHAUSSÉE\tTYPE\tATT_PRE",
  c!"LEXENTRY:\tCHAUSSÉE DE LA\tCHAUSSÉE\tTYPE\tDET_PRE",
  c!"LEXENTRY:\tCHAUSSÉE DES\tCHAUSSÉE\tTYPE\tDET_PRE",
  c!"LEXENTRY:\tCHAUSSÉE DU\tCHAUSSÉE\tTYPE\tDET_PRE",
  c!"LEXENTRY:\tCHEE\tCHAUSSÉE\tTYPE\tDET_PRE",
  c!"LEXENTRY:\tCHEE.\tCHAUSSÉE\tTYPE\tDET_PRE",
  c!"LEXENTRY:\tCHEMIN\tCHEMIN\tTYPE\tATT_PRE,DET_PRE",
  c!"LEXENTRY:\tCHEMIN AU\tCHEMIN\tTYPE\tDET_PRE",
  c!"LEXENTRY:\tCHEMIN AUX\tCHEMIN\tTYPE\tDET_PRE"]

/-- data/sample/france.lex:152-201 -/
def entries3 : List Str := [
  c!"LEXENTRY:\tCHEMIN D'\tCHEMIN\tTYPE\tATT_PRE",
  c!"LEXENTRY:\tCHEMIN DE\tCHEMIN\tTYPE\tDET_PRE",
  c!"LEXENTRY:\tCHEMIN DE L'\tCHEMIN\tTYPE\tATT_PRE",
  c!"LEXENTRY:\tCHEMIN DE LA\tCHEMIN\tTYPE\tDET_PRE",
  c!"LEXENTRY:\tCHEMIN DES\tCHEMIN\tTYPE\tDET_PRE",
  c!"LEXENTRY:\tCHEMIN DU\tCHEMIN\tTYPE\tDET_PRE",
  c!"LEXENTRY:\tCHEMIN LES\tCHEMIN\tTYPE\tDET_PRE",
  c!"LEXENTRY:\tCHEMIN RURAL DE\tCHEMIN\tTYPE\tDET_PRE",
  c!"LEXENTRY:\tCHEMIN À\tCHEMIN\tTYPE\tDET_PRE",
  c!"LEXENTRY:\tCHS\tCHAUSSÉE\tTYPE\tDET_PRE",
  c!"LEXENTRY:\tCHS.\tCHAUSSÉE\tTYPE\tDET_PRE",
  c!"LEXENTRY:\tCINQ\t5\tNUMBER\tDETACH",
  c!"LEXENTRY:\tCINQUANTE\t50\tNUMBER\tDETACH",
  c!"LEXENTRY:\tCINQUIÈME\t5E\tWORD,ORD\tDETACH",
  c!"LEXENTRY:\tCINÉMA\tCINÉMA\tPLACEN\tDETACH",
  c!"LEXENTRY:\tCITÉ\tCITÉ\tTYPE\tATT_PRE,DET_PRE",
  c!"LEXENTRY:\tCITÉ D'\tCITÉ\tTYPE\tATT_PRE",
  c!"LEXENTRY:\tCITÉ DE\tCITÉ\tTYPE\tDET_PRE",
  c!"LEXENTRY:\tCITÉ DE L'\tCITÉ\tTYPE\tATT_PRE",
  c!"LEXENTRY:\tCITÉ DE LA\tCITÉ\tTYPE\tDET_PRE",
  c!"LEXENTRY:\tCITÉ DES\tCITÉ\tTYPE\tDET_PRE",
  c!"LEXENTRY:\tCITÉ DU\tCITÉ\tTYPE\tDET_PRE",
  c!"LEXENTRY:\tCLOS\tCLOS\tTYPE\tATT_PRE,DET_PRE",
  c!"LEXENTRY:\tCLOS D'\tCLOS\tTYPE\tATT_PRE",
  c!"LEXENTRY:\tCLOS DE\tCLOS\tTYPE\tDET_PRE",
  c!"LEXENTRY:\tCLOS DE L'\tCLOS\tTYPE\tATT_PRE",
  c!"LEXENTRY:\tCLOS DE LA\tCLOS\tTYPE\tDET_PRE",
  c!"LEXENTRY:\tCLOS DES\tCLOS\tTYPE\tDET_PRE",
  c!"LEXENTRY:\tCLOS DU\tCLOS\tTYPE\tDET_PRE",
  c!"LEXENTRY:\tCO\tCO\tPLACEN\tDETACH",
  c!"LEXENTRY:\tCOLLÈGE\tCOLLÈGE\tPLACEN\tDETACH",
  c!"LEXENTRY:\tCOMPAGNIE\tCOMPAGNIE\tPLACEN\tDETACH",
  c!"LEXENTRY:\tCORDON\tCORDON\tTYPE\tDET_PRE",
  c!"LEXENTRY:\tCORDON DE\tCORDON\tTYPE\tDET_PRE",
  c!"LEXENTRY:\tCORP\tCORP\tPLACEN\tDETACH",
  c!"LEXENTRY:\tCORPORATION\tCORPORATION\tPLACEN\tDETACH",
  c!"LEXENTRY:\tCOTEAU\tCOTEAU\tTYPE\tATT_PRE",
  c!"LEXENTRY:\tCOTEAU D'\tCOTEAU\tTYPE\tATT_PRE",
  c!"LEXENTRY:\tCOTEAU D'\tCOTEAU D'\tTYPE\tDET_PRE",
  c!"LEXENTRY:\tCOTTAGE\tCOTTAGE\tTYPE\tDET_PRE",
  c!"LEXENTRY:\tCOTTAGE DE LA\tCOTTAGE\tTYPE\tDET_PRE",
  c!"LEXENTRY:\tCOTTAGE DES\tCOTTAGE\tTYPE\tDET_PRE",
  c!"LEXENTRY:\tCOTTAGES\tCOTTAGES\tTYPE\tDET_PRE,DET_SUF",
  c!"LEXENTRY:\tCOUR\tCOUR\tTYPE\tATT_PRE,DET_PRE",
  c!"LEXENTRY:\tCOUR AUX\tCOUR\tTYPE\tDET_PRE",
  c!"LEXENTRY:\tCOUR D'\tCOUR\tTYPE\tATT_PRE,DET_PRE",
  c!"LEXENTRY:\tCOUR DE\tCOUR\tTYPE\tDET_PRE",
  c!"LEXENTRY:\tCOUR DE L'\tCOUR\tTYPE\tATT_PRE,DET_PRE",
  c!"LEXENTRY:\tCOUR DE LA\tCOUR\tTYPE\tDET_PRE",
  c!"LEXENTRY:\tCOUR DES\tCOUR\tTYPE\tDET_PRE"]

/-- data/sample/france.lex:202-251 -/
def entries4 : List Str := [
  c!"LEXENTRY:\tCOUR DU\tCOUR\tTYPE\tDET_PRE",
  c!"LEXENTRY:\tCOUR À\tCOUR\tTYPE\tDET_PRE",
  c!"LEXENTRY:\tCOURS\tCOURS\tTYPE\tATT_PRE,DET_PRE",
  c!"LEXENTRY:\tCOURS D'\tCOURS\tTYPE\tATT_PRE,DET_PRE",
  c!"LEXENTRY:\tCOURS DE\tCOURS\tTYPE\tDET_PRE",
  c!"LEXENTRY:\tCOURS DE L'\tCOURS\tTYPE\tATT_PRE,DET_PRE",
  c!"LEXENTRY:\tCOURS DE LA\tCOURS\tTYPE\tDET_PRE",
  c!"LEXENTRY:\tCOURS DES\tCOURS\tTYPE\tDET_PRE",
  c!"LEXENTRY:\tCOURS DU\tCOURS\tTYPE\tDET_PRE",
  c!"LEXENTRY:\tCROIX\tCROIX\tTYPE\tDET_PRE",
  c!"LEXENTRY:\tCROIX DE\tCROIX\tTYPE\tDET_PRE",
  c!"LEXENTRY:\tCRÉDIT\tCRÉDIT\tPLACEN\tDETACH",
  c!"LEXENTRY:\tCÉDEX\tCÉDEX\tWORD\tDETACH",
  c!"LEXENTRY:\tCÔTE\tCÔTE\tTYPE\tATT_PRE,DET_PRE",
  c!"LEXENTRY:\tCÔTE D'\tCÔTE\tTYPE\tATT_PRE,DET_PRE",
  c!"LEXENTRY:\tCÔTE DE\tCÔTE\tTYPE\tDET_PRE",
  c!"LEXENTRY:\tCÔTE DE LA\tCÔTE\tTYPE\tDET_PRE",
  c!"LEXENTRY:\tCÔTE DES\tCÔTE\tTYPE\tDET_PRE",
  c!"LEXENTRY:\tCÔTE DU\tCÔTE\tTYPE\tDET_PRE",
  c!"LEXENTRY:\tDEMI-ÉCHANGEUR\tDEMI-ÉCHANGEUR\tTYPE\tDET_PRE",
  c!"LEXENTRY:\tDEMI-ÉCHANGEUR DE\tDEMI-ÉCHANGEUR\tTYPE\tDET_PRE",
  c!"LEXENTRY:\tDEMI-ÉCHANGEUR DES\tDEMI-ÉCHANGEUR\tTYPE\tDET_PRE",
  c!"LEXENTRY:\tDESSERTE\tDESSERTE\tTYPE\tDET_PRE",
  c!"LEXENTRY:\tDEUX\t2\tNUMBER\tDETACH",
  c!"LEXENTRY:\tDEUXIÈME\t2E\tWORD,ORD\tDETACH",
  c!"LEXENTRY:\tDIGUE\tDIGUE\tTYPE\tATT_PRE",
  c!"LEXENTRY:\tDIGUE D'\tDIGUE\tTYPE\tATT_PRE",
  c!"LEXENTRY:\tDIGUE D'\tDIGUE D'\tTYPE\tDET_PRE",
  c!"LEXENTRY:\tDIX\t10\tNUMBER\tDETACH",
  c!"LEXENTRY:\tDIX-HUIT\t18\tNUMBER\tDETACH",
  c!"LEXENTRY:\tDIX-NEUF\t19\tNUMBER\tDETACH",
  c!"LEXENTRY:\tDIX-SEPT\t17\tNUMBER\tDETACH",
  c!"LEXENTRY:\tDIXIÈME\t10E\tWORD,ORD\tDETACH",
  c!"LEXENTRY:\tDOCT\tDOCTEUR\tWORD\tDETACH",
  c!"LEXENTRY:\tDOCTEUR\tDOCTEUR\tWORD\tDETACH",
  c!"LEXENTRY:\tDOM\tDOMAINE\tTYPE\tDET_PRE",
  c!"LEXENTRY:\tDOM.\tDOMAINE\tTYPE\tDET_PRE",
  c!"LEXENTRY:\tDOMAINE\tDOMAINE\tTYPE\tATT_PRE,DET_PRE",
  c!"LEXENTRY:\tDOMAINE DE\tDOMAINE\tTYPE\tDET_PRE",
  c!"LEXENTRY:\tDOMAINE DE L'\tDOMAINE\tTYPE\tATT_PRE,DET_PRE",
  c!"LEXENTRY:\tDOMAINE DE LA\tDOMAINE\tTYPE\tDET_PRE",
  c!"LEXENTRY:\tDOMAINE DES\tDOMAINE\tTYPE\tDET_PRE",
  c!"LEXENTRY:\tDOMAINE DU\tDOMAINE\tTYPE\tDET_PRE",
  c!"LEXENTRY:\tDOUZE\t12\tNUMBER\tDETACH",
  c!"LEXENTRY:\tENCLOS\tENCLOS\tTYPE\tATT_PRE,DET_PRE",
  c!"LEXENTRY:\tENCLOS DE L'\tENCLOS\tTYPE\tATT_PRE,DET_PRE",
  c!"LEXENTRY:\tENTREPRISE\tENTREPRISE\tPLACEN\tDETACH",
  c!"LEXENTRY:\tESCALIER\tESCALIER\tTYPE\tDET_PRE",
  c!"LEXENTRY:\tESCALIER DE LA\tESCALIER\tTYPE\tDET_PRE",
  c!"LEXENTRY:\tESCALIER DES\tESCALIER\tTYPE\tDET_PRE"]

/-- data/sample/france.lex:252-301 -/
def entries5 : List Str := [
  c!"LEXENTRY:\tESCALIER DU\tESCALIER\tTYPE\tDET_PRE",
  c!"LEXENTRY:\tESPLANADE\tESPLANADE\tTYPE\tATT_PRE,DET_PRE",
  c!"LEXENTRY:\tESPLANADE D'\tESPLANADE\tTYPE\tATT_PRE,DET_PRE",
  c!"LEXENTRY:\tESPLANADE DE\tESPLANADE\tTYPE\tDET_PRE",
  c!"LEXENTRY:\tESPLANADE DE L'\tESPLANADE\tTYPE\tATT_PRE,DET_PRE",
  c!"LEXENTRY:\tESPLANADE DE LA\tESPLANADE\tTYPE\tDET_PRE",
  c!"LEXENTRY:\tESPLANADE DES\tESPLANADE\tTYPE\tDET_PRE",
  c!"LEXENTRY:\tESPLANADE DU\tESPLANADE\tTYPE\tDET_PRE",
  c!"LEXENTRY:\tEURL\tEURL\tPLACEN\tDETACH",
  c!"LEXENTRY:\tFACULTÉ\tFACULTÉ\tPLACEN\tDETACH",
  c!"LEXENTRY:\tFAUBOURG\tFAUBOURG\tTYPE,WORD\tDETACH,DET_PRE",
  c!"LEXENTRY:\tFAUBOURG DE\tFAUBOURG\tTYPE\tDET_PRE",
  c!"LEXENTRY:\tFBG\tFAUBOURG\tWORD\tDETACH",
  c!"LEXENTRY:\tFG\tFAUBOURG\tTYPE\tDET_PRE",
  c!"LEXENTRY:\tFG.\tFAUBOURG\tTYPE\tDET_PRE",
  c!"LEXENTRY:\tFORUM\tFORUM\tTYPE\tDET_PRE",
  c!"LEXENTRY:\tFR\tFRANCE\tNATION\tDETACH",
  c!"LEXENTRY:\tFRA\tFRANCE\tNATION\tDETACH",
  c!"LEXENTRY:\tCLIPPERTON ISLAND\tCPT\tNATION\tDETACH",
  c!"LEXENTRY:\tCPT\tCPT\tNATION\tDETACH",
  c!"LEXENTRY:\tFRENCH POLYNESIA\tPYF\tNATION\tDETACH",
  c!"LEXENTRY:\tPYF\tPYF\tNATION\tDETACH",
  c!"LEXENTRY:\tFRENCH SOUTHERN AND ANTARCTIC TERRITORIES\tATF\tNATION\tDETACH",
  c!"LEXENTRY:\tATF\tATF\tNATION\tDETACH",
  c!"LEXENTRY:\tNEW CALEDONIA\tNCL\tNATION\tDETACH",
  c!"LEXENTRY:\tNCL\tNCL\tNATION\tDETACH",
  c!"LEXENTRY:\tSAINT BARTHÉLEMY\tBLM\tNATION\tDETACH",
  c!"LEXENTRY:\tBLM\tBLM\tNATION\tDETACH",
  c!"LEXENTRY:\tSAINT MARTIN\tMAF\tNATION\tDETACH",
  c!"LEXENTRY:\tMAF\tMAF\tNATION\tDETACH",
  c!"LEXENTRY:\tSAINT PIERRE AND MIQUELON\tSPM\tNATION\tDETACH",
  c!"LEXENTRY:\tSPM\tSPM\tNATION\tDETACH",
  c!"LEXENTRY:\tWALLIS AND FUTUNA\tWLF\tNATION\tDETACH",
  c!"LEXENTRY:\tWLF\tWLF\tNATION\tDETACH",
  c!"LEXENTRY:\tFRENCH GUYANA\tGUF\tNATION\tDETACH",
  c!"LEXENTRY:\tGUF\tGUF\tNATION\tDETACH",
  c!"LEXENTRY:\tGUADELOUPE\tGLP\tNATION\tDETACH",
  c!"LEXENTRY:\tGLP\tGLP\tNATION\tDETACH",
  c!"LEXENTRY:\tMARTINIQUE\tMTQ\tNATION\tDETACH",
  c!"LEXENTRY:\tMTQ\tMTQ\tNATION\tDETACH",
  c!"LEXENTRY:\tMAYOTTE\tMYT\tNATION\tDETACH",
  c!"LEXENTRY:\tMYT\tMYT\tNATION\tDETACH",
  c!"LEXENTRY:\tRÉUNION\tREU\tNATION\tDETACH",
  c!"LEXENTRY:\tREU\tREU\tNATION\tDETACH",
  c!"LEXENTRY:\tGALERIE\tGALERIE\tPLACEN,TYPE\tATT_PRE,DETACH,DET_PRE",
  c!"LEXENTRY:\tGALERIE D'\tGALERIE\tTYPE\tATT_PRE,DET_PRE",
  c!"LEXENTRY:\tGALERIE DE\tGALERIE\tTYPE\tDET_PRE",
  c!"LEXENTRY:\tGALERIE DE LA\tGALERIE\tTYPE\tDET_PRE",
  c!"LEXENTRY:\tGALERIE DES\tGALERIE\tTYPE\tDET_PRE",
  c!"LEXENTRY:\tGALERIE DU\tGALERIE\tTYPE\tDET_PRE"]

/-- data/sample/france.lex:302-351 -/
def entries6 : List Str := [
  c!"LEXENTRY:\tGARE\tGARE\tPLACEN\tDETACH",
  c!"LEXENTRY:\tGIE\tGIE\tPLACEN\tDETACH",
  c!"LEXENTRY:\tGRAND SENTIER\tGRAND SENTIER\tTYPE\tDET_PRE",
  c!"LEXENTRY:\tGRANDE ALLÉE\tGRANDE ALLÉE\tTYPE\tDET_PRE",
  c!"LEXENTRY:\tGRANDE ALLÉE DE LA\tGRANDE ALLÉE\tTYPE\tDET_PRE",
  c!"LEXENTRY:\tGRANDE ALLÉE DES\tGRANDE ALLÉE\tTYPE\tDET_PRE",
  c!"LEXENTRY:\tGRANDE ALLÉE DU\tGRANDE ALLÉE\tTYPE\tDET_PRE",
  c!"LEXENTRY:\tGRANDE IMPASSE\tGRANDE IMPASSE\tTYPE\tDET_PRE",
  c!"LEXENTRY:\tGRANDE IMPASSE DES\tGRANDE IMPASSE\tTYPE\tDET_PRE",
  c!"LEXENTRY:\tGRANDE RUE\tGRANDE RUE\tTYPE\tDET_PRE",
  c!"LEXENTRY:\tGRANDE RUE DE\tGRANDE RUE\tTYPE\tDET_PRE",
  c!"LEXENTRY:\tGRANDE RUELLE\tGRANDE RUELLE\tTYPE\tDET_PRE",
  c!"LEXENTRY:\tGRANDE SENTE\tGRANDE SENTE\tTYPE\tDET_PRE",
  c!"LEXENTRY:\tGRANDE SENTE DES\tGRANDE SENTE\tTYPE\tDET_PRE",
  c!"LEXENTRY:\tGRANDE SENTE DU\tGRANDE SENTE\tTYPE\tDET_PRE",
  c!"LEXENTRY:\tGRANDE VOIE\tGRANDE VOIE\tTYPE\tDET_PRE",
  c!"LEXENTRY:\tGRANDE VOIE DES\tGRANDE VOIE\tTYPE\tDET_PRE",
  c!"LEXENTRY:\tGROUPE\tGROUPE\tPLACEN\tDETACH",
  c!"LEXENTRY:\tGROUPEMENT\tGROUPEMENT\tPLACEN\tDETACH",
  c!"LEXENTRY:\tGÉN\tGÉNÉRAL\tWORD\tDETACH",
  c!"LEXENTRY:\tGÉNÉRAL\tGÉNÉRAL\tWORD\tDETACH",
  c!"LEXENTRY:\tHAMEAU\tHAMEAU\tTYPE\tATT_PRE,DET_PRE",
  c!"LEXENTRY:\tHAMEAU D'\tHAMEAU\tTYPE\tATT_PRE,DET_PRE",
  c!"LEXENTRY:\tHAMEAU DE\tHAMEAU\tTYPE\tDET_PRE",
  c!"LEXENTRY:\tHAMEAU DE L'\tHAMEAU\tTYPE\tATT_PRE,DET_PRE",
  c!"LEXENTRY:\tHAMEAU DE LA\tHAMEAU\tTYPE\tDET_PRE",
  c!"LEXENTRY:\tHAMEAU DES\tHAMEAU\tTYPE\tDET_PRE",
  c!"LEXENTRY:\tHAMEAU DU\tHAMEAU\tTYPE\tDET_PRE",
  c!"LEXENTRY:\tHAMEAU LA\tHAMEAU\tTYPE\tDET_PRE",
  c!"LEXENTRY:\tHUIT\t8\tNUMBER\tDETACH",
  c!"LEXENTRY:\tHUITIÈME\t8E\tWORD,ORD\tDETACH",
  c!"LEXENTRY:\tHÔPITAL\tHÔPITAL\tPLACEN\tDETACH",
  c!"LEXENTRY:\tHÔTEL\tHÔTEL\tPLACEN\tDETACH",
  c!"LEXENTRY:\tIEU DIT\tLD\tTYPE\tDETACH",
  c!"LEXENTRY:\tLD\tLD\tTYPE\tDETACH",
  c!"LEXENTRY:\tIMM \tIMMEUBLE\tUNITH\tDETACH",
  c!"LEXENTRY:\tIMM.\tIMMEUBLE\tUNITH\tDETACH",
  c!"LEXENTRY:\tIMMEUBLE\tIMMEUBLE\tUNITH\tDETACH",
  c!"LEXENTRY:\tIMP\tIMPASSE\tTYPE\tDET_PRE",
  c!"LEXENTRY:\tIMP.\tIMPASSE\tTYPE\tDET_PRE",
  c!"LEXENTRY:\tIMPASSE\tIMPASSE\tTYPE\tATT_PRE,DET_PRE",
  c!"LEXENTRY:\tIMPASSE AU\tIMPASSE\tTYPE\tDET_PRE",
  c!"LEXENTRY:\tIMPASSE AUX\tIMPASSE\tTYPE\tDET_PRE",
  c!"LEXENTRY:\tIMPASSE D'\tIMPASSE\tTYPE\tATT_PRE,DET_PRE",
  c!"LEXENTRY:\tIMPASSE DE\tIMPASSE\tTYPE\tDET_PRE",
  c!"LEXENTRY:\tIMPASSE DE L'\tIMPASSE\tTYPE\tATT_PRE,DET_PRE",
  c!"LEXENTRY:\tIMPASSE DE LA\tIMPASSE\tTYPE\tDET_PRE",
  c!"LEXENTRY:\tIMPASSE DES\tIMPASSE\tTYPE\tDET_PRE",
  c!"LEXENTRY:\tIMPASSE DU\tIMPASSE\tTYPE\tDET_PRE",
  c!"LEXENTRY:\tIMPASSE L'\tIMPASSE\tTYPE\tATT_PRE,DET_PRE"]

/-- data/sample/france.lex:352-401 -/
def entries7 : List Str := [
  c!"LEXENTRY:\tIMPASSE À\tIMPASSE\tTYPE\tDET_PRE",
  c!"LEXENTRY:\tINSTITUT\tINSTITUT\tPLACEN\tDETACH",
  c!"LEXENTRY:\tJARDIN\tJARDIN\tPLACEN,TYPE\tATT_PRE,DETACH,DET_PRE",
  c!"LEXENTRY:\tJARDIN DE L'\tJARDIN\tTYPE\tATT_PRE,DET_PRE",
  c!"LEXENTRY:\tJARDIN DE LA\tJARDIN\tTYPE\tDET_PRE",
  c!"LEXENTRY:\tJARDIN DES\tJARDIN\tTYPE\tDET_PRE",
  c!"LEXENTRY:\tJARDIN DU\tJARDIN\tTYPE\tDET_PRE",
  c!"LEXENTRY:\tJARDINS DU\tJARDIN\tTYPE\tDET_PRE",
  c!"LEXENTRY:\tJETÉE\tJETÉE\tTYPE\tDET_PRE",
  c!"LEXENTRY:\tL'ORÉE\tL'ORÉE\tTYPE\tDET_PRE",
  c!"LEXENTRY:\tL'ORÉE DU\tL'ORÉE\tTYPE\tDET_PRE",
  c!"LEXENTRY:\tLA RÉSIDENCE\tLA RÉSIDENCE\tTYPE\tDET_PRE",
  c!"LEXENTRY:\tLA RÉSIDENCE DU\tLA RÉSIDENCE\tTYPE\tDET_PRE",
  c!"LEXENTRY:\tLABORATOIRE\tLABORATOIRE\tPLACEN\tDETACH",
  c!"LEXENTRY:\tLE CLOS\tLE CLOS\tTYPE\tDET_PRE",
  c!"LEXENTRY:\tLE CLOS DE\tLE CLOS\tTYPE\tDET_PRE",
  c!"LEXENTRY:\tLE CLOS DE LA\tLE CLOS\tTYPE\tDET_PRE",
  c!"LEXENTRY:\tLE CLOS DES\tLE CLOS\tTYPE\tDET_PRE",
  c!"LEXENTRY:\tLE CLOS DU\tLE CLOS\tTYPE\tDET_PRE",
  c!"LEXENTRY:\tLE FOND DES\tLE CLOS\tTYPE\tDET_PRE",
  c!"LEXENTRY:\tLE JARDIN\tLE JARDIN\tTYPE\tDET_PRE",
  c!"LEXENTRY:\tLE JARDIN DE\tLE JARDIN\tTYPE\tDET_PRE",
  c!"LEXENTRY:\tLE PARC\tLE PARC\tTYPE\tDET_PRE",
  c!"LEXENTRY:\tLE PARC DE\tLE PARC\tTYPE\tDET_PRE",
  c!"LEXENTRY:\tLE PARC DU\tLE PARC\tTYPE\tDET_PRE",
  c!"LEXENTRY:\tLES JARDINS\tLES JARDINS\tTYPE\tDET_PRE",
  c!"LEXENTRY:\tLES JARDINS DE LA\tLES JARDINS\tTYPE\tDET_PRE",
  c!"LEXENTRY:\tLES JARDINS DES\tLES JARDINS\tTYPE\tDET_PRE",
  c!"LEXENTRY:\tLES JARDINS DU\tLES JARDINS\tTYPE\tDET_PRE",
  c!"LEXENTRY:\tLES TERRASSES\tLES TERRASSES\tTYPE\tDET_PRE",
  c!"LEXENTRY:\tLES TERRASSES DE\tLES TERRASSES\tTYPE\tDET_PRE",
  c!"LEXENTRY:\tLES TERRASSES DE LA\tLES TERRASSES\tTYPE\tDET_PRE",
  c!"LEXENTRY:\tLES VILLAS\tLES VILLAS\tTYPE\tATT_PRE,DET_PRE",
  c!"LEXENTRY:\tLES VILLAS DE L'\tLES VILLAS\tTYPE\tATT_PRE,DET_PRE",
  c!"LEXENTRY:\tLIEU-DIT\tLIEU-DIT\tTYPE\tDET_PRE",
  c!"LEXENTRY:\tLOT\tLOTISSEMENT\tTYPE\tATT_PRE,DET_PRE",
  c!"LEXENTRY:\tLOTISSEMENT\tLOTISSEMENT\tTYPE\tATT_PRE,DET_PRE",
  c!"LEXENTRY:\tLOTISSEMENT DE L'\tLOTISSEMENT\tTYPE\tATT_PRE,DET_PRE",
  c!"LEXENTRY:\tLOTISSEMENT DE LA\tLOTISSEMENT\tTYPE\tDET_PRE",
  c!"LEXENTRY:\tLOTISSEMENT DU\tLOTISSEMENT\tTYPE\tDET_PRE",
  c!"LEXENTRY:\tLYCÉE\tLYCÉE\tPLACEN\tDETACH",
  c!"LEXENTRY:\tMAIL\tMAIL\tTYPE\tATT_PRE,DET_PRE",
  c!"LEXENTRY:\tMAIL AUX\tMAIL\tTYPE\tDET_PRE",
  c!"LEXENTRY:\tMAIL DE\tMAIL\tTYPE\tDET_PRE",
  c!"LEXENTRY:\tMAIL DE L'\tMAIL\tTYPE\tATT_PRE,DET_PRE",
  c!"LEXENTRY:\tMAIL DE LA\tMAIL\tTYPE\tDET_PRE",
  c!"LEXENTRY:\tMAIL DES\tMAIL\tTYPE\tDET_PRE",
  c!"LEXENTRY:\tMAIL DU\tMAIL\tTYPE\tDET_PRE",
  c!"LEXENTRY:\tMAISON\tMAISON\tPLACEN,UNITH\tDETACH",
  c!"LEXENTRY:\tMARCHÉ\tMARCHÉ\tPLACEN,TYPE\tDETACH,DET_PRE"]

/-- data/sample/france.lex:402-451 -/
def entries8 : List Str := [
  c!"LEXENTRY:\tMARCHÉ DE\tMARCHÉ\tTYPE\tDET_PRE",
  c!"LEXENTRY:\tMARCHÉ DE LA\tMARCHÉ\tTYPE\tDET_PRE",
  c!"LEXENTRY:\tMONT\tMONTAGNE\tTYPE\tDET_PRE",
  c!"LEXENTRY:\tMONTAGNE\tMONTAGNE\tTYPE\tDET_PRE",
  c!"LEXENTRY:\tMONTÉE\tMONTÉE\tTYPE\tDET_PRE",
  c!"LEXENTRY:\tMONTÉE DE LA\tMONTÉE\tTYPE\tDET_PRE",
  c!"LEXENTRY:\tMONTÉE DES\tMONTÉE\tTYPE\tDET_PRE",
  c!"LEXENTRY:\tMONTÉE DU\tMONTÉE\tTYPE\tDET_PRE",
  c!"LEXENTRY:\tMT\tMONTAGNE\tTYPE\tDET_PRE",
  c!"LEXENTRY:\tMUSÉE\tMUSÉE\tPLACEN\tDETACH",
  c!"LEXENTRY:\tNEUF\t9\tNUMBER\tDETACH",
  c!"LEXENTRY:\tNEUVIÈME\t9E\tWORD,ORD\tDETACH",
  c!"LEXENTRY:\tNOUVEAU CHEMIN\tNOUVEAU CHEMIN\tTYPE\tDET_PRE",
  c!"LEXENTRY:\tNOUVEAU CHEMIN DES\tNOUVEAU CHEMIN\tTYPE\tDET_PRE",
  c!"LEXENTRY:\tNOUVELLE CITÉ\tNOUVELLE CITÉ\tTYPE\tDET_PRE",
  c!"LEXENTRY:\tNOUVELLE CITÉ DE\tNOUVELLE CITÉ\tTYPE\tDET_PRE",
  c!"LEXENTRY:\tONZE\t11\tNUMBER\tDETACH",
  c!"LEXENTRY:\tORÉE\tORÉE\tTYPE\tDET_PRE",
  c!"LEXENTRY:\tORÉE DE\tORÉE\tTYPE\tDET_PRE",
  c!"LEXENTRY:\tORÉE DU\tORÉE\tTYPE\tDET_PRE",
  c!"LEXENTRY:\tP\tHAMEAU\tTYPE\tDET_PRE",
  c!"LEXENTRY:\tP\tSENTIER\tTYPE\tDET_PRE",
  c!"LEXENTRY:\tPARC\tPARC\tPLACEN,TYPE\tATT_PRE,DETACH,DET_PRE",
  c!"LEXENTRY:\tPARC AUX\tPARC\tTYPE\tDET_PRE",
  c!"LEXENTRY:\tPARC DE\tPARC\tTYPE\tDET_PRE",
  c!"LEXENTRY:\tPARC DE L'\tPARC\tTYPE\tATT_PRE,DET_PRE",
  c!"LEXENTRY:\tPARC DE LA\tPARC\tTYPE\tDET_PRE",
  c!"LEXENTRY:\tPARC DES\tPARC\tTYPE\tDET_PRE",
  c!"LEXENTRY:\tPARC DU\tPARC\tTYPE\tDET_PRE",
  c!"LEXENTRY:\tPARVIS\tPARVIS\tTYPE\tATT_PRE,DET_PRE",
  c!"LEXENTRY:\tPARVIS DE L'\tPARVIS\tTYPE\tATT_PRE,DET_PRE",
  c!"LEXENTRY:\tPARVIS DE LA\tPARVIS\tTYPE\tDET_PRE",
  c!"LEXENTRY:\tPARVIS DES\tPARVIS\tTYPE\tDET_PRE",
  c!"LEXENTRY:\tPARVIS DU\tPARVIS\tTYPE\tDET_PRE",
  c!"LEXENTRY:\tPAS\tPASSAGE\tTYPE\tDET_PRE,DET_SUF",
  c!"LEXENTRY:\tPAS.\tPASSAGE\tTYPE\tDET_PRE,DET_SUF",
  c!"LEXENTRY:\tPASS\tPASSAGE\tTYPE\tDET_PRE,DET_SUF",
  c!"LEXENTRY:\tPASS.\tPASSAGE\tTYPE\tDET_PRE,DET_SUF",
  c!"LEXENTRY:\tPASSAGE\tPASSAGE\tTYPE\tATT_PRE,DET_PRE,DET_SUF",
  c!"LEXENTRY:\tPASSAGE AUX\tPASSAGE\tTYPE\tDET_PRE",
  c!"LEXENTRY:\tPASSAGE D'\tPASSAGE\tTYPE\tATT_PRE,DET_PRE",
  c!"LEXENTRY:\tPASSAGE DE\tPASSAGE\tTYPE\tDET_PRE",
  c!"LEXENTRY:\tPASSAGE DE L'\tPASSAGE\tTYPE\tATT_PRE,DET_PRE",
  c!"LEXENTRY:\tPASSAGE DE LA\tPASSAGE\tTYPE\tDET_PRE",
  c!"LEXENTRY:\tPASSAGE DES\tPASSAGE\tTYPE\tDET_PRE",
  c!"LEXENTRY:\tPASSAGE DU\tPASSAGE\tTYPE\tDET_PRE",
  c!"LEXENTRY:\tPASSE\tPASSE\tTYPE\tATT_PRE,DET_PRE",
  c!"LEXENTRY:\tPASSE DE L'\tPASSE\tTYPE\tATT_PRE,DET_PRE",
  c!"LEXENTRY:\tPASSERELLE\tPASSERELLE\tTYPE\tATT_PRE,DET_PRE",
  c!"LEXENTRY:\tPASSERELLE D'\tPASSERELLE\tTYPE\tATT_PRE,DET_PRE"]

/-- data/sample/france.lex:452-501 -/
def entries9 : List Str := [
  c!"LEXENTRY:\tPASSERELLE DE\tPASSERELLE\tTYPE\tDET_PRE",
  c!"LEXENTRY:\tPASSERELLE DE L'\tPASSERELLE\tTYPE\tDET_PRE",
  c!"LEXENTRY:\tPASSERELLE DE LA\tPASSERELLE\tTYPE\tDET_PRE",
  c!"LEXENTRY:\tPASSERELLE DES\tPASSERELLE\tTYPE\tDET_PRE",
  c!"LEXENTRY:\tPASSERELLE DU\tPASSERELLE\tTYPE\tDET_PRE",
  c!"LEXENTRY:\tPETIT CHEMIN\tPETIT CHEMIN\tTYPE\tDET_PRE",
  c!"LEXENTRY:\tPETIT CHEMIN DE\tPETIT CHEMIN\tTYPE\tDET_PRE",
  c!"LEXENTRY:\tPETIT CHEMIN DU\tPETIT CHEMIN\tTYPE\tDET_PRE",
  c!"LEXENTRY:\tPETIT SENTIER\tPETIT SENTIER\tTYPE\tDET_PRE",
  c!"LEXENTRY:\tPETIT SENTIER DES\tPETIT SENTIER\tTYPE\tDET_PRE",
  c!"LEXENTRY:\tPETITE IMPASSE\tPETITE IMPASSE\tTYPE\tDET_PRE",
  c!"LEXENTRY:\tPETITE IMPASSE DES\tPETITE IMPASSE\tTYPE\tDET_PRE",
  c!"LEXENTRY:\tPETITE ROUTE\tPETITE ROUTE\tTYPE\tATT_PRE,DET_PRE",
  c!"LEXENTRY:\tPETITE ROUTE DE L'\tPETITE ROUTE\tTYPE\tATT_PRE,DET_PRE",
  c!"LEXENTRY:\tPETITE RUE\tPETITE RUE\tTYPE\tDET_PRE",
  c!"LEXENTRY:\tPETITE RUE DE LA\tPETITE RUE\tTYPE\tDET_PRE",
  c!"LEXENTRY:\tPETITE RUE DU\tPETITE RUE\tTYPE\tDET_PRE",
  c!"LEXENTRY:\tPETITE RUELLE\tPETITE RUELLE\tTYPE\tDET_PRE",
  c!"LEXENTRY:\tPETITE SENTE\tPETITE SENTE\tTYPE\tDET_PRE",
  c!"LEXENTRY:\tPETITE SENTE DES\tPETITE SENTE\tTYPE\tDET_PRE",
  c!"LEXENTRY:\tPETITE VOIE\tPETITE VOIE\tTYPE\tDET_PRE",
  c!"LEXENTRY:\tPETITE VOIE DE\tPETITE VOIE\tTYPE\tDET_PRE",
  c!"LEXENTRY:\tPETITE VOIE DES\tPETITE VOIE\tTYPE\tDET_PRE",
  c!"LEXENTRY:\tPISTE\tPISTE\tTYPE\tDET_PRE",
  c!"LEXENTRY:\tPISTE DU\tPISTE\tTYPE\tDET_PRE",
  c!"LEXENTRY:\tPL\tPLACE\tTYPE\tDET_PRE",
  c!"LEXENTRY:\tPL.\tPLACE\tTYPE\tDET_PRE",
  c!"LEXENTRY:\tPLACE\tPLACE\tTYPE\tATT_PRE,DET_PRE",
  c!"LEXENTRY:\tPLACE AU\tPLACE\tTYPE\tDET_PRE",
  c!"LEXENTRY:\tPLACE AUX\tPLACE\tTYPE\tDET_PRE",
  c!"LEXENTRY:\tPLACE D'\tPLACE\tTYPE\tATT_PRE,DET_PRE",
  c!"LEXENTRY:\tPLACE DE\tPLACE\tTYPE\tDET_PRE",
  c!"LEXENTRY:\tPLACE DE L'\tPLACE\tTYPE\tATT_PRE,DET_PRE",
  c!"LEXENTRY:\tPLACE DE LA\tPLACE\tTYPE\tDET_PRE",
  c!"LEXENTRY:\tPLACE DES\tPLACE\tTYPE\tDET_PRE",
  c!"LEXENTRY:\tPLACE DU\tPLACE\tTYPE\tDET_PRE",
  c!"LEXENTRY:\tPLACE À\tPLACE\tTYPE\tDET_PRE",
  c!"LEXENTRY:\tPLACETTE\tPLACETTE\tTYPE\tDET_PRE",
  c!"LEXENTRY:\tPLACETTE DE\tPLACETTE\tTYPE\tDET_PRE",
  c!"LEXENTRY:\tPLACETTE DE LA\tPLACETTE\tTYPE\tDET_PRE",
  c!"LEXENTRY:\tPLACETTE DES\tPLACETTE\tTYPE\tDET_PRE",
  c!"LEXENTRY:\tPLACETTE DU\tPLACETTE\tTYPE\tDET_PRE",
  c!"LEXENTRY:\tPLAINE\tPLAINE\tTYPE\tDET_PRE",
  c!"LEXENTRY:\tPLAINE DES\tPLAINE\tTYPE\tDET_PRE",
  c!"LEXENTRY:\tPLATEAU\tPLATEAU\tTYPE\tDET_PRE",
  c!"LEXENTRY:\tPLATEAU DE LA\tPLATEAU\tTYPE\tDET_PRE",
  c!"LEXENTRY:\tPOINT DES\tROND-POINT\tTYPE\tDET_PRE",
  c!"LEXENTRY:\tPONT\tPONT\tTYPE\tATT_PRE,DET_PRE",
  c!"LEXENTRY:\tPONT AU\tPONT\tTYPE\tDET_PRE",
  c!"LEXENTRY:\tPONT AUX\tPONT\tTYPE\tDET_PRE"]

/-- data/sample/france.lex:502-551 -/
def entries10 : List Str := [
  c!"LEXENTRY:\tPONT D'\tPONT\tTYPE\tATT_PRE,DET_PRE",
  c!"LEXENTRY:\tPONT DE\tPONT\tTYPE\tDET_PRE",
  c!"LEXENTRY:\tPONT DE L'\tPONT\tTYPE\tATT_PRE,DET_PRE",
  c!"LEXENTRY:\tPONT DE LA\tPONT\tTYPE\tDET_PRE",
  c!"LEXENTRY:\tPONT DES\tPONT\tTYPE\tDET_PRE",
  c!"LEXENTRY:\tPONT DU\tPONT\tTYPE\tDET_PRE",
  c!"LEXENTRY:\tPORT\tPORT\tTYPE\tATT_PRE,DET_PRE",
  c!"LEXENTRY:\tPORT D'\tPORT\tTYPE\tATT_PRE,DET_PRE",
  c!"LEXENTRY:\tPORT DE\tPORT\tTYPE\tDET_PRE",
  c!"LEXENTRY:\tPORT DE L'\tPORT\tTYPE\tATT_PRE,DET_PRE",
  c!"LEXENTRY:\tPORT DE LA\tPORT\tTYPE\tDET_PRE",
  c!"LEXENTRY:\tPORT DES\tPORT\tTYPE\tDET_PRE",
  c!"LEXENTRY:\tPORT DU\tPORT\tTYPE\tDET_PRE",
  c!"LEXENTRY:\tPORTE\tPORTE\tTYPE\tATT_PRE,DET_PRE",
  c!"LEXENTRY:\tPORTE AUX\tPORTE\tTYPE\tDET_PRE",
  c!"LEXENTRY:\tPORTE D'\tPORTE\tTYPE\tATT_PRE,DET_PRE",
  c!"LEXENTRY:\tPORTE DE\tPORTE\tTYPE\tDET_PRE",
  c!"LEXENTRY:\tPORTE DE L'\tPORTE\tTYPE\tATT_PRE,DET_PRE",
  c!"LEXENTRY:\tPORTE DE LA\tPORTE\tTYPE\tDET_PRE",
  c!"LEXENTRY:\tPORTE DES\tPORTE\tTYPE\tDET_PRE",
  c!"LEXENTRY:\tPORTE DU\tPORTE\tTYPE\tDET_PRE",
  c!"LEXENTRY:\tPOTERNE\tPOTERNE\tTYPE\tDET_PRE",
  c!"LEXENTRY:\tPOTERNE DES\tPOTERNE\tTYPE\tDET_PRE",
  c!"LEXENTRY:\tPREMIER\t1ER\tWORD,ORD\tDETACH",
  c!"LEXENTRY:\tPREMIÈRE\t1ER\tWORD,ORD\tDETACH",
  c!"LEXENTRY:\tPROMENADE\tPROMENADE\tTYPE\tATT_PRE,DET_PRE,DET_SUF",
  c!"LEXENTRY:\tPROMENADE \tPROMENADE\tTYPE\tDET_PRE,DET_SUF",
  c!"LEXENTRY:\tPROMENADE DE\tPROMENADE\tTYPE\tDET_PRE",
  c!"LEXENTRY:\tPROMENADE DE L'\tPROMENADE\tTYPE\tATT_PRE,DET_PRE",
  c!"LEXENTRY:\tPROMENADE DE LA\tPROMENADE\tTYPE\tDET_PRE",
  c!"LEXENTRY:\tPROMENADE DES\tPROMENADE\tTYPE\tDET_PRE",
  c!"LEXENTRY:\tPROMENADE DU\tPROMENADE\tTYPE\tDET_PRE",
  c!"LEXENTRY:\tPROMENÉE\tPROMENÉE\tTYPE\tDET_PRE",
  c!"LEXENTRY:\tPROMENÉE DES\tPROMENÉE\tTYPE\tDET_PRE",
  c!"LEXENTRY:\tPRÉS\tPRÉSIDENT\tWORD\tDETACH",
  c!"LEXENTRY:\tPRÉS.\tPRÉSIDENT\tWORD\tDETACH",
  c!"LEXENTRY:\tPRÉSIDENT\tPRÉSIDENT\tWORD\tDETACH",
  c!"LEXENTRY:\tQRT\tQUARTIER\tTYPE\tDET_PRE",
  c!"LEXENTRY:\tQRT.\tQUARTIER\tTYPE\tDET_PRE",
  c!"LEXENTRY:\tQU\tQUARTIER\tTYPE\tDET_PRE",
  c!"LEXENTRY:\tQU.\tQUARTIER\tTYPE\tDET_PRE",
  c!"LEXENTRY:\tQUA\tQUARTIER\tTYPE\tDET_PRE",
  c!"LEXENTRY:\tQUA.\tQUARTIER\tTYPE\tDET_PRE",
  c!"LEXENTRY:\tQUAI\tQUAI\tTYPE\tATT_PRE,DET_PRE",
  c!"LEXENTRY:\tQUAI AUX\tQUAI\tTYPE\tDET_PRE",
  c!"LEXENTRY:\tQUAI D'\tQUAI\tTYPE\tATT_PRE,DET_PRE",
  c!"LEXENTRY:\tQUAI DE\tQUAI\tTYPE\tDET_PRE",
  c!"LEXENTRY:\tQUAI DE L'\tQUAI\tTYPE\tATT_PRE,DET_PRE",
  c!"LEXENTRY:\tQUAI DE LA\tQUAI\tTYPE\tDET_PRE",
  c!"LEXENTRY:\tQUAI DES\tQUAI\tTYPE\tDET_PRE"]

/-- data/sample/france.lex:552-601 -/
def entries11 : List Str := [
  c!"LEXENTRY:\tQUAI DU\tQUAI\tTYPE\tDET_PRE",
  c!"LEXENTRY:\tQUARANTE\t40\tNUMBER\tDETACH",
  c!"LEXENTRY:\tQUARTIER\tQUARTIER\tTYPE\tDET_PRE",
  c!"LEXENTRY:\tQUARTIER DE LA\tQUARTIER\tTYPE\tDET_PRE",
  c!"LEXENTRY:\tQUARTIER DES\tQUARTIER\tTYPE\tDET_PRE",
  c!"LEXENTRY:\tQUATORZE\t14\tNUMBER\tDETACH",
  c!"LEXENTRY:\tQUATRE\t4\tNUMBER\tDETACH",
  c!"LEXENTRY:\tQUATRIÈME\t4E\tWORD,ORD\tDETACH",
  c!"LEXENTRY:\tQUINZE\t15\tNUMBER\tDETACH",
  c!"LEXENTRY:\tR\tRUE\tTYPE\tDET_PRE",
  c!"LEXENTRY:\tR.\tRUE\tTYPE\tDET_PRE",
  c!"LEXENTRY:\tRAMPE\tRAMPE\tTYPE\tDET_PRE",
  c!"LEXENTRY:\tRAMPE DE\tRAMPE\tTYPE\tDET_PRE",
  c!"LEXENTRY:\tRAMPE DE LA\tRAMPE\tTYPE\tDET_PRE",
  c!"LEXENTRY:\tRAMPE DU\tRAMPE\tTYPE\tDET_PRE",
  c!"LEXENTRY:\tREMPART\tREMPART\tTYPE\tDET_PRE",
  c!"LEXENTRY:\tREMPART DES\tREMPART\tTYPE\tDET_PRE",
  c!"LEXENTRY:\tREMPART DU\tREMPART\tTYPE\tDET_PRE",
  c!"LEXENTRY:\tRES\tRÉSIDENCE\tUNITH\tDETACH",
  c!"LEXENTRY:\tRES.\tRÉSIDENCE\tUNITH\tDETACH",
  c!"LEXENTRY:\tRESTAURANT\tRESTAURANT\tPLACEN\tDETACH",
  c!"LEXENTRY:\tROCADE\tROCADE\tTYPE\tDET_PRE",
  c!"LEXENTRY:\tROCADE DE\tROCADE\tTYPE\tDET_PRE",
  c!"LEXENTRY:\tROCADE DE LA\tROCADE\tTYPE\tDET_PRE",
  c!"LEXENTRY:\tRPT\tROND-POINT\tTYPE\tDET_PRE",
  c!"LEXENTRY:\tROND-P\tROND-POINT\tTYPE\tDET_PRE",
  c!"LEXENTRY:\tROND-POINT\tROND-POINT\tTYPE\tATT_PRE,DET_PRE",
  c!"LEXENTRY:\tROND-POINT D'\tROND-POINT\tTYPE\tATT_PRE,DET_PRE",
  c!"LEXENTRY:\tROND-POINT DE\tROND-POINT\tTYPE\tDET_PRE",
  c!"LEXENTRY:\tROND-POINT DE L'\tROND-POINT\tTYPE\tATT_PRE,DET_PRE",
  c!"LEXENTRY:\tROND-POINT DE LA\tROND-POINT\tTYPE\tDET_PRE",
  c!"LEXENTRY:\tROND-POINT DU\tROND-POINT\tTYPE\tDET_PRE",
  c!"LEXENTRY:\tROTONDE\tROTONDE\tTYPE\tATT_PRE,DET_PRE",
  c!"LEXENTRY:\tROTONDE D'\tROTONDE\tTYPE\tATT_PRE,DET_PRE",
  c!"LEXENTRY:\tROTONDE DE LA\tROTONDE\tTYPE\tDET_PRE",
  c!"LEXENTRY:\tROUTE\tROUTE\tTYPE\tATT_PRE,DET_PRE",
  c!"LEXENTRY:\tROUTE AU\tROUTE\tTYPE\tDET_PRE",
  c!"LEXENTRY:\tROUTE AUX\tROUTE\tTYPE\tDET_PRE",
  c!"LEXENTRY:\tROUTE D'\tROUTE\tTYPE\tATT_PRE,DET_PRE",
  c!"LEXENTRY:\tROUTE DE\tROUTE\tTYPE\tDET_PRE",
  c!"LEXENTRY:\tROUTE DE L'\tROUTE\tTYPE\tATT_PRE,DET_PRE",
  c!"LEXENTRY:\tROUTE DE LA\tROUTE\tTYPE\tDET_PRE",
  c!"LEXENTRY:\tROUTE DES\tROUTE\tTYPE\tDET_PRE",
  c!"LEXENTRY:\tROUTE DU\tROUTE\tTYPE\tDET_PRE",
  c!"LEXENTRY:\tROUTE FORESTIÈRE\tROUTE FORESTIÈRE\tTYPE\tATT_PRE,DET_PRE",
  c!"LEXENTRY:\tROUTE FORESTIÈRE D'\tROUTE FORESTIÈRE\tTYPE\tATT_PRE,DET_PRE",
  c!"LEXENTRY:\tROUTE FORESTIÈRE DE\tROUTE FORESTIÈRE\tTYPE\tDET_PRE",
  c!"LEXENTRY:\tROUTE FORESTIÈRE DE L'\tROUTE FORESTIÈRE\tTYPE\tATT_PRE,DET_PRE",
  c!"LEXENTRY:\tROUTE FORESTIÈRE DE LA\tROUTE FORESTIÈRE\tTYPE\tDET_PRE",
  c!"LEXENTRY:\tROUTE FORESTIÈRE DES\tROUTE FORESTIÈRE\tTYPE\tDET_PRE"]

/-- data/sample/france.lex:602-651 -/
def entries12 : List Str := [
  c!"LEXENTRY:\tROUTE FORESTIÈRE DU\tROUTE FORESTIÈRE\tTYPE\tDET_PRE",
  c!"LEXENTRY:\tRPT\tROND-POINT\tTYPE\tDET_PRE",
  c!"LEXENTRY:\tRPT.\tROND-POINT\tTYPE\tDET_PRE",
  c!"LEXENTRY:\tRTE\tROUTE\tTYPE\tDET_PRE",
  c!"LEXENTRY:\tRTE.\tROUTE\tTYPE\tDET_PRE",
  c!"LEXENTRY:\tRUE\tRUE\tTYPE\tATT_PRE,DET_PRE",
  c!"LEXENTRY:\tRUE AU\tRUE\tTYPE\tDET_PRE",
  c!"LEXENTRY:\tRUE AUX\tRUE\tTYPE\tDET_PRE",
  c!"LEXENTRY:\tRUE D'\tRUE\tTYPE\tATT_PRE,DET_PRE",
  c!"LEXENTRY:\tRUE DE\tRUE\tTYPE\tDET_PRE",
  c!"LEXENTRY:\tRUE DE L'\tRUE\tTYPE\tATT_PRE,DET_PRE",
  c!"LEXENTRY:\tRUE DE LA\tRUE\tTYPE\tDET_PRE",
  c!"LEXENTRY:\tRUE DES\tRUE\tTYPE\tDET_PRE",
  c!"LEXENTRY:\tRUE DU\tRUE\tTYPE\tDET_PRE",
  c!"LEXENTRY:\tRUE L'\tRUE\tTYPE\tATT_PRE,DET_PRE",
  c!"LEXENTRY:\tRUE LA\tRUE\tTYPE\tDET_PRE",
  c!"LEXENTRY:\tRUE LE\tRUE\tTYPE\tDET_PRE",
  c!"LEXENTRY:\tRUE LES\tRUE\tTYPE\tDET_PRE",
  c!"LEXENTRY:\tRUE À\tRUE\tTYPE\tDET_PRE",
  c!"LEXENTRY:\tRUELLE\tRUELLE\tTYPE\tATT_PRE,DET_PRE",
  c!"LEXENTRY:\tRUELLE AU\tRUELLE\tTYPE\tDET_PRE",
  c!"LEXENTRY:\tRUELLE AUX\tRUELLE\tTYPE\tDET_PRE",
  c!"LEXENTRY:\tRUELLE D'\tRUELLE\tTYPE\tDET_PRE",
  c!"LEXENTRY:\tRUELLE DE\tRUELLE\tTYPE\tDET_PRE",
  c!"LEXENTRY:\tRUELLE DE L'\tRUELLE\tTYPE\tATT_PRE,DET_PRE",
  c!"LEXENTRY:\tRUELLE DE LA\tRUELLE\tTYPE\tDET_PRE",
  c!"LEXENTRY:\tRUELLE DES\tRUELLE\tTYPE\tDET_PRE",
  c!"LEXENTRY:\tRUELLE DU\tRUELLE\tTYPE\tDET_PRE",
  c!"LEXENTRY:\tRUELLE À\tRUELLE\tTYPE\tDET_PRE",
  c!"LEXENTRY:\tRÉS\tRÉSIDENCE\tUNITH\tDETACH",
  c!"LEXENTRY:\tRÉS.\tRÉSIDENCE\tUNITH\tDETACH",
  c!"LEXENTRY:\tRÉSIDENCE\tRÉSIDENCE\tTYPE,UNITH\tATT_PRE,DETACH,DET_PRE",
  c!"LEXENTRY:\tRÉSIDENCE D'\tRÉSIDENCE\tTYPE\tATT_PRE,DET_PRE",
  c!"LEXENTRY:\tRÉSIDENCE DE\tRÉSIDENCE\tTYPE\tDET_PRE",
  c!"LEXENTRY:\tRÉSIDENCE DE L'\tRÉSIDENCE\tTYPE\tATT_PRE,DET_PRE",
  c!"LEXENTRY:\tRÉSIDENCE DE LA\tRÉSIDENCE\tTYPE\tDET_PRE",
  c!"LEXENTRY:\tRÉSIDENCE DES\tRÉSIDENCE\tTYPE\tDET_PRE",
  c!"LEXENTRY:\tRÉSIDENCE DU\tRÉSIDENCE\tTYPE\tDET_PRE",
  c!"LEXENTRY:\tRÉSIDENCE L'\tRÉSIDENCE\tTYPE\tATT_PRE,DET_PRE",
  c!"LEXENTRY:\tRÉSIDENCE LA\tRÉSIDENCE\tTYPE\tDET_PRE",
  c!"LEXENTRY:\tRÉSIDENCE LE\tRÉSIDENCE\tTYPE\tDET_PRE",
  c!"LEXENTRY:\tRÉSIDENCE LES\tRÉSIDENCE\tTYPE\tDET_PRE",
  c!"LEXENTRY:\tS\tHAMEAU\tTYPE\tDET_PRE",
  c!"LEXENTRY:\tS\tROND-POINT\tTYPE\tDET_PRE",
  c!"LEXENTRY:\tS\tSENTIER\tTYPE\tDET_PRE",
  c!"LEXENTRY:\tSA\tSA\tPLACEN\tDETACH",
  c!"LEXENTRY:\tSAINT\tSAINT\tWORD\tDETACH",
  c!"LEXENTRY:\tSARL\tSARL\tPLACEN\tDETACH",
  c!"LEXENTRY:\tSC\tSC\tPLACEN\tDETACH",
  c!"LEXENTRY:\tSCA\tSCA\tPLACEN\tDETACH"]

/-- data/sample/france.lex:652-701 -/
def entries13 : List Str := [
  c!"LEXENTRY:\tSCS\tSCS\tPLACEN\tDETACH",
  c!"LEXENTRY:\tSEIZE\t16\tNUMBER\tDETACH",
  c!"LEXENTRY:\tSENTE\tSENTE\tTYPE\tATT_PRE,DET_PRE",
  c!"LEXENTRY:\tSENTE AU\tSENTE\tTYPE\tDET_PRE",
  c!"LEXENTRY:\tSENTE AUX\tSENTE\tTYPE\tDET_PRE",
  c!"LEXENTRY:\tSENTE D'\tSENTE\tTYPE\tATT_PRE,DET_PRE",
  c!"LEXENTRY:\tSENTE DE\tSENTE\tTYPE\tDET_PRE",
  c!"LEXENTRY:\tSENTE DE L'\tSENTE\tTYPE\tATT_PRE,DET_PRE",
  c!"LEXENTRY:\tSENTE DE LA\tSENTE\tTYPE\tDET_PRE",
  c!"LEXENTRY:\tSENTE DES\tSENTE\tTYPE\tDET_PRE",
  c!"LEXENTRY:\tSENTE DU\tSENTE\tTYPE\tDET_PRE",
  c!"LEXENTRY:\tSENTIER\tSENTIER\tTYPE\tATT_PRE,DET_PRE",
  c!"LEXENTRY:\tSENTIER AUX\tSENTIER\tTYPE\tDET_PRE",
  c!"LEXENTRY:\tSENTIER D'\tSENTIER\tTYPE\tATT_PRE,DET_PRE",
  c!"LEXENTRY:\tSENTIER DE\tSENTIER\tTYPE\tDET_PRE",
  c!"LEXENTRY:\tSENTIER DE L'\tSENTIER\tTYPE\tATT_PRE,DET_PRE",
  c!"LEXENTRY:\tSENTIER DE LA\tSENTIER\tTYPE\tDET_PRE",
  c!"LEXENTRY:\tSENTIER DES\tSENTIER\tTYPE\tDET_PRE",
  c!"LEXENTRY:\tSENTIER DU\tSENTIER\tTYPE\tDET_PRE",
  c!"LEXENTRY:\tSENTIERS\tSENTIER\tTYPE\tDET_PRE",
  c!"LEXENTRY:\tSENTIERS DES\tSENTIER\tTYPE\tDET_PRE",
  c!"LEXENTRY:\tSEPT\t7\tNUMBER\tDETACH",
  c!"LEXENTRY:\tSEPTIÈME\t7E\tWORD,ORD\tDETACH",
  c!"LEXENTRY:\tSEUIL\tSEUIL\tTYPE\tDET_PRE",
  c!"LEXENTRY:\tSEUIL DE\tSEUIL\tTYPE\tDET_PRE",
  c!"LEXENTRY:\tSIX\t6\tNUMBER\tDETACH",
  c!"LEXENTRY:\tSIXIÈME\t6E\tWORD,ORD\tDETACH",
  c!"LEXENTRY:\tSNC\tSNC\tPLACEN\tDETACH",
  c!"LEXENTRY:\tSOCIÉTÉ\tSOCIÉTÉ\tPLACEN\tDETACH",
  c!"LEXENTRY:\tSOIXANTE\t60\tNUMBER\tDETACH",
  c!"LEXENTRY:\tSP\tSP\tPLACEN\tDETACH",
  c!"LEXENTRY:\tSPRL\tSPRL\tPLACEN\tDETACH",
  c!"LEXENTRY:\tSQ\tSQUARE\tTYPE\tDET_PRE",
  c!"LEXENTRY:\tSQ.\tSQUARE\tTYPE\tDET_PRE",
  c!"LEXENTRY:\tSQUARE\tSQUARE\tTYPE\tATT_PRE,DET_PRE",
  c!"LEXENTRY:\tSQUARE AUX\tSQUARE\tTYPE\tDET_PRE",
  c!"LEXENTRY:\tSQUARE D'\tSQUARE\tTYPE\tATT_PRE,DET_PRE",
  c!"LEXENTRY:\tSQUARE DE\tSQUARE\tTYPE\tDET_PRE",
  c!"LEXENTRY:\tSQUARE DE L'\tSQUARE\tTYPE\tATT_PRE,DET_PRE",
  c!"LEXENTRY:\tSQUARE DE LA\tSQUARE\tTYPE\tDET_PRE",
  c!"LEXENTRY:\tSQUARE DES\tSQUARE\tTYPE\tDET_PRE",
  c!"LEXENTRY:\tSQUARE DU\tSQUARE\tTYPE\tDET_PRE",
  c!"LEXENTRY:\tSQUARE LES\tSQUARE\tTYPE\tDET_PRE",
  c!"LEXENTRY:\tST\tSAINT\tWORD\tDETACH",
  c!"LEXENTRY:\tSTADE\tSTADE\tPLACEN\tDETACH",
  c!"LEXENTRY:\tSTE\tSTE\tPLACEN\tDETACH",
  c!"LEXENTRY:\tTERRASSE\tTERRASSE\tTYPE\tATT_PRE,DET_PRE",
  c!"LEXENTRY:\tTERRASSE DE L'\tTERRASSE\tTYPE\tATT_PRE,DET_PRE",
  c!"LEXENTRY:\tTERRASSE DE LA \tTERRASSE\tTYPE\tDET_PRE",
  c!"LEXENTRY:\tTHÉÂTRE\tTHÉÂTRE\tPLACEN\tDETACH"]

/-- data/sample/france.lex:702-751 -/
def entries14 : List Str := [
  c!"LEXENTRY:\tTRA\tTRAVERSE\tTYPE\tDET_PRE",
  c!"LEXENTRY:\tTRA.\tTRAVERSE\tTYPE\tDET_PRE",
  c!"LEXENTRY:\tTRAVERSE\tTRAVERSE\tTYPE\tATT_PRE,DET_PRE",
  c!"LEXENTRY:\tTRAVERSE DE\tTRAVERSE\tTYPE\tDET_PRE",
  c!"LEXENTRY:\tTRAVERSE DE L'\tTRAVERSE\tTYPE\tATT_PRE,DET_PRE",
  c!"LEXENTRY:\tTRAVERSE DE LA\tTRAVERSE\tTYPE\tDET_PRE",
  c!"LEXENTRY:\tTRAVERSE DU\tTRAVERSE\tTYPE\tDET_PRE",
  c!"LEXENTRY:\tTREIZE\t13\tNUMBER\tDETACH",
  c!"LEXENTRY:\tTRENTE\t30\tNUMBER\tDETACH",
  c!"LEXENTRY:\tTRIANGLE DE\tTRAVERSE\tTYPE\tDET_PRE",
  c!"LEXENTRY:\tTROIS\t3\tNUMBER\tDETACH",
  c!"LEXENTRY:\tTROISIÈME\t3E\tWORD,ORD\tDETACH",
  c!"LEXENTRY:\tUN\t1\tNUMBER\tDETACH",
  c!"LEXENTRY:\tUNIVERSITAIRE\tUNIVERSITAIRE\tPLACEN\tDETACH",
  c!"LEXENTRY:\tUNIVERSITÉ\tUNIVERSITÉ\tPLACEN\tDETACH",
  c!"LEXENTRY:\tVAL\tVALLÉE\tTYPE\tDET_PRE",
  c!"LEXENTRY:\tVALLÉE\tVALLÉE\tTYPE\tDET_PRE",
  c!"LEXENTRY:\tVALLÉE AUX\tVALLÉE\tTYPE\tDET_PRE",
  c!"LEXENTRY:\tVALLÉE DES\tVALLÉE\tTYPE\tDET_PRE",
  c!"LEXENTRY:\tVENELLE\tVENELLE\tTYPE\tDET_PRE",
  c!"LEXENTRY:\tVENELLE AU\tVENELLE\tTYPE\tDET_PRE",
  c!"LEXENTRY:\tVENELLE DE\tVENELLE\tTYPE\tDET_PRE",
  c!"LEXENTRY:\tVENELLE DES\tVENELLE\tTYPE\tDET_PRE",
  c!"LEXENTRY:\tVENELLE DU\tVENELLE\tTYPE\tDET_PRE",
  c!"LEXENTRY:\tVIEILLE ROUTE\tVIEILLE ROUTE\tTYPE\tDET_PRE",
  c!"LEXENTRY:\tVIEILLE ROUTE DE \tVIEILLE ROUTE\tTYPE\tDET_PRE",
  c!"LEXENTRY:\tVIEILLE RUE\tVIEILLE RUE\tTYPE\tDET_PRE",
  c!"LEXENTRY:\tVIEILLE RUE AUX\tVIEILLE RUE\tTYPE\tDET_PRE",
  c!"LEXENTRY:\tVIEUX CHEMIN\tVIEUX CHEMIN\tTYPE\tDET_PRE",
  c!"LEXENTRY:\tVIEUX CHEMIN DE\tVIEUX CHEMIN\tTYPE\tDET_PRE",
  c!"LEXENTRY:\tVILLA\tVILLA\tTYPE,UNITH\tATT_PRE,DETACH,DET_PRE",
  c!"LEXENTRY:\tVILLA D'\tVILLA\tTYPE\tATT_PRE,DET_PRE",
  c!"LEXENTRY:\tVILLA DE\tVILLA\tTYPE\tDET_PRE",
  c!"LEXENTRY:\tVILLA DE L'\tVILLA\tTYPE\tATT_PRE,DET_PRE",
  c!"LEXENTRY:\tVILLA DE LA\tVILLA\tTYPE\tDET_PRE",
  c!"LEXENTRY:\tVILLA DES\tVILLA\tTYPE\tDET_PRE",
  c!"LEXENTRY:\tVILLA DU\tVILLA\tTYPE\tDET_PRE",
  c!"LEXENTRY:\tVILLA LES\tVILLA\tTYPE\tDET_PRE",
  c!"LEXENTRY:\tVILLAGE\tVILLAGE\tTYPE\tDET_PRE",
  c!"LEXENTRY:\tVILLAGE DE\tVILLAGE\tTYPE\tDET_PRE",
  c!"LEXENTRY:\tVILLAGE DES\tVILLAGE\tTYPE\tDET_PRE",
  c!"LEXENTRY:\tVILLAS\tVILLAS\tTYPE\tDET_PRE",
  c!"LEXENTRY:\tVILLAS D'\tVILLAS\tTYPE\tDET_PRE",
  c!"LEXENTRY:\tVINGT\t20\tNUMBER\tDETACH",
  c!"LEXENTRY:\tVLA\tVILLA\tUNITH\tDETACH",
  c!"LEXENTRY:\tVOIE\tVOIE\tTYPE\tATT_PRE,DET_PRE",
  c!"LEXENTRY:\tVOIE AU\tVOIE\tTYPE\tDET_PRE",
  c!"LEXENTRY:\tVOIE AUX\tVOIE\tTYPE\tDET_PRE",
  c!"LEXENTRY:\tVOIE D'\tVOIE\tTYPE\tATT_PRE,DET_PRE",
  c!"LEXENTRY:\tVOIE DE\tVOIE\tTYPE\tDET_PRE"]

/-- data/sample/france.lex:752-781 -/
def entries15 : List Str := [
  c!"LEXENTRY:\tVOIE DE L'\tVOIE\tTYPE\tATT_PRE,DET_PRE",
  c!"LEXENTRY:\tVOIE DE LA\tVOIE\tTYPE\tDET_PRE",
  c!"LEXENTRY:\tVOIE DES\tVOIE\tTYPE\tDET_PRE",
  c!"LEXENTRY:\tVOIE DU\tVOIE\tTYPE\tDET_PRE",
  c!"LEXENTRY:\tVOIRIE\tVOIRIE\tTYPE\tDET_PRE",
  c!"LEXENTRY:\tVOIRIE DE LA\tVOIRIE\tTYPE\tDET_PRE",
  c!"LEXENTRY:\tVOIRIE DES\tVOIRIE\tTYPE\tDET_PRE",
  c!"LEXENTRY:\tZA\tZONE D'ACTIVITE\tTYPE\tATT_PRE,DET_PRE",
  c!"LEXENTRY:\tZONE D'ACTIVITE\tZONE D'ACTIVITE\tTYPE\tATT_PRE,DET_PRE",
  c!"LEXENTRY:\tZONE D'AMENAGEMENT CONCERTE\tZONE D'AMENAGEMENT CONCERTE\tTYPE\tATT_PRE,DET_PRE",
  c!"LEXENTRY:\tZAC\tZONE D'AMENAGEMENT CONCERTE\tTYPE\tATT_PRE,DET_PRE",
  c!"LEXENTRY:\tZONE D'AMENAGEMENT DIFFERE\tZONE D'AMENAGEMENT DIFFERE\tTYPE\tATT_PRE,DET_PRE",
  c!"LEXENTRY:\tZAD\tZONE D'AMENAGEMENT DIFFERE\tTYPE\tATT_PRE,DET_PRE",
  c!"LEXENTRY:\tZONE INDUSTRIELLE\tZONE INDUSTRIELLE\tTYPE\tATT_PRE,DET_PRE",
  c!"LEXENTRY:\tZI\tZONE INDUSTRIELLE\tTYPE\tATT_PRE,DET_PRE",
  c!"LEXENTRY:\tÉCHANGEUR\tÉCHANGEUR\tTYPE\tATT_PRE,DET_PRE",
  c!"LEXENTRY:\tÉCHANGEUR D'\tÉCHANGEUR\tTYPE\tATT_PRE,DET_PRE",
  c!"LEXENTRY:\tÉCHANGEUR DE\tÉCHANGEUR\tTYPE\tDET_PRE",
  c!"LEXENTRY:\tÉCHANGEUR DE LA\tÉCHANGEUR\tTYPE\tDET_PRE",
  c!"LEXENTRY:\tÉCHANGEUR DES\tÉCHANGEUR\tTYPE\tDET_PRE",
  c!"LEXENTRY:\tÉCOLE\tÉCOLE\tPLACEN\tDETACH",
  c!"LEXENTRY:\tÉTABLISSEMENT\tÉTABLISSEMENT\tPLACEN\tDETACH",
  c!"LEXENTRY:\tÉTOILE\tÉTOILE\tTYPE\tATT_PRE,DET_PRE",
  c!"LEXENTRY:\tÉTOILE D'\tÉTOILE\tTYPE\tATT_PRE,DET_PRE",
  c!"LEXENTRY:\tÉTOILE DE\tÉTOILE\tTYPE\tDET_PRE",
  c!"LEXENTRY:\tÉTOILE DE LA\tÉTOILE\tTYPE\tDET_PRE",
  c!"LEXENTRY:\tÉTOILE DES\tÉTOILE\tTYPE\tDET_PRE",
  c!"LEXENTRY:\tÉTOILE DU\tÉTOILE\tTYPE\tDET_PRE",
  c!"LEXENTRY:\tÎLE\tÎLE\tTYPE\tDET_PRE",
  c!"LEXENTRY:\tÎLE DE LA\tÎLE\tTYPE\tDET_PRE"]

/-- The text, and what is claimed of it. -/
def lexicon : LexSample where
  header := c!"LEXICON:\tlex-france.txt\tFRE\tfr_FR"
  body := entries0 ++ entries1 ++ entries2 ++ entries3 ++ entries4 ++ entries5 ++ entries6 ++ entries7 ++ entries8
     ++ entries9 ++ entries10 ++ entries11 ++ entries12 ++ entries13 ++ entries14 ++ entries15
  lang := .FRE
  locale := c!"fr_FR"
  classes := [
    .WORD, .NUMBER, .ORD, .PLACEN, .TYPE, .UNITH, .BOXH, .NATION]

set_option maxRecDepth 1000000 in
theorem lexicon_checked : checkLex lexicon [0, 1, 4, 37, 38, 60, 107, 266] = true := by decide +kernel

/-- What of the grammar cannot match. -/
def pair : Pair where
  sample := sample
  lexicon := lexicon
  idle := [
    c!"UNITH UNITT -> UNITH UNITT -> 0.8",
    c!"CITY -> CITY -> 0.9",
    c!"CITY BOXH -> CITY EXTRA -> 0.9",
    c!"CITY BOXH NUMBER -> CITY EXTRA EXTRA -> 0.9"]
  null := [.building, .predir, .qual, .suftype, .sufdir, .ruralroute, .prov]

/-- What shows it. -/
def pairCert : PairCert where
  dead := [.CITY, .UNITT]
  barren := []
  reach := [
    c!"ADDRESS", c!"micro", c!"macro", c!"pobox", c!"housenumber", c!"streetname", c!"unit", c!"postal",
    c!"citywords", c!"country", c!"city"]

set_option maxRecDepth 100000 in
theorem pair_checked : checkPair pair pairCert = true := by decide +kernel

end AS.Sample.France
