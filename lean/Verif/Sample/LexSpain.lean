import Verif.Lemmas.LexCheck
import Verif.Lemmas.PairCheck
import Verif.Sample.Spain
/-
The lexicon data/sample/spain.lex (all 710 lines), and what of spain.gmr cannot match with it. Written by
tools/lexicons.py.
-/
namespace AS.Sample.Spain

/-- data/sample/spain.lex:2-51 -/
def entries0 : List Str := [
  c!"LEXENTRY:\tAPARTADO\tAPARTADO\tBOXH\tDETACH",
  c!"LEXENTRY:\tAPARTADO DE CORREOS\tAPARTADO DE CORREOS\tBOXH\tDETACH",
  c!"LEXENTRY:\tAPARTAT DE CORREUS\tAPARTADO DE CORREOS\tBOXH\tDETACH",
  c!"LEXENTRY:\tAPARTAT\tAPARTADO\tBOXH\tDETACH",
  c!"LEXENTRY:\tAPTO\tAPARTADO\tBOXH\tDETACH",
  c!"LEXENTRY:\tAPTO.\tAPARTADO\tBOXH\tDETACH",
  c!"LEXENTRY:\tPOSTA KUTXATILA\tPOSTA KUTXATILA\tBOXH\tDETACH",
  c!"LEXENTRY:\tº\tº\tUNITH\tATT_SUF,DET_SUF",
  c!"LEXENTRY:\t°\t°\tUNITH\tATT_SUF,DET_SUF",
  c!"LEXENTRY:\tA CORUÑA\tLA CORUÑA\tPROV,CITY\tDETACH",
  c!"LEXENTRY:\tALACANT\tALICANTE\tPROV,CITY\tDETACH",
  c!"LEXENTRY:\tALAMEDA\tALAMEDA\tTYPE\tDET_PRE",
  c!"LEXENTRY:\tALAMEDA DE\tALAMEDA DE\tTYPE\tDET_PRE",
  c!"LEXENTRY:\tALAMEDA DE LA\tALAMEDA DE LA\tTYPE\tDET_PRE",
  c!"LEXENTRY:\tALAMEDA DE LAS\tALAMEDA DE LAS\tTYPE\tDET_PRE",
  c!"LEXENTRY:\tALAMEDA DEL\tALAMEDA DEL\tTYPE\tDET_PRE",
  c!"LEXENTRY:\tALAVA\tÁLAVA\tPROV,CITY\tDETACH",
  c!"LEXENTRY:\tALBACETE\tALBACETE\tPROV,CITY\tDETACH",
  c!"LEXENTRY:\tALDAPA\tALDAPA\tTYPE\tDET_SUF",
  c!"LEXENTRY:\tALICANTE\tALICANTE\tPROV,CITY\tDETACH",
  c!"LEXENTRY:\tALMERIA\tALMERÍA\tPROV,CITY\tDETACH",
  c!"LEXENTRY:\tALMERÍA\tALMERÍA\tPROV,CITY\tDETACH",
  c!"LEXENTRY:\tARABA\tÁLAVA\tPROV,CITY\tDETACH",
  c!"LEXENTRY:\tASTURIAS\tASTURIAS\tPROV,CITY\tDETACH",
  c!"LEXENTRY:\tASTURIE\tASTURIAS\tPROV,CITY\tDETACH",
  c!"LEXENTRY:\tASTURIEN\tASTURIAS\tPROV,CITY\tDETACH",
  c!"LEXENTRY:\tASTURIË\tASTURIAS\tPROV,CITY\tDETACH",
  c!"LEXENTRY:\tASTÚRIAS\tASTURIAS\tPROV,CITY\tDETACH",
  c!"LEXENTRY:\tAUTOBIA\tAUTOBIA\tTYPE\tDET_SUF",
  c!"LEXENTRY:\tAUTOBIDEA\tAUTOBIDEA\tTYPE\tDET_SUF",
  c!"LEXENTRY:\tAUTOPISTA\tAUTOPISTA\tTYPE\tDET_PRE",
  c!"LEXENTRY:\tAUTOPISTA DE\tAUTOPISTA DE\tTYPE\tDET_PRE",
  c!"LEXENTRY:\tAUTOPISTA DEL\tAUTOPISTA DEL\tTYPE\tDET_PRE",
  c!"LEXENTRY:\tAUTOVIA\tAUTOVIA\tTYPE\tDET_PRE",
  c!"LEXENTRY:\tAUTOVIA DE\tAUTOVIA DE\tTYPE\tDET_PRE",
  c!"LEXENTRY:\tAUZUNEA\tAUZUNEA\tTYPE\tDET_SUF",
  c!"LEXENTRY:\tAV\tAVENIDA\tTYPE\tDET_PRE",
  c!"LEXENTRY:\tAV DA\tAVENIDA DA\tTYPE\tDET_PRE",
  c!"LEXENTRY:\tAV DAS\tAVENIDA DAS\tTYPE\tDET_PRE",
  c!"LEXENTRY:\tAV DE\tAVENIDA DE\tTYPE\tDET_PRE",
  c!"LEXENTRY:\tAV DE LA\tAVENIDA DE LA\tTYPE\tDET_PRE",
  c!"LEXENTRY:\tAV DE LAS\tAVENIDA DE LAS\tTYPE\tDET_PRE",
  c!"LEXENTRY:\tAV DE LOS\tAVENIDA DE LOS\tTYPE\tDET_PRE",
  c!"LEXENTRY:\tAV DEL\tAVENIDA DEL\tTYPE\tDET_PRE",
  c!"LEXENTRY:\tAV DO\tAVENIDA DO\tTYPE\tDET_PRE",
  c!"LEXENTRY:\tAV.\tAVENIDA\tTYPE\tDET_PRE",
  c!"LEXENTRY:\tAV. DA\tAVENIDA DA\tTYPE\tDET_PRE",
  c!"LEXENTRY:\tAV. DAS\tAVENIDA DAS\tTYPE\tDET_PRE",
  c!"LEXENTRY:\tAV. DE\tAVENIDA DE\tTYPE\tDET_PRE",
  c!"LEXENTRY:\tAV. DE LA\tAVENIDA DE LA\tTYPE\tDET_PRE"]

/-- data/sample/spain.lex:52-101 -/
def entries1 : List Str := [
  c!"LEXENTRY:\tAV. DE LAS\tAVENIDA DE LAS\tTYPE\tDET_PRE",
  c!"LEXENTRY:\tAV. DE LOS\tAVENIDA DE LOS\tTYPE\tDET_PRE",
  c!"LEXENTRY:\tAV. DEL\tAVENIDA DEL\tTYPE\tDET_PRE",
  c!"LEXENTRY:\tAV. DO\tAVENIDA DO\tTYPE\tDET_PRE",
  c!"LEXENTRY:\tAVDA\tAVENIDA\tTYPE\tDET_PRE",
  c!"LEXENTRY:\tAVDA DA\tAVENIDA DA\tTYPE\tDET_PRE",
  c!"LEXENTRY:\tAVDA DAS\tAVENIDA DAS\tTYPE\tDET_PRE",
  c!"LEXENTRY:\tAVDA DE\tAVENIDA DE\tTYPE\tDET_PRE",
  c!"LEXENTRY:\tAVDA DE LA\tAVENIDA DE LA\tTYPE\tDET_PRE",
  c!"LEXENTRY:\tAVDA DE LAS\tAVENIDA DE LAS\tTYPE\tDET_PRE",
  c!"LEXENTRY:\tAVDA DE LOS\tAVENIDA DE LOS\tTYPE\tDET_PRE",
  c!"LEXENTRY:\tAVDA DEL\tAVENIDA DEL\tTYPE\tDET_PRE",
  c!"LEXENTRY:\tAVDA DO\tAVENIDA DO\tTYPE\tDET_PRE",
  c!"LEXENTRY:\tAVDA.\tAVENIDA\tTYPE\tDET_PRE",
  c!"LEXENTRY:\tAVDA. DA\tAVENIDA DA\tTYPE\tDET_PRE",
  c!"LEXENTRY:\tAVDA. DAS\tAVENIDA DAS\tTYPE\tDET_PRE",
  c!"LEXENTRY:\tAVDA. DE\tAVENIDA DE\tTYPE\tDET_PRE",
  c!"LEXENTRY:\tAVDA. DE LA\tAVENIDA DE LA\tTYPE\tDET_PRE",
  c!"LEXENTRY:\tAVDA. DE LAS\tAVENIDA DE LAS\tTYPE\tDET_PRE",
  c!"LEXENTRY:\tAVDA. DE LOS\tAVENIDA DE LOS\tTYPE\tDET_PRE",
  c!"LEXENTRY:\tAVDA. DEL\tAVENIDA DEL\tTYPE\tDET_PRE",
  c!"LEXENTRY:\tAVDA. DO\tAVENIDA DO\tTYPE\tDET_PRE",
  c!"LEXENTRY:\tAVENIDA\tAVENIDA\tTYPE\tDET_PRE",
  c!"LEXENTRY:\tAVENIDA DA\tAVENIDA DA\tTYPE\tDET_PRE",
  c!"LEXENTRY:\tAVENIDA DAS\tAVENIDA DAS\tTYPE\tDET_PRE",
  c!"LEXENTRY:\tAVENIDA DE\tAVENIDA DE\tTYPE\tDET_PRE",
  c!"LEXENTRY:\tAVENIDA DE LA\tAVENIDA DE LA\tTYPE\tDET_PRE",
  c!"LEXENTRY:\tAVENIDA DE LAS\tAVENIDA DE LAS\tTYPE\tDET_PRE",
  c!"LEXENTRY:\tAVENIDA DE LOS\tAVENIDA DE LOS\tTYPE\tDET_PRE",
  c!"LEXENTRY:\tAVENIDA DEL\tAVENIDA DEL\tTYPE\tDET_PRE",
  c!"LEXENTRY:\tAVENIDA DO\tAVENIDA DO\tTYPE\tDET_PRE",
  c!"LEXENTRY:\tAVILA\tÁVILA\tPROV,CITY\tDETACH",
  c!"LEXENTRY:\tAVINGUDA\tAVINGUDA\tTYPE\tDET_PRE",
  c!"LEXENTRY:\tAVINGUDA D'\tAVINGUDA D'\tTYPE\tATT_PRE",
  c!"LEXENTRY:\tAVINGUDA DE\tAVINGUDA DE\tTYPE\tDET_PRE",
  c!"LEXENTRY:\tAVINGUDA DE L'\tAVINGUDA DE L'\tTYPE\tATT_PRE",
  c!"LEXENTRY:\tAVINGUDA DE LA\tAVINGUDA DE LA\tTYPE\tDET_PRE",
  c!"LEXENTRY:\tAVINGUDA DE LES\tAVINGUDA DE LES\tTYPE\tDET_PRE",
  c!"LEXENTRY:\tAVINGUDA DEL\tAVINGUDA DEL\tTYPE\tDET_PRE",
  c!"LEXENTRY:\tAVINGUDA DELS\tAVINGUDA DELS\tTYPE\tDET_PRE",
  c!"LEXENTRY:\tBADAJOZ\tBADAJOZ\tPROV,CITY\tDETACH",
  c!"LEXENTRY:\tBAIXADA DE\tBAIXADA DE\tTYPE\tDET_PRE",
  c!"LEXENTRY:\tBAIXADA DE LA\tBAIXADA DE LA\tTYPE\tDET_PRE",
  c!"LEXENTRY:\tBAIXADA DEL\tBAIXADA DEL\tTYPE\tDET_PRE",
  c!"LEXENTRY:\tBALEAREN\tBALEAREN\tPROV,CITY\tDETACH",
  c!"LEXENTRY:\tBALEARENE\tBALEAREN\tPROV,CITY\tDETACH",
  c!"LEXENTRY:\tBALEARERNA\tBALEAREN\tPROV,CITY\tDETACH",
  c!"LEXENTRY:\tBALEARES\tBALEAREN\tPROV,CITY\tDETACH",
  c!"LEXENTRY:\tBALEARIC ISLANDS\tBALEAREN\tPROV,CITY\tDETACH",
  c!"LEXENTRY:\tBALEARISCHE INSELN\tBALEAREN\tPROV,CITY\tDETACH"]

/-- data/sample/spain.lex:102-151 -/
def entries2 : List Str := [
  c!"LEXENTRY:\tBARCELLONA\tBARCELONA\tPROV,CITY\tDETACH",
  c!"LEXENTRY:\tBARCELONA\tBARCELONA\tPROV,CITY\tDETACH",
  c!"LEXENTRY:\tBARCELONE\tBARCELONA\tPROV,CITY\tDETACH",
  c!"LEXENTRY:\tBARRI\tBARRI\tTYPE\tDET_PRE",
  c!"LEXENTRY:\tBARRIADA\tBARRIADA\tTYPE\tDET_PRE",
  c!"LEXENTRY:\tBARRIADA DE LA\tBARRIADA DE LA\tTYPE\tDET_PRE",
  c!"LEXENTRY:\tBARRIO\tBARRIO\tWORD,TYPE\tDET_PRE",
  c!"LEXENTRY:\tBARRIO DE\tBARRIO DE\tWORD,TYPE\tDET_PRE",
  c!"LEXENTRY:\tBARRIO DE LA\tBARRIO DE LA\tWORD,TYPE\tDET_PRE",
  c!"LEXENTRY:\tBARRIO DE LAS\tBARRIO DE LAS\tWORD,TYPE\tDET_PRE",
  c!"LEXENTRY:\tBARRIO DEL\tBARRIO DEL\tWORD,TYPE\tDET_PRE",
  c!"LEXENTRY:\tBIDARIAK\tBIDARIAK\tTYPE\tDET_SUF",
  c!"LEXENTRY:\tBIDEA\tBIDEA\tTYPE\tDET_SUF",
  c!"LEXENTRY:\tBIZKAIA\tVIZCAYA\tPROV,CITY\tDETACH",
  c!"LEXENTRY:\tBLOQUE\tBLOQUE\tUNITH\tDETACH",
  c!"LEXENTRY:\tBURGOS\tBURGOS\tPROV,CITY\tDETACH",
  c!"LEXENTRY:\tC/\tCALLE\tTYPE\tDET_PRE",
  c!"LEXENTRY:\tC/ DE\tCALLE DE\tTYPE\tDET_PRE",
  c!"LEXENTRY:\tC/ DE LA\tCALLE DE LA\tTYPE\tDET_PRE",
  c!"LEXENTRY:\tC/ DE LAS\tCALLE DE LAS\tTYPE\tDET_PRE",
  c!"LEXENTRY:\tC/ DE LOS\tCALLE DE LOS\tTYPE\tDET_PRE",
  c!"LEXENTRY:\tC/ DEL\tCALLE DEL\tTYPE\tDET_PRE",
  c!"LEXENTRY:\tC/ PARTICULAR\tCALLE PARTICULAR\tTYPE\tDET_PRE",
  c!"LEXENTRY:\tC/ PARTICULAR DE\tCALLE PARTICULAR DE\tTYPE\tDET_PRE",
  c!"LEXENTRY:\tC/ PARTICULAR DE LA\tCALLE PARTICULAR DE LA\tTYPE\tDET_PRE",
  c!"LEXENTRY:\tC/ PARTICULAR DEL\tCALLE PARTICULAR DEL\tTYPE\tDET_PRE",
  c!"LEXENTRY:\tCADICE\tCÁDIZ\tPROV,CITY\tDETACH",
  c!"LEXENTRY:\tCADIX\tCÁDIZ\tPROV,CITY\tDETACH",
  c!"LEXENTRY:\tCADIZ\tCÁDIZ\tPROV,CITY\tDETACH",
  c!"LEXENTRY:\tCALEXÓN\tCALEXÓN\tTYPE\tDET_PRE",
  c!"LEXENTRY:\tCALEXÓN DE\tCALEXÓN DE\tTYPE\tDET_PRE",
  c!"LEXENTRY:\tCALEXÓN DO\tCALEXÓN DO\tTYPE\tDET_PRE",
  c!"LEXENTRY:\tCALEXÓN DOS\tCALEXÓN DOS\tTYPE\tDET_PRE",
  c!"LEXENTRY:\tCALLE\tCALLE\tTYPE\tDET_PRE",
  c!"LEXENTRY:\tCALLE DE\tCALLE DE\tTYPE\tDET_PRE",
  c!"LEXENTRY:\tCALLE DE LA\tCALLE DE LA\tTYPE\tDET_PRE",
  c!"LEXENTRY:\tCALLE DE LAS\tCALLE DE LAS\tTYPE\tDET_PRE",
  c!"LEXENTRY:\tCALLE DE LOS\tCALLE DE LOS\tTYPE\tDET_PRE",
  c!"LEXENTRY:\tCALLE DEL\tCALLE DEL\tTYPE\tDET_PRE",
  c!"LEXENTRY:\tCALLE PARTICULAR\tCALLE PARTICULAR\tTYPE\tDET_PRE",
  c!"LEXENTRY:\tCALLE PARTICULAR DE\tCALLE PARTICULAR DE\tTYPE\tDET_PRE",
  c!"LEXENTRY:\tCALLE PARTICULAR DE LA\tCALLE PARTICULAR DE LA\tTYPE\tDET_PRE",
  c!"LEXENTRY:\tCALLE PARTICULAR DEL\tCALLE PARTICULAR DEL\tTYPE\tDET_PRE",
  c!"LEXENTRY:\tCALLEJÓN\tCALLEJÓN\tTYPE\tDET_PRE",
  c!"LEXENTRY:\tCALLEJÓN DE\tCALLEJÓN DE\tTYPE\tDET_PRE",
  c!"LEXENTRY:\tCALLEJÓN DE LA\tCALLEJÓN DE LA\tTYPE\tDET_PRE",
  c!"LEXENTRY:\tCALLEJÓN DE LOS\tCALLEJÓN DE LOS\tTYPE\tDET_PRE",
  c!"LEXENTRY:\tCALLEJÓN DEL\tCALLEJÓN DEL\tTYPE\tDET_PRE",
  c!"LEXENTRY:\tCAMINO\tCAMINO\tTYPE\tDET_PRE",
  c!"LEXENTRY:\tCAMINO DE\tCAMINO DE\tTYPE\tDET_PRE"]

/-- data/sample/spain.lex:152-201 -/
def entries3 : List Str := [
  c!"LEXENTRY:\tCAMINO DE LA\tCAMINO DE LA\tTYPE\tDET_PRE",
  c!"LEXENTRY:\tCAMINO DE LAS\tCAMINO DE LAS\tTYPE\tDET_PRE",
  c!"LEXENTRY:\tCAMINO DE LOS\tCAMINO DE LOS\tTYPE\tDET_PRE",
  c!"LEXENTRY:\tCAMINO DEL\tCAMINO DEL\tTYPE\tDET_PRE",
  c!"LEXENTRY:\tCAMIÑO\tCAMIÑO\tTYPE\tDET_PRE",
  c!"LEXENTRY:\tCAMIÑO DA\tCAMIÑO DA\tTYPE\tDET_PRE",
  c!"LEXENTRY:\tCAMIÑO DAS\tCAMIÑO DAS\tTYPE\tDET_PRE",
  c!"LEXENTRY:\tCAMIÑO DE\tCAMIÑO DE\tTYPE\tDET_PRE",
  c!"LEXENTRY:\tCAMIÑO DO\tCAMIÑO DO\tTYPE\tDET_PRE",
  c!"LEXENTRY:\tCAMIÑO DOS\tCAMIÑO DOS\tTYPE\tDET_PRE",
  c!"LEXENTRY:\tCAMPA\tCAMPA\tTYPE\tDET_PRE",
  c!"LEXENTRY:\tCAMPA DEL\tCAMPA DEL\tTYPE\tDET_PRE",
  c!"LEXENTRY:\tCAMÍ\tCAMÍ\tTYPE\tDET_PRE",
  c!"LEXENTRY:\tCAMÍ DE\tCAMÍ DE\tTYPE\tDET_PRE",
  c!"LEXENTRY:\tCAMÍ DE L'\tCAMÍ DE L'\tTYPE\tATT_PRE",
  c!"LEXENTRY:\tCAMÍ DE LA\tCAMÍ DE LA\tTYPE\tDET_PRE",
  c!"LEXENTRY:\tCAMÍ DEL\tCAMÍ DEL\tTYPE\tDET_PRE",
  c!"LEXENTRY:\tCAMÍ DELS\tCAMÍ DELS\tTYPE\tDET_PRE",
  c!"LEXENTRY:\tCANELLA\tCANELLA\tTYPE\tDET_PRE",
  c!"LEXENTRY:\tCANELLA DAS\tCANELLA DAS\tTYPE\tDET_PRE",
  c!"LEXENTRY:\tCANTABRIA\tCANTABRIA\tPROV,CITY\tDETACH",
  c!"LEXENTRY:\tCANTABRIQUE\tCANTABRIA\tPROV,CITY\tDETACH",
  c!"LEXENTRY:\tCANTÁBRIA\tCANTABRIA\tPROV,CITY\tDETACH",
  c!"LEXENTRY:\tCARRER\tCARRER\tTYPE\tDET_PRE",
  c!"LEXENTRY:\tCARRER D'\tCARRER D'\tTYPE\tATT_PRE",
  c!"LEXENTRY:\tCARRER D'EN\tCARRER D'EN\tTYPE\tDET_PRE",
  c!"LEXENTRY:\tCARRER DE\tCARRER DE\tTYPE\tDET_PRE",
  c!"LEXENTRY:\tCARRER DE L'\tCARRER DE L'\tTYPE\tATT_PRE",
  c!"LEXENTRY:\tCARRER DE LA\tCARRER DE LA\tTYPE\tDET_PRE",
  c!"LEXENTRY:\tCARRER DE LES\tCARRER DE LES\tTYPE\tDET_PRE",
  c!"LEXENTRY:\tCARRER DE N'\tCARRER DE N'\tTYPE\tATT_PRE",
  c!"LEXENTRY:\tCARRER DEL\tCARRER DEL\tTYPE\tDET_PRE",
  c!"LEXENTRY:\tCARRER DELS\tCARRER DELS\tTYPE\tDET_PRE",
  c!"LEXENTRY:\tCARRERÓ DE\tCARRERÓ DE\tTYPE\tDET_PRE",
  c!"LEXENTRY:\tCARRERÓ DE LES\tCARRERÓ DE LES\tTYPE\tDET_PRE",
  c!"LEXENTRY:\tCARRETERA\tCARRETERA\tTYPE\tDET_PRE",
  c!"LEXENTRY:\tCARRETERA A\tCARRETERA A\tTYPE\tDET_PRE",
  c!"LEXENTRY:\tCARRETERA D'\tCARRETERA D'\tTYPE\tATT_PRE",
  c!"LEXENTRY:\tCARRETERA DE\tCARRETERA DE\tTYPE\tDET_PRE",
  c!"LEXENTRY:\tCARRETERA DE L'\tCARRETERA DE L'\tTYPE\tATT_PRE",
  c!"LEXENTRY:\tCARRETERA DE LA\tCARRETERA DE LA\tTYPE\tDET_PRE",
  c!"LEXENTRY:\tCARRETERA DE LAS\tCARRETERA DE LAS\tTYPE\tDET_PRE",
  c!"LEXENTRY:\tCARRETERA DE LES\tCARRETERA DE LES\tTYPE\tDET_PRE",
  c!"LEXENTRY:\tCARRETERA DE LOS\tCARRETERA DE LOS\tTYPE\tDET_PRE",
  c!"LEXENTRY:\tCARRETERA DEL\tCARRETERA DEL\tTYPE\tDET_PRE",
  c!"LEXENTRY:\tCARRETERA DELS\tCARRETERA DELS\tTYPE\tDET_PRE",
  c!"LEXENTRY:\tCASTELLO\tCASTELLÓN\tPROV,CITY\tDETACH",
  c!"LEXENTRY:\tCASTELLON\tCASTELLÓN\tPROV,CITY\tDETACH",
  c!"LEXENTRY:\tCASTELLÓ\tCASTELLÓN\tPROV,CITY\tDETACH",
  c!"LEXENTRY:\tCASTELLÓN\tCASTELLÓN\tPROV,CITY\tDETACH"]

/-- data/sample/spain.lex:202-251 -/
def entries4 : List Str := [
  c!"LEXENTRY:\tCEUTA\tCEUTA\tPROV,CITY\tDETACH",
  c!"LEXENTRY:\tCIDADE REAL\tCIUDAD REAL\tPROV,CITY\tDETACH",
  c!"LEXENTRY:\tCIUDAD REAL\tCIUDAD REAL\tPROV,CITY\tDETACH",
  c!"LEXENTRY:\tCJ\tCALLEJÓN\tTYPE\tDET_PRE",
  c!"LEXENTRY:\tCJ DE\tCALLEJÓN DE\tTYPE\tDET_PRE",
  c!"LEXENTRY:\tCJ DE LA\tCALLEJÓN DE LA\tTYPE\tDET_PRE",
  c!"LEXENTRY:\tCJ DE LOS\tCALLEJÓN DE LOS\tTYPE\tDET_PRE",
  c!"LEXENTRY:\tCJ DEL\tCALLEJÓN DEL\tTYPE\tDET_PRE",
  c!"LEXENTRY:\tCJ.\tCALLEJÓN\tTYPE\tDET_PRE",
  c!"LEXENTRY:\tCJ. DE\tCALLEJÓN DE\tTYPE\tDET_PRE",
  c!"LEXENTRY:\tCJ. DE LA\tCALLEJÓN DE LA\tTYPE\tDET_PRE",
  c!"LEXENTRY:\tCJ. DE LOS\tCALLEJÓN DE LOS\tTYPE\tDET_PRE",
  c!"LEXENTRY:\tCJ. DEL\tCALLEJÓN DEL\tTYPE\tDET_PRE",
  c!"LEXENTRY:\tCM\tCAMINO\tTYPE\tDET_PRE",
  c!"LEXENTRY:\tCM DE\tCAMINO DE\tTYPE\tDET_PRE",
  c!"LEXENTRY:\tCM DE LA\tCAMINO DE LA\tTYPE\tDET_PRE",
  c!"LEXENTRY:\tCM DE LAS\tCAMINO DE LAS\tTYPE\tDET_PRE",
  c!"LEXENTRY:\tCM DE LOS\tCAMINO DE LOS\tTYPE\tDET_PRE",
  c!"LEXENTRY:\tCM DEL\tCAMINO DEL\tTYPE\tDET_PRE",
  c!"LEXENTRY:\tCM.\tCAMINO\tTYPE\tDET_PRE",
  c!"LEXENTRY:\tCM. DE\tCAMINO DE\tTYPE\tDET_PRE",
  c!"LEXENTRY:\tCM. DE LA\tCAMINO DE LA\tTYPE\tDET_PRE",
  c!"LEXENTRY:\tCM. DE LAS\tCAMINO DE LAS\tTYPE\tDET_PRE",
  c!"LEXENTRY:\tCM. DE LOS\tCAMINO DE LOS\tTYPE\tDET_PRE",
  c!"LEXENTRY:\tCM. DEL\tCAMINO DEL\tTYPE\tDET_PRE",
  c!"LEXENTRY:\tCOMERCIANTE\tCOMERCIANTE\tPLACEN\tDETACH",
  c!"LEXENTRY:\tCOOPERATIVA\tCOOPERATIVA\tPLACEN\tDETACH",
  c!"LEXENTRY:\tCORDOBA\tCÓRDOBA\tPROV,CITY\tDETACH",
  c!"LEXENTRY:\tCORDOUE\tCÓRDOBA\tPROV,CITY\tDETACH",
  c!"LEXENTRY:\tCORDOVA\tCÓRDOBA\tPROV,CITY\tDETACH",
  c!"LEXENTRY:\tCORUNNA\tLA CORUÑA\tPROV,CITY\tDETACH",
  c!"LEXENTRY:\tCOSTA\tCOSTA\tTYPE\tDET_PRE",
  c!"LEXENTRY:\tCOSTA DE\tCOSTA DE\tTYPE\tDET_PRE",
  c!"LEXENTRY:\tCOSTA DO\tCOSTA DO\tTYPE\tDET_PRE",
  c!"LEXENTRY:\tCR\tCARRETERA\tTYPE\tDET_PRE",
  c!"LEXENTRY:\tCR A\tCARRETERA A\tTYPE\tDET_PRE",
  c!"LEXENTRY:\tCR DE\tCARRETERA DE\tTYPE\tDET_PRE",
  c!"LEXENTRY:\tCR DE LA\tCARRETERA DE LA\tTYPE\tDET_PRE",
  c!"LEXENTRY:\tCR DE LAS\tCARRETERA DE LAS\tTYPE\tDET_PRE",
  c!"LEXENTRY:\tCR DE LES\tCARRETERA DE LES\tTYPE\tDET_PRE",
  c!"LEXENTRY:\tCR DE LOS\tCARRETERA DE LOS\tTYPE\tDET_PRE",
  c!"LEXENTRY:\tCR DEL\tCARRETERA DEL\tTYPE\tDET_PRE",
  c!"LEXENTRY:\tCR DELS\tCARRETERA DELS\tTYPE\tDET_PRE",
  c!"LEXENTRY:\tCR.\tCARRETERA\tTYPE\tDET_PRE",
  c!"LEXENTRY:\tCR. A\tCARRETERA A\tTYPE\tDET_PRE",
  c!"LEXENTRY:\tCR. DE\tCARRETERA DE\tTYPE\tDET_PRE",
  c!"LEXENTRY:\tCR. DE LA\tCARRETERA DE LA\tTYPE\tDET_PRE",
  c!"LEXENTRY:\tCR. DE LAS\tCARRETERA DE LAS\tTYPE\tDET_PRE",
  c!"LEXENTRY:\tCR. DE LES\tCARRETERA DE LES\tTYPE\tDET_PRE",
  c!"LEXENTRY:\tCR. DE LOS\tCARRETERA DE LOS\tTYPE\tDET_PRE"]

/-- data/sample/spain.lex:252-301 -/
def entries5 : List Str := [
  c!"LEXENTRY:\tCR. DEL\tCARRETERA DEL\tTYPE\tDET_PRE",
  c!"LEXENTRY:\tCR. DELS\tCARRETERA DELS\tTYPE\tDET_PRE",
  c!"LEXENTRY:\tCTE\tCARRETERA\tTYPE\tDET_PRE",
  c!"LEXENTRY:\tCTE A\tCARRETERA A\tTYPE\tDET_PRE",
  c!"LEXENTRY:\tCTE DE\tCARRETERA DE\tTYPE\tDET_PRE",
  c!"LEXENTRY:\tCTE DE LA\tCARRETERA DE LA\tTYPE\tDET_PRE",
  c!"LEXENTRY:\tCTE DE LAS\tCARRETERA DE LAS\tTYPE\tDET_PRE",
  c!"LEXENTRY:\tCTE DE LES\tCARRETERA DE LES\tTYPE\tDET_PRE",
  c!"LEXENTRY:\tCTE DE LOS\tCARRETERA DE LOS\tTYPE\tDET_PRE",
  c!"LEXENTRY:\tCTE DEL\tCARRETERA DEL\tTYPE\tDET_PRE",
  c!"LEXENTRY:\tCTE DELS\tCARRETERA DELS\tTYPE\tDET_PRE",
  c!"LEXENTRY:\tCTE.\tCARRETERA\tTYPE\tDET_PRE",
  c!"LEXENTRY:\tCTE.\tCARRETERA DE LOS\tTYPE\tDET_PRE",
  c!"LEXENTRY:\tCTE. A\tCARRETERA A\tTYPE\tDET_PRE",
  c!"LEXENTRY:\tCTE. DE\tCARRETERA DE\tTYPE\tDET_PRE",
  c!"LEXENTRY:\tCTE. DE LA\tCARRETERA DE LA\tTYPE\tDET_PRE",
  c!"LEXENTRY:\tCTE. DE LAS\tCARRETERA DE LAS\tTYPE\tDET_PRE",
  c!"LEXENTRY:\tCTE. DE LES\tCARRETERA DE LES\tTYPE\tDET_PRE",
  c!"LEXENTRY:\tCTE. DEL\tCARRETERA DEL\tTYPE\tDET_PRE",
  c!"LEXENTRY:\tCTE. DELS\tCARRETERA DELS\tTYPE\tDET_PRE",
  c!"LEXENTRY:\tCTRA\tCARRETERA\tTYPE\tDET_PRE",
  c!"LEXENTRY:\tCTRA A\tCARRETERA A\tTYPE\tDET_PRE",
  c!"LEXENTRY:\tCTRA DE\tCARRETERA DE\tTYPE\tDET_PRE",
  c!"LEXENTRY:\tCTRA DE LA\tCARRETERA DE LA\tTYPE\tDET_PRE",
  c!"LEXENTRY:\tCTRA DE LAS\tCARRETERA DE LAS\tTYPE\tDET_PRE",
  c!"LEXENTRY:\tCTRA DE LES\tCARRETERA DE LES\tTYPE\tDET_PRE",
  c!"LEXENTRY:\tCTRA DE LOS\tCARRETERA DE LOS\tTYPE\tDET_PRE",
  c!"LEXENTRY:\tCTRA DEL\tCARRETERA DEL\tTYPE\tDET_PRE",
  c!"LEXENTRY:\tCTRA DELS\tCARRETERA DELS\tTYPE\tDET_PRE",
  c!"LEXENTRY:\tCTRA.\tCARRETERA\tTYPE\tDET_PRE",
  c!"LEXENTRY:\tCTRA. A\tCARRETERA A\tTYPE\tDET_PRE",
  c!"LEXENTRY:\tCTRA. DE\tCARRETERA DE\tTYPE\tDET_PRE",
  c!"LEXENTRY:\tCTRA. DE LA\tCARRETERA DE LA\tTYPE\tDET_PRE",
  c!"LEXENTRY:\tCTRA. DE LAS\tCARRETERA DE LAS\tTYPE\tDET_PRE",
  c!"LEXENTRY:\tCTRA. DE LES\tCARRETERA DE LES\tTYPE\tDET_PRE",
  c!"LEXENTRY:\tCTRA. DE LOS\tCARRETERA DE LOS\tTYPE\tDET_PRE",
  c!"LEXENTRY:\tCTRA. DEL\tCARRETERA DEL\tTYPE\tDET_PRE",
  c!"LEXENTRY:\tCTRA. DELS\tCARRETERA DELS\tTYPE\tDET_PRE",
  c!"LEXENTRY:\tCUENCA\tCUENCA\tPROV,CITY\tDETACH",
  c!"LEXENTRY:\tCUESTA\tCUESTA\tTYPE\tDET_PRE",
  c!"LEXENTRY:\tCUESTA DE\tCUESTA DE\tTYPE\tDET_PRE",
  c!"LEXENTRY:\tCUESTA DE LA\tCUESTA DE LA\tTYPE\tDET_PRE",
  c!"LEXENTRY:\tCUESTA DE LAS\tCUESTA DE LAS\tTYPE\tDET_PRE",
  c!"LEXENTRY:\tCUESTA DE LOS\tCUESTA DE LOS\tTYPE\tDET_PRE",
  c!"LEXENTRY:\tCUESTA DEL\tCUESTA DEL\tTYPE\tDET_PRE",
  c!"LEXENTRY:\tCURUNHA\tLA CORUÑA\tPROV,CITY\tDETACH",
  c!"LEXENTRY:\tCÁCERES\tCÁCERES\tPROV,CITY\tDETACH",
  c!"LEXENTRY:\tCÁDIS\tCÁDIZ\tPROV,CITY\tDETACH",
  c!"LEXENTRY:\tCÁDIZ\tCÁDIZ\tPROV,CITY\tDETACH",
  c!"LEXENTRY:\tCÓRDOBA\tCÓRDOBA\tPROV,CITY\tDETACH"]

/-- data/sample/spain.lex:302-351 -/
def entries6 : List Str := [
  c!"LEXENTRY:\tDISTRIBUIDOR\tDISTRIBUIDOR\tTYPE\tDET_PRE",
  c!"LEXENTRY:\tEDIFICIO\tEDIFICIO\tPLACEN\tDET_PRE",
  c!"LEXENTRY:\tERREPIDEA\tERREPIDEA\tTYPE\tDET_SUF",
  c!"LEXENTRY:\tERRIBERA\tERRIBERA\tTYPE\tDET_SUF",
  c!"LEXENTRY:\tES\tSPAIN\tNATION\tDETACH",
  c!"LEXENTRY:\tESC\tESC\tUNITH\tDETACH",
  c!"LEXENTRY:\tESCALA DE LA\tESCALA DE LA\tTYPE\tDET_PRE",
  c!"LEXENTRY:\tESCALES DE\tESCALES DE\tTYPE\tDET_PRE",
  c!"LEXENTRY:\tESCALES DE LA\tESCALES DE LA\tTYPE\tDET_PRE",
  c!"LEXENTRY:\tESP\tSPAIN\tNATION\tDETACH",
  c!"LEXENTRY:\tESPAGNE\tSPAIN\tNATION\tDETACH",
  c!"LEXENTRY:\tESPANHA\tSPAIN\tNATION\tDETACH",
  c!"LEXENTRY:\tESPANJA\tSPAIN\tNATION\tDETACH",
  c!"LEXENTRY:\tESPAÑA\tSPAIN\tNATION\tDETACH",
  c!"LEXENTRY:\tESTARDA\tESTARDA\tTYPE\tDET_SUF",
  c!"LEXENTRY:\tESTRADA\tESTRADA\tTYPE\tDET_PRE",
  c!"LEXENTRY:\tESTRADA A\tESTRADA A\tTYPE\tDET_PRE",
  c!"LEXENTRY:\tESTRADA DA\tESTRADA DA\tTYPE\tDET_PRE",
  c!"LEXENTRY:\tESTRADA DAS\tESTRADA DAS\tTYPE\tDET_PRE",
  c!"LEXENTRY:\tESTRADA DE\tESTRADA DE\tTYPE\tDET_PRE",
  c!"LEXENTRY:\tESTRADA DO\tESTRADA DO\tTYPE\tDET_PRE",
  c!"LEXENTRY:\tETORBIDEA\tETORBIDEA\tTYPE\tDET_SUF",
  c!"LEXENTRY:\tETXALDEA\tETXALDEA\tTYPE\tDET_SUF",
  c!"LEXENTRY:\tFUNDACION\tFUNDACION\tPLACEN\tDETACH",
  c!"LEXENTRY:\tG.\tGLORIETA\tTYPE\tDET_PRE",
  c!"LEXENTRY:\tG. DE\tGLORIETA DE\tTYPE\tDET_PRE",
  c!"LEXENTRY:\tG. DE LA\tGLORIETA DE LA\tTYPE\tDET_PRE",
  c!"LEXENTRY:\tG. DE LAS\tGLORIETA DE LAS\tTYPE\tDET_PRE",
  c!"LEXENTRY:\tG. DE LOS\tGLORIETA DE LOS\tTYPE\tDET_PRE",
  c!"LEXENTRY:\tG. DEL\tGLORIETA DEL\tTYPE\tDET_PRE",
  c!"LEXENTRY:\tGERONA\tGERONA\tPROV,CITY\tDETACH",
  c!"LEXENTRY:\tGIPUZKOA\tGUIPÚZCOA\tPROV,CITY\tDETACH",
  c!"LEXENTRY:\tGIRONA\tGERONA\tPROV,CITY\tDETACH",
  c!"LEXENTRY:\tGLORIETA\tGLORIETA\tTYPE\tDET_PRE",
  c!"LEXENTRY:\tGLORIETA DE\tGLORIETA DE\tTYPE\tDET_PRE",
  c!"LEXENTRY:\tGLORIETA DE LA\tGLORIETA DE LA\tTYPE\tDET_PRE",
  c!"LEXENTRY:\tGLORIETA DE LAS\tGLORIETA DE LAS\tTYPE\tDET_PRE",
  c!"LEXENTRY:\tGLORIETA DE LOS\tGLORIETA DE LOS\tTYPE\tDET_PRE",
  c!"LEXENTRY:\tGLORIETA DEL\tGLORIETA DEL\tTYPE\tDET_PRE",
  c!"LEXENTRY:\tGRAN VIA\tGRAN VIA\tTYPE\tDET_PRE",
  c!"LEXENTRY:\tGRAN VIA DE\tGRAN VIA DE\tTYPE\tDET_PRE",
  c!"LEXENTRY:\tGRAN VÍA\tGRAN VÍA\tTYPE\tDET_PRE",
  c!"LEXENTRY:\tGRAN VÍA DE\tGRAN VÍA DE\tTYPE\tDET_PRE",
  c!"LEXENTRY:\tGRANADA\tGRANADA\tPROV,CITY\tDETACH",
  c!"LEXENTRY:\tGRENADE\tGRANADA\tPROV,CITY\tDETACH",
  c!"LEXENTRY:\tGRUPO\tGRUPO\tTYPE\tDET_PRE",
  c!"LEXENTRY:\tGRUPO DE\tGRUPO DE\tTYPE\tDET_PRE",
  c!"LEXENTRY:\tGRUPO DE LA\tGRUPO DE LA\tTYPE\tDET_PRE",
  c!"LEXENTRY:\tGRUPO DEL\tGRUPO DEL\tTYPE\tDET_PRE",
  c!"LEXENTRY:\tGUADALAJARA\tGUADALAJARA\tPROV,CITY\tDETACH"]

/-- data/sample/spain.lex:352-401 -/
def entries7 : List Str := [
  c!"LEXENTRY:\tGUIPÚZCOA\tGUIPÚZCOA\tPROV,CITY\tDETACH",
  c!"LEXENTRY:\tGÉRONE\tGERONA\tPROV,CITY\tDETACH",
  c!"LEXENTRY:\tHIRIBIDEA\tHIRIBIDEA\tTYPE\tDET_SUF",
  c!"LEXENTRY:\tHUELVA\tHUELVA\tPROV,CITY\tDETACH",
  c!"LEXENTRY:\tHUESCA\tHUESCA\tPROV,CITY\tDETACH",
  c!"LEXENTRY:\tIBILBIDEA\tIBILBIDEA\tTYPE\tDET_SUF",
  c!"LEXENTRY:\tIBILTOKIA\tIBILTOKIA\tTYPE\tDET_SUF",
  c!"LEXENTRY:\tILES BALÉARES\tBALEAREN\tPROV,CITY\tDETACH",
  c!"LEXENTRY:\tILHAS BALEARES\tBALEAREN\tPROV,CITY\tDETACH",
  c!"LEXENTRY:\tILLES BALEARS\tBALEAREN\tPROV,CITY\tDETACH",
  c!"LEXENTRY:\tINGURUBIDEA\tINGURUBIDEA\tTYPE\tDET_SUF",
  c!"LEXENTRY:\tISLAS BALEARES\tBALEAREN\tPROV,CITY\tDETACH",
  c!"LEXENTRY:\tISOLE BALEARI\tBALEAREN\tPROV,CITY\tDETACH",
  c!"LEXENTRY:\tJAEN\tJAÉN\tPROV,CITY\tDETACH",
  c!"LEXENTRY:\tJARDINES DE\tJARDINES DE\tTYPE\tDET_PRE",
  c!"LEXENTRY:\tJARDINS DE\tJARDINS DE\tTYPE\tDET_PRE",
  c!"LEXENTRY:\tJARDINS DEL\tJARDINS DEL\tTYPE\tDET_PRE",
  c!"LEXENTRY:\tJARDÍ DE\tJARDÍ DE\tTYPE\tDET_PRE",
  c!"LEXENTRY:\tJAÉN\tJAÉN\tPROV,CITY\tDETACH",
  c!"LEXENTRY:\tKAIA\tKAIA\tTYPE\tDET_SUF",
  c!"LEXENTRY:\tKALE NAGUSIA\tKALE NAGUSIA\tTYPE\tDET_SUF",
  c!"LEXENTRY:\tKALE PARTIKULARRA\tKALE PARTIKULARRA\tTYPE\tDET_SUF",
  c!"LEXENTRY:\tKALEA\tKALEA\tTYPE\tDET_SUF",
  c!"LEXENTRY:\tKALEITXIA\tKALEITXIA\tTYPE\tDET_SUF",
  c!"LEXENTRY:\tKANTABRIEN\tCANTABRIA\tPROV,CITY\tDETACH",
  c!"LEXENTRY:\tKANTOIA\tKANTOIA\tTYPE\tDET_SUF",
  c!"LEXENTRY:\tKARRIKA\tKARRIKA\tTYPE\tDET_SUF",
  c!"LEXENTRY:\tLA COROGNE\tLA CORUÑA\tPROV,CITY\tDETACH",
  c!"LEXENTRY:\tLA CORUÑA\tLA CORUÑA\tPROV,CITY\tDETACH",
  c!"LEXENTRY:\tLA RIOJA\tLA RIOJA\tPROV,CITY\tDETACH",
  c!"LEXENTRY:\tLANDA\tLANDA\tTYPE\tDET_SUF",
  c!"LEXENTRY:\tLAS PALMAS\tLAS PALMAS\tPROV,CITY\tDETACH",
  c!"LEXENTRY:\tLEON\tLEÓN\tPROV,CITY\tDETACH",
  c!"LEXENTRY:\tLES ASTURIES\tASTURIAS\tPROV,CITY\tDETACH",
  c!"LEXENTRY:\tLEÓN\tLEÓN\tPROV,CITY\tDETACH",
  c!"LEXENTRY:\tLLEIDA\tLÉRIDA\tPROV,CITY\tDETACH",
  c!"LEXENTRY:\tLORATEGIA\tLORATEGIA\tTYPE\tDET_SUF",
  c!"LEXENTRY:\tLUGO\tLUGO\tPROV,CITY\tDETACH",
  c!"LEXENTRY:\tLÉRIDA\tLÉRIDA\tPROV,CITY\tDETACH",
  c!"LEXENTRY:\tMADRID\tMADRID\tPROV,CITY\tDETACH",
  c!"LEXENTRY:\tMALAGA\tMÁLAGA\tPROV,CITY\tDETACH",
  c!"LEXENTRY:\tMARÍA\tMARÍA\tWORD\tDETACH",
  c!"LEXENTRY:\tMELILLA\tMELILLA\tPROV,CITY\tDETACH",
  c!"LEXENTRY:\tMENDATEA\tMENDATEA\tTYPE\tDET_SUF",
  c!"LEXENTRY:\tMOLL D'\tMOLL D'\tTYPE\tATT_PRE",
  c!"LEXENTRY:\tMOLL DE\tMOLL DE\tTYPE\tDET_PRE",
  c!"LEXENTRY:\tMOLL DE L'\tMOLL DE L'\tTYPE\tATT_PRE",
  c!"LEXENTRY:\tMOLL DE LA\tMOLL DE LA\tTYPE\tDET_PRE",
  c!"LEXENTRY:\tMOLL DE LES\tMOLL DE LES\tTYPE\tDET_PRE",
  c!"LEXENTRY:\tMOLL DEL\tMOLL DEL\tTYPE\tDET_PRE"]

/-- data/sample/spain.lex:402-451 -/
def entries8 : List Str := [
  c!"LEXENTRY:\tMUELLE\tMUELLE\tTYPE\tDET_PRE",
  c!"LEXENTRY:\tMUELLE DE\tMUELLE DE\tTYPE\tDET_PRE",
  c!"LEXENTRY:\tMUELLE DE LA\tMUELLE DE LA\tTYPE\tDET_PRE",
  c!"LEXENTRY:\tMUELLE DEL\tMUELLE DEL\tTYPE\tDET_PRE",
  c!"LEXENTRY:\tMURCIA\tMURCIA\tPROV,CITY\tDETACH",
  c!"LEXENTRY:\tMURICE\tMURCIA\tPROV,CITY\tDETACH",
  c!"LEXENTRY:\tM°\tMARÍA\tWORD\tDETACH",
  c!"LEXENTRY:\tMÁLAGA\tMÁLAGA\tPROV,CITY\tDETACH",
  c!"LEXENTRY:\tMÚRCIA\tMURCIA\tPROV,CITY\tDETACH",
  c!"LEXENTRY:\tNAFARROA\tNAVARRA\tPROV,CITY\tDETACH",
  c!"LEXENTRY:\tNAVARRA\tNAVARRA\tPROV,CITY\tDETACH",
  c!"LEXENTRY:\tNUDO\tNUDO\tTYPE\tDET_PRE",
  c!"LEXENTRY:\tNUDO DE\tNUDO DE\tTYPE\tDET_PRE",
  c!"LEXENTRY:\tNUS DE LA\tNUS DE LA\tTYPE\tDET_PRE",
  c!"LEXENTRY:\tNUS DEL\tNUS DEL\tTYPE\tDET_PRE",
  c!"LEXENTRY:\tORENSE\tORENSE\tPROV,CITY\tDETACH",
  c!"LEXENTRY:\tOURENSE\tORENSE\tPROV,CITY\tDETACH",
  c!"LEXENTRY:\tOVIEDO\tOVIEDO\tPROV,CITY\tDETACH",
  c!"LEXENTRY:\tP.\tPLAZA\tTYPE\tDET_PRE",
  c!"LEXENTRY:\tP. DE\tPLAZA DE\tTYPE\tDET_PRE",
  c!"LEXENTRY:\tP. DE LA\tPLAZA DE LA\tTYPE\tDET_PRE",
  c!"LEXENTRY:\tP. DE LAS\tPLAZA DE LAS\tTYPE\tDET_PRE",
  c!"LEXENTRY:\tP. DE LOS\tPLAZA DE LOS\tTYPE\tDET_PRE",
  c!"LEXENTRY:\tP. DEL\tPLAZA DEL\tTYPE\tDET_PRE",
  c!"LEXENTRY:\tP.O\tPASEO\tTYPE\tDET_PRE",
  c!"LEXENTRY:\tP.O DA\tPASEO DA\tTYPE\tDET_PRE",
  c!"LEXENTRY:\tP.O DAS\tPASEO DAS\tTYPE\tDET_PRE",
  c!"LEXENTRY:\tP.O DE\tPASEO DE\tTYPE\tDET_PRE",
  c!"LEXENTRY:\tP.O DE LA\tPASEO DE LA\tTYPE\tDET_PRE",
  c!"LEXENTRY:\tP.O DE LAS\tPASEO DE LAS\tTYPE\tDET_PRE",
  c!"LEXENTRY:\tP.O DE LOS\tPASEO DE LOS\tTYPE\tDET_PRE",
  c!"LEXENTRY:\tP.O DEL\tPASEO DEL\tTYPE\tDET_PRE",
  c!"LEXENTRY:\tP.O DO\tPASEO DO\tTYPE\tDET_PRE",
  c!"LEXENTRY:\tP.O DOS\tPASEO DOS\tTYPE\tDET_PRE",
  c!"LEXENTRY:\tPALENCIA\tPALENCIA\tPROV,CITY\tDETACH",
  c!"LEXENTRY:\tPALMA DE MALLORCA\tPALMA DE MALLORCA\tPROV,CITY\tDETACH",
  c!"LEXENTRY:\tPALÊNCIA\tPALENCIA\tPROV,CITY\tDETACH",
  c!"LEXENTRY:\tPARC\tPARC\tTYPE\tDET_PRE",
  c!"LEXENTRY:\tPARC DE LA\tPARC DE LA\tTYPE\tDET_PRE",
  c!"LEXENTRY:\tPARC DE LES\tPARC DE LES\tTYPE\tDET_PRE",
  c!"LEXENTRY:\tPARC DEL\tPARC DEL\tTYPE\tDET_PRE",
  c!"LEXENTRY:\tPARC DELS\tPARC DELS\tTYPE\tDET_PRE",
  c!"LEXENTRY:\tPASADIZO\tPASADIZO\tTYPE\tDET_PRE",
  c!"LEXENTRY:\tPASADIZO DE\tPASADIZO DE\tTYPE\tDET_PRE",
  c!"LEXENTRY:\tPASADIZO DEL\tPASADIZO DEL\tTYPE\tDET_PRE",
  c!"LEXENTRY:\tPASAIA\tPASAIA\tTYPE\tDET_SUF",
  c!"LEXENTRY:\tPASAJE\tPASAJE\tTYPE\tDET_PRE",
  c!"LEXENTRY:\tPASAJE DE\tPASAJE DE\tTYPE\tDET_PRE",
  c!"LEXENTRY:\tPASAJE DE LA\tPASAJE DE LA\tTYPE\tDET_PRE",
  c!"LEXENTRY:\tPASAJE DE LAS\tPASAJE DE LAS\tTYPE\tDET_PRE"]

/-- data/sample/spain.lex:452-501 -/
def entries9 : List Str := [
  c!"LEXENTRY:\tPASAJE DE LOS\tPASAJE DE LOS\tTYPE\tDET_PRE",
  c!"LEXENTRY:\tPASAJE DEL\tPASAJE DEL\tTYPE\tDET_PRE",
  c!"LEXENTRY:\tPASAXE\tPASAXE\tTYPE\tDET_PRE",
  c!"LEXENTRY:\tPASEALEKUA\tPASEALEKUA\tTYPE\tDET_SUF",
  c!"LEXENTRY:\tPASEO\tPASEO\tTYPE\tDET_PRE",
  c!"LEXENTRY:\tPASEO DA\tPASEO DA\tTYPE\tDET_PRE",
  c!"LEXENTRY:\tPASEO DAS\tPASEO DAS\tTYPE\tDET_PRE",
  c!"LEXENTRY:\tPASEO DE\tPASEO DE\tTYPE\tDET_PRE",
  c!"LEXENTRY:\tPASEO DE LA\tPASEO DE LA\tTYPE\tDET_PRE",
  c!"LEXENTRY:\tPASEO DE LAS\tPASEO DE LAS\tTYPE\tDET_PRE",
  c!"LEXENTRY:\tPASEO DE LOS\tPASEO DE LOS\tTYPE\tDET_PRE",
  c!"LEXENTRY:\tPASEO DEL\tPASEO DEL\tTYPE\tDET_PRE",
  c!"LEXENTRY:\tPASEO DO\tPASEO DO\tTYPE\tDET_PRE",
  c!"LEXENTRY:\tPASEO DOS\tPASEO DOS\tTYPE\tDET_PRE",
  c!"LEXENTRY:\tPASSADÍS DE L'\tPASSADÍS DE L'\tTYPE\tATT_PRE",
  c!"LEXENTRY:\tPASSATGE\tPASSATGE\tTYPE\tDET_PRE",
  c!"LEXENTRY:\tPASSATGE D'\tPASSATGE D'\tTYPE\tATT_PRE",
  c!"LEXENTRY:\tPASSATGE D'EN\tPASSATGE D'EN\tTYPE\tDET_PRE",
  c!"LEXENTRY:\tPASSATGE DE\tPASSATGE DE\tTYPE\tDET_PRE",
  c!"LEXENTRY:\tPASSATGE DE L'\tPASSATGE DE L'\tTYPE\tATT_PRE",
  c!"LEXENTRY:\tPASSATGE DE LA\tPASSATGE DE LA\tTYPE\tDET_PRE",
  c!"LEXENTRY:\tPASSATGE DEL\tPASSATGE DEL\tTYPE\tDET_PRE",
  c!"LEXENTRY:\tPASSATGE DELS\tPASSATGE DELS\tTYPE\tDET_PRE",
  c!"LEXENTRY:\tPASSEIG\tPASSEIG\tTYPE\tDET_PRE",
  c!"LEXENTRY:\tPASSEIG D'\tPASSEIG D'\tTYPE\tATT_PRE",
  c!"LEXENTRY:\tPASSEIG DE\tPASSEIG DE\tTYPE\tDET_PRE",
  c!"LEXENTRY:\tPASSEIG DE L'\tPASSEIG DE L'\tTYPE\tATT_PRE",
  c!"LEXENTRY:\tPASSEIG DE LA\tPASSEIG DE LA\tTYPE\tDET_PRE",
  c!"LEXENTRY:\tPASSEIG DE LES\tPASSEIG DE LES\tTYPE\tDET_PRE",
  c!"LEXENTRY:\tPASSEIG DEL\tPASSEIG DEL\tTYPE\tDET_PRE",
  c!"LEXENTRY:\tPASSEIG DELS\tPASSEIG DELS\tTYPE\tDET_PRE",
  c!"LEXENTRY:\tPEIRAO\tPEIRAO\tTYPE\tDET_PRE",
  c!"LEXENTRY:\tPEIRAO DE\tPEIRAO DE\tTYPE\tDET_PRE",
  c!"LEXENTRY:\tPLACETA\tPLACETA\tTYPE\tDET_PRE",
  c!"LEXENTRY:\tPLACETA D'EN\tPLACETA D'EN\tTYPE\tDET_PRE",
  c!"LEXENTRY:\tPLACETA DE\tPLACETA DE\tTYPE\tDET_PRE",
  c!"LEXENTRY:\tPLACETA DEL\tPLACETA DEL\tTYPE\tDET_PRE",
  c!"LEXENTRY:\tPLACETA DELS\tPLACETA DELS\tTYPE\tDET_PRE",
  c!"LEXENTRY:\tPLAZA\tPLAZA\tTYPE\tDET_PRE",
  c!"LEXENTRY:\tPLAZA DE\tPLAZA DE\tTYPE\tDET_PRE",
  c!"LEXENTRY:\tPLAZA DE LA\tPLAZA DE LA\tTYPE\tDET_PRE",
  c!"LEXENTRY:\tPLAZA DE LAS\tPLAZA DE LAS\tTYPE\tDET_PRE",
  c!"LEXENTRY:\tPLAZA DE LOS\tPLAZA DE LOS\tTYPE\tDET_PRE",
  c!"LEXENTRY:\tPLAZA DEL\tPLAZA DEL\tTYPE\tDET_PRE",
  c!"LEXENTRY:\tPLAZATXOA\tPLAZATXOA\tTYPE\tDET_SUF",
  c!"LEXENTRY:\tPLAZOLETA DEL\tPLAZOLETA DEL\tTYPE\tDET_PRE",
  c!"LEXENTRY:\tPLAÇA\tPLAÇA\tTYPE\tDET_PRE",
  c!"LEXENTRY:\tPLAÇA \tPLAÇA\tTYPE\tDET_PRE",
  c!"LEXENTRY:\tPLAÇA D'\tPLAÇA D'\tTYPE\tATT_PRE",
  c!"LEXENTRY:\tPLAÇA D'EN\tPLAÇA D'EN\tTYPE\tDET_PRE"]

/-- data/sample/spain.lex:502-551 -/
def entries10 : List Str := [
  c!"LEXENTRY:\tPLAÇA DE\tPLAÇA DE\tTYPE\tDET_PRE",
  c!"LEXENTRY:\tPLAÇA DE L'\tPLAÇA DE L'\tTYPE\tATT_PRE",
  c!"LEXENTRY:\tPLAÇA DE LA\tPLAÇA DE LA\tTYPE\tDET_PRE",
  c!"LEXENTRY:\tPLAÇA DE LES\tPLAÇA DE LES\tTYPE\tDET_PRE",
  c!"LEXENTRY:\tPLAÇA DEL\tPLAÇA DEL\tTYPE\tDET_PRE",
  c!"LEXENTRY:\tPLAÇA DELS\tPLAÇA DELS\tTYPE\tDET_PRE",
  c!"LEXENTRY:\tPLZ.\tPLAZA\tTYPE\tDET_PRE",
  c!"LEXENTRY:\tPLZ. DE\tPLAZA DE\tTYPE\tDET_PRE",
  c!"LEXENTRY:\tPLZ. DE LA\tPLAZA DE LA\tTYPE\tDET_PRE",
  c!"LEXENTRY:\tPLZ. DEL\tPLAZA DEL\tTYPE\tDET_PRE",
  c!"LEXENTRY:\tPLZ. LAS\tPLAZA DE LAS\tTYPE\tDET_PRE",
  c!"LEXENTRY:\tPLZ. LOS\tPLAZA DE LOS\tTYPE\tDET_PRE",
  c!"LEXENTRY:\tPOL.\tPOLIGONO\tWORD\tDETACH",
  c!"LEXENTRY:\tPOLIGONO\tPOLIGONO\tWORD\tDETACH",
  c!"LEXENTRY:\tPONT DE\tPONT DE\tTYPE\tDET_PRE",
  c!"LEXENTRY:\tPONTE\tPONTE\tTYPE\tDET_PRE",
  c!"LEXENTRY:\tPONTE DE\tPONTE DE\tTYPE\tDET_PRE",
  c!"LEXENTRY:\tPONTE DO\tPONTE DO\tTYPE\tDET_PRE",
  c!"LEXENTRY:\tPONTEVEDRA\tPONTEVEDRA\tPROV,CITY\tDETACH",
  c!"LEXENTRY:\tPRACIÑA DAS\tPRACIÑA DAS\tTYPE\tDET_PRE",
  c!"LEXENTRY:\tPRACIÑA DE\tPRACIÑA DE\tTYPE\tDET_PRE",
  c!"LEXENTRY:\tPRAZA\tPRAZA\tTYPE\tDET_PRE",
  c!"LEXENTRY:\tPRAZA DA\tPRAZA DA\tTYPE\tDET_PRE",
  c!"LEXENTRY:\tPRAZA DAS\tPRAZA DAS\tTYPE\tDET_PRE",
  c!"LEXENTRY:\tPRAZA DE\tPRAZA DE\tTYPE\tDET_PRE",
  c!"LEXENTRY:\tPRAZA DO\tPRAZA DO\tTYPE\tDET_PRE",
  c!"LEXENTRY:\tPRAZA DOS\tPRAZA DOS\tTYPE\tDET_PRE",
  c!"LEXENTRY:\tPUENTE\tPUENTE\tTYPE\tDET_PRE",
  c!"LEXENTRY:\tPUENTE DE\tPUENTE DE\tTYPE\tDET_PRE",
  c!"LEXENTRY:\tPUENTE DE LA\tPUENTE DE LA\tTYPE\tDET_PRE",
  c!"LEXENTRY:\tPUENTE DE LOS\tPUENTE DE LOS\tTYPE\tDET_PRE",
  c!"LEXENTRY:\tPUENTE DEL\tPUENTE DEL\tTYPE\tDET_PRE",
  c!"LEXENTRY:\tPUJADA\tPUJADA\tTYPE\tDET_PRE",
  c!"LEXENTRY:\tPZA\tPLAZA\tTYPE\tDET_PRE",
  c!"LEXENTRY:\tPZA DE\tPLAZA DE\tTYPE\tDET_PRE",
  c!"LEXENTRY:\tPZA DE LA\tPLAZA DE LA\tTYPE\tDET_PRE",
  c!"LEXENTRY:\tPZA DEL\tPLAZA DEL\tTYPE\tDET_PRE",
  c!"LEXENTRY:\tPZA LAS\tPLAZA DE LAS\tTYPE\tDET_PRE",
  c!"LEXENTRY:\tPZA LOS\tPLAZA DE LOS\tTYPE\tDET_PRE",
  c!"LEXENTRY:\tPZA.\tPLAZA\tTYPE\tDET_PRE",
  c!"LEXENTRY:\tPZA. DE\tPLAZA DE\tTYPE\tDET_PRE",
  c!"LEXENTRY:\tPZA. DE LA\tPLAZA DE LA\tTYPE\tDET_PRE",
  c!"LEXENTRY:\tPZA. DEL\tPLAZA DEL\tTYPE\tDET_PRE",
  c!"LEXENTRY:\tPZA. LAS\tPLAZA DE LAS\tTYPE\tDET_PRE",
  c!"LEXENTRY:\tPZA. LOS\tPLAZA DE LOS\tTYPE\tDET_PRE",
  c!"LEXENTRY:\tP°\tPASEO\tTYPE\tDET_PRE",
  c!"LEXENTRY:\tP° DA\tPASEO DA\tTYPE\tDET_PRE",
  c!"LEXENTRY:\tP° DAS\tPASEO DAS\tTYPE\tDET_PRE",
  c!"LEXENTRY:\tP° DE\tPASEO DE\tTYPE\tDET_PRE",
  c!"LEXENTRY:\tP° DE LA\tPASEO DE LA\tTYPE\tDET_PRE"]

/-- data/sample/spain.lex:552-601 -/
def entries11 : List Str := [
  c!"LEXENTRY:\tP° DE LAS\tPASEO DE LAS\tTYPE\tDET_PRE",
  c!"LEXENTRY:\tP° DE LOS\tPASEO DE LOS\tTYPE\tDET_PRE",
  c!"LEXENTRY:\tP° DEL\tPASEO DEL\tTYPE\tDET_PRE",
  c!"LEXENTRY:\tP° DO\tPASEO DO\tTYPE\tDET_PRE",
  c!"LEXENTRY:\tP° DOS\tPASEO DOS\tTYPE\tDET_PRE",
  c!"LEXENTRY:\tRAMBLA\tRAMBLA\tTYPE\tDET_PRE",
  c!"LEXENTRY:\tRAMBLA D'\tRAMBLA D'\tTYPE\tDET_PRE",
  c!"LEXENTRY:\tRAMBLA D'EN\tRAMBLA D'EN\tTYPE\tDET_PRE",
  c!"LEXENTRY:\tRAMBLA DE\tRAMBLA DE\tTYPE\tDET_PRE",
  c!"LEXENTRY:\tRAMBLA DE LA\tRAMBLA DE LA\tTYPE\tDET_PRE",
  c!"LEXENTRY:\tRAMBLA DE LAS\tRAMBLA DE LAS\tTYPE\tDET_PRE",
  c!"LEXENTRY:\tRAMBLA DEL\tRAMBLA DEL\tTYPE\tDET_PRE",
  c!"LEXENTRY:\tRAMBLA DELS\tRAMBLA DELS\tTYPE\tDET_PRE",
  c!"LEXENTRY:\tRAVAL DE\tRAVAL DE\tTYPE\tDET_PRE",
  c!"LEXENTRY:\tRBLA\tRAMBLA\tTYPE\tDET_PRE",
  c!"LEXENTRY:\tRBLA D'\tRAMBLA D'\tTYPE\tDET_PRE",
  c!"LEXENTRY:\tRBLA D'EN\tRAMBLA D'EN\tTYPE\tDET_PRE",
  c!"LEXENTRY:\tRBLA DE\tRAMBLA DE\tTYPE\tDET_PRE",
  c!"LEXENTRY:\tRBLA DE LA\tRAMBLA DE LA\tTYPE\tDET_PRE",
  c!"LEXENTRY:\tRBLA DE LAS\tRAMBLA DE LAS\tTYPE\tDET_PRE",
  c!"LEXENTRY:\tRBLA DEL\tRAMBLA DEL\tTYPE\tDET_PRE",
  c!"LEXENTRY:\tRBLA DELS\tRAMBLA DELS\tTYPE\tDET_PRE",
  c!"LEXENTRY:\tRBLA.\tRAMBLA\tTYPE\tDET_PRE",
  c!"LEXENTRY:\tRBLA. D'\tRAMBLA D'\tTYPE\tDET_PRE",
  c!"LEXENTRY:\tRBLA. D'EN\tRAMBLA D'EN\tTYPE\tDET_PRE",
  c!"LEXENTRY:\tRBLA. DE\tRAMBLA DE\tTYPE\tDET_PRE",
  c!"LEXENTRY:\tRBLA. DE LA\tRAMBLA DE LA\tTYPE\tDET_PRE",
  c!"LEXENTRY:\tRBLA. DE LAS\tRAMBLA DE LAS\tTYPE\tDET_PRE",
  c!"LEXENTRY:\tRBLA. DEL\tRAMBLA DEL\tTYPE\tDET_PRE",
  c!"LEXENTRY:\tRBLA. DELS\tRAMBLA DELS\tTYPE\tDET_PRE",
  c!"LEXENTRY:\tRD\tRONDA\tTYPE\tDET_PRE",
  c!"LEXENTRY:\tRD DE\tRONDA DE\tTYPE\tDET_PRE",
  c!"LEXENTRY:\tRD DE LA\tRONDA DE LA\tTYPE\tDET_PRE",
  c!"LEXENTRY:\tRD DE LAS\tRONDA DE LAS\tTYPE\tDET_PRE",
  c!"LEXENTRY:\tRD DE LOS\tRONDA DE LOS\tTYPE\tDET_PRE",
  c!"LEXENTRY:\tRD DEL\tRONDA DEL\tTYPE\tDET_PRE",
  c!"LEXENTRY:\tRD DELS\tRONDA DELS\tTYPE\tDET_PRE",
  c!"LEXENTRY:\tRD.\tRONDA\tTYPE\tDET_PRE",
  c!"LEXENTRY:\tRD. DE\tRONDA DE\tTYPE\tDET_PRE",
  c!"LEXENTRY:\tRD. DE LA\tRONDA DE LA\tTYPE\tDET_PRE",
  c!"LEXENTRY:\tRD. DE LAS\tRONDA DE LAS\tTYPE\tDET_PRE",
  c!"LEXENTRY:\tRD. DE LOS\tRONDA DE LOS\tTYPE\tDET_PRE",
  c!"LEXENTRY:\tRD. DEL\tRONDA DEL\tTYPE\tDET_PRE",
  c!"LEXENTRY:\tRD. DELS\tRONDA DELS\tTYPE\tDET_PRE",
  c!"LEXENTRY:\tRIERA\tRIERA\tTYPE\tDET_PRE",
  c!"LEXENTRY:\tRIERA D'\tRIERA D'\tTYPE\tATT_PRE",
  c!"LEXENTRY:\tRIERA DE\tRIERA DE\tTYPE\tDET_PRE",
  c!"LEXENTRY:\tRIERA DE LES\tRIERA DE LES\tTYPE\tDET_PRE",
  c!"LEXENTRY:\tRIERA DEL\tRIERA DEL\tTYPE\tDET_PRE",
  c!"LEXENTRY:\tRONDA\tRONDA\tTYPE\tDET_PRE"]

/-- data/sample/spain.lex:602-651 -/
def entries12 : List Str := [
  c!"LEXENTRY:\tRONDA DE\tRONDA DE\tTYPE\tDET_PRE",
  c!"LEXENTRY:\tRONDA DE L'\tRONDA DE L'\tTYPE\tATT_PRE",
  c!"LEXENTRY:\tRONDA DE LA\tRONDA DE LA\tTYPE\tDET_PRE",
  c!"LEXENTRY:\tRONDA DE LAS\tRONDA DE LAS\tTYPE\tDET_PRE",
  c!"LEXENTRY:\tRONDA DE LOS\tRONDA DE LOS\tTYPE\tDET_PRE",
  c!"LEXENTRY:\tRONDA DEL\tRONDA DEL\tTYPE\tDET_PRE",
  c!"LEXENTRY:\tRONDA DELS\tRONDA DELS\tTYPE\tDET_PRE",
  c!"LEXENTRY:\tRONDA DO\tRONDA DO\tTYPE\tDET_PRE",
  c!"LEXENTRY:\tRÚA\tRÚA\tTYPE\tDET_PRE",
  c!"LEXENTRY:\tRÚA DA\tRÚA DA\tTYPE\tDET_PRE",
  c!"LEXENTRY:\tRÚA DAS\tRÚA DAS\tTYPE\tDET_PRE",
  c!"LEXENTRY:\tRÚA DE\tRÚA DE\tTYPE\tDET_PRE",
  c!"LEXENTRY:\tRÚA DO\tRÚA DO\tTYPE\tDET_PRE",
  c!"LEXENTRY:\tRÚA DOS\tRÚA DOS\tTYPE\tDET_PRE",
  c!"LEXENTRY:\tSA\tSA\tPLACEN\tDETACH",
  c!"LEXENTRY:\tSAE\tSAE\tPLACEN\tDETACH",
  c!"LEXENTRY:\tSAL\tSAL\tPLACEN\tDETACH",
  c!"LEXENTRY:\tSALAMANCA\tSALAMANCA\tPROV,CITY\tDETACH",
  c!"LEXENTRY:\tSALAMANQUE\tSALAMANCA\tPROV,CITY\tDETACH",
  c!"LEXENTRY:\tSANTA CRUZ DE TENERIFE\tSANTA CRUZ TENERIFE\tPROV,CITY\tDETACH",
  c!"LEXENTRY:\tSANTA CRUZ TENERIFE\tSANTA CRUZ TENERIFE\tPROV,CITY\tDETACH",
  c!"LEXENTRY:\tSANTANDER\tSANTANDER\tPROV,CITY\tDETACH",
  c!"LEXENTRY:\tSARAGOSSE\tZARAGOZA\tPROV,CITY\tDETACH",
  c!"LEXENTRY:\tSARAGOZZA\tZARAGOZA\tPROV,CITY\tDETACH",
  c!"LEXENTRY:\tSARAGOÇA\tZARAGOZA\tPROV,CITY\tDETACH",
  c!"LEXENTRY:\tSARBIDEA\tSARBIDEA\tTYPE\tDET_SUF",
  c!"LEXENTRY:\tSARRERA\tSARRERA\tTYPE\tDET_SUF",
  c!"LEXENTRY:\tSC\tSC\tPLACEN\tDETACH",
  c!"LEXENTRY:\tSCL\tSCL\tPLACEN\tDETACH",
  c!"LEXENTRY:\tSEGOVIA\tSEGOVIA\tPROV,CITY\tDETACH",
  c!"LEXENTRY:\tSEGÓVIA\tSEGOVIA\tPROV,CITY\tDETACH",
  c!"LEXENTRY:\tSEVILHA\tSEVILLA\tPROV,CITY\tDETACH",
  c!"LEXENTRY:\tSEVILLA\tSEVILLA\tPROV,CITY\tDETACH",
  c!"LEXENTRY:\tSEVILLE\tSEVILLA\tPROV,CITY\tDETACH",
  c!"LEXENTRY:\tSIVIGLIA\tSEVILLA\tPROV,CITY\tDETACH",
  c!"LEXENTRY:\tSL\tSL\tPLACEN\tDETACH",
  c!"LEXENTRY:\tSNC\tSNC\tPLACEN\tDETACH",
  c!"LEXENTRY:\tSOCIEDAD\tSOCIEDAD\tPLACEN\tDETACH",
  c!"LEXENTRY:\tSORIA\tSORIA\tPROV,CITY\tDETACH",
  c!"LEXENTRY:\tSPAGNA\tSPAIN\tNATION\tDETACH",
  c!"LEXENTRY:\tSPAIN\tSPAIN\tNATION\tDETACH",
  c!"LEXENTRY:\tSPANELSKO\tSPAIN\tNATION\tDETACH",
  c!"LEXENTRY:\tSPANIA\tSPAIN\tNATION\tDETACH",
  c!"LEXENTRY:\tSPANIEN\tSPAIN\tNATION\tDETACH",
  c!"LEXENTRY:\tSPANJE\tSPAIN\tNATION\tDETACH",
  c!"LEXENTRY:\tSRL\tSRL\tPLACEN\tDETACH",
  c!"LEXENTRY:\tSÉGOVIE\tSEGOVIA\tPROV,CITY\tDETACH",
  c!"LEXENTRY:\tSÉVILLE\tSEVILLA\tPROV,CITY\tDETACH",
  c!"LEXENTRY:\tTARRAGONA\tTARRAGONA\tPROV,CITY\tDETACH",
  c!"LEXENTRY:\tTARRAGONE\tTARRAGONA\tPROV,CITY\tDETACH"]

/-- data/sample/spain.lex:652-701 -/
def entries13 : List Str := [
  c!"LEXENTRY:\tTERUEL\tTERUEL\tPROV,CITY\tDETACH",
  c!"LEXENTRY:\tTOLEDO\tTOLEDO\tPROV,CITY\tDETACH",
  c!"LEXENTRY:\tTOLÈDE\tTOLEDO\tPROV,CITY\tDETACH",
  c!"LEXENTRY:\tTORRENT D'\tTORRENT D'\tTYPE\tATT_PRE",
  c!"LEXENTRY:\tTORRENT DE\tTORRENT DE\tTYPE\tDET_PRE",
  c!"LEXENTRY:\tTORRENT DE LA\tTORRENT DE LA\tTYPE\tDET_PRE",
  c!"LEXENTRY:\tTORRENT DEL\tTORRENT DEL\tTYPE\tDET_PRE",
  c!"LEXENTRY:\tTORRENT DELS\tTORRENT DELS\tTYPE\tDET_PRE",
  c!"LEXENTRY:\tTRAVESSERA\tTRAVESSERA\tTYPE\tDET_PRE",
  c!"LEXENTRY:\tTRAVESSERA DE\tTRAVESSERA DE\tTYPE\tDET_PRE",
  c!"LEXENTRY:\tTRAVESSERA DE LES\tTRAVESSERA DE LES\tTYPE\tDET_PRE",
  c!"LEXENTRY:\tTRAVESSERA DEL\tTRAVESSERA DEL\tTYPE\tDET_PRE",
  c!"LEXENTRY:\tTRAVESSIA\tTRAVESSIA\tTYPE\tDET_PRE",
  c!"LEXENTRY:\tTRAVESSIA DE\tTRAVESSIA DE\tTYPE\tDET_PRE",
  c!"LEXENTRY:\tTRAVESÍA\tTRAVESÍA\tTYPE\tDET_PRE",
  c!"LEXENTRY:\tTRAVESÍA DA\tTRAVESÍA DA\tTYPE\tDET_PRE",
  c!"LEXENTRY:\tTRAVESÍA DE\tTRAVESÍA DE\tTYPE\tDET_PRE",
  c!"LEXENTRY:\tTRAVESÍA DE LA\tTRAVESÍA DE LA\tTYPE\tDET_PRE",
  c!"LEXENTRY:\tTRAVESÍA DE LAS\tTRAVESÍA DE LAS\tTYPE\tDET_PRE",
  c!"LEXENTRY:\tTRAVESÍA DE LOS\tTRAVESÍA DE LOS\tTYPE\tDET_PRE",
  c!"LEXENTRY:\tTRAVESÍA DEL\tTRAVESÍA DEL\tTYPE\tDET_PRE",
  c!"LEXENTRY:\tTRAVESÍA DO\tTRAVESÍA DO\tTYPE\tDET_PRE",
  c!"LEXENTRY:\tTRAVESÍA DOS\tTRAVESÍA DOS\tTYPE\tDET_PRE",
  c!"LEXENTRY:\tURBANITZACIÓ\tURBANITZACIÓ\tTYPE\tDET_PRE",
  c!"LEXENTRY:\tURBANITZACIÓ DEL\tURBANITZACIÓ DEL\tTYPE\tDET_PRE",
  c!"LEXENTRY:\tURBANIZACIÓN\tURBANIZACIÓN\tTYPE\tDET_PRE",
  c!"LEXENTRY:\tURBANIZACIÓN DEL\tURBANIZACIÓN DEL\tTYPE\tDET_PRE",
  c!"LEXENTRY:\tVALENCE\tVALENCIA\tPROV,CITY\tDETACH",
  c!"LEXENTRY:\tVALENCIA\tVALENCIA\tPROV,CITY\tDETACH",
  c!"LEXENTRY:\tVALLADOLID\tVALLADOLID\tPROV,CITY\tDETACH",
  c!"LEXENTRY:\tVALÈNCIA\tVALENCIA\tPROV,CITY\tDETACH",
  c!"LEXENTRY:\tVALÊNCIA\tVALENCIA\tPROV,CITY\tDETACH",
  c!"LEXENTRY:\tVEREDA DE\tVEREDA DE\tTYPE\tDET_PRE",
  c!"LEXENTRY:\tVEREDA DE LA\tVEREDA DE LA\tTYPE\tDET_PRE",
  c!"LEXENTRY:\tVEREDA DEL\tVEREDA DEL\tTYPE\tDET_PRE",
  c!"LEXENTRY:\tVIA\tVIA\tTYPE\tDET_PRE",
  c!"LEXENTRY:\tVIA DE\tVIA DE\tTYPE\tDET_PRE",
  c!"LEXENTRY:\tVIADUCTE DE\tVIADUCTE DE\tTYPE\tDET_PRE",
  c!"LEXENTRY:\tVIADUCTO\tVIADUCTO\tTYPE\tDET_PRE",
  c!"LEXENTRY:\tVIADUCTO DE\tVIADUCTO DE\tTYPE\tDET_PRE",
  c!"LEXENTRY:\tVIADUCTO DE LA\tVIADUCTO DE LA\tTYPE\tDET_PRE",
  c!"LEXENTRY:\tVIADUCTO DE LAS\tVIADUCTO DE LAS\tTYPE\tDET_PRE",
  c!"LEXENTRY:\tVIZCAYA\tVIZCAYA\tPROV,CITY\tDETACH",
  c!"LEXENTRY:\tVOLTA\tVOLTA\tTYPE\tDET_PRE",
  c!"LEXENTRY:\tVOLTA DA\tVOLTA DA\tTYPE\tDET_PRE",
  c!"LEXENTRY:\tVOLTA DAS\tVOLTA DAS\tTYPE\tDET_PRE",
  c!"LEXENTRY:\tVOLTA DE\tVOLTA DE\tTYPE\tDET_PRE",
  c!"LEXENTRY:\tVÍA\tVÍA\tTYPE\tDET_PRE",
  c!"LEXENTRY:\tVÍA DE\tVÍA DE\tTYPE\tDET_PRE",
  c!"LEXENTRY:\tVÍA DEL\tVÍA DEL\tTYPE\tDET_PRE"]

/-- data/sample/spain.lex:702-710 -/
def entries14 : List Str := [
  c!"LEXENTRY:\tZAMORA\tZAMORA\tPROV,CITY\tDETACH",
  c!"LEXENTRY:\tZARAGOZA\tZARAGOZA\tPROV,CITY\tDETACH",
  c!"LEXENTRY:\tZEHARBIDEA\tZEHARBIDEA\tTYPE\tDET_SUF",
  c!"LEXENTRY:\tZEHARKALEA\tZEHARKALEA\tTYPE\tDET_SUF",
  c!"LEXENTRY:\tZUBIA\tZUBIA\tTYPE\tDET_SUF",
  c!"LEXENTRY:\tZUMARDIA\tZUMARDIA\tTYPE\tDET_SUF",
  c!"LEXENTRY:\tZUMARKALEA\tZUMARKALEA\tTYPE\tDET_SUF",
  c!"LEXENTRY:\tÁLAVA\tÁLAVA\tPROV,CITY\tDETACH",
  c!"LEXENTRY:\tÁVILA\tÁVILA\tPROV,CITY\tDETACH"]

/-- The text, and what is claimed of it. -/
def lexicon : LexSample where
  header := c!"LEXICON:\tlex-spain.txt\tSPA\tes_ES"
  body := entries0 ++ entries1 ++ entries2 ++ entries3 ++ entries4 ++ entries5 ++ entries6 ++ entries7 ++ entries8
     ++ entries9 ++ entries10 ++ entries11 ++ entries12 ++ entries13 ++ entries14
  lang := .SPA
  locale := c!"es_ES"
  classes := [
    .BOXH, .UNITH, .PROV, .CITY, .TYPE, .WORD, .PLACEN, .NATION]

set_option maxRecDepth 1000000 in
theorem lexicon_checked : checkLex lexicon [0, 7, 9, 9, 11, 106, 225, 304] = true := by decide +kernel

/-- What of the grammar cannot match. -/
def pair : Pair where
  sample := sample
  lexicon := lexicon
  idle := []
  null := [.building, .predir, .qual, .suftype, .sufdir, .ruralroute]

/-- What shows it. -/
def pairCert : PairCert where
  dead := []
  barren := []
  reach := [
    c!"ADDRESS", c!"micro", c!"macro", c!"locality", c!"streetname", c!"housenumber", c!"unit", c!"pobox",
    c!"postal", c!"citywords", c!"prov", c!"nation", c!"city", c!"locword", c!"c_word"]

set_option maxRecDepth 100000 in
theorem pair_checked : checkPair pair pairCert = true := by decide +kernel

end AS.Sample.Spain
