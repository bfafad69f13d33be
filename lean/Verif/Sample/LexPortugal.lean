import Verif.Lemmas.LexCheck
import Verif.Lemmas.PairCheck
import Verif.Sample.Portugal
/-
The lexicon data/sample/portugal.lex (all 341 lines), and what of portugal.gmr cannot match with it. Written by
tools/lexicons.py.
-/
namespace AS.Sample.Portugal

/-- data/sample/portugal.lex:2-51 -/
def entries0 : List Str := [
  c!"LEXENTRY:\tº\tº\tUNITH\tDETACH",
  c!"LEXENTRY:\tALAMEDA\tALAMEDA\tTYPE\tDET_PRE",
  c!"LEXENTRY:\tALAMEDA DA\tALAMEDA DA\tTYPE\tDET_PRE",
  c!"LEXENTRY:\tALAMEDA DAS\tALAMEDA DAS\tTYPE\tDET_PRE",
  c!"LEXENTRY:\tALAMEDA DO\tALAMEDA DO\tTYPE\tDET_PRE",
  c!"LEXENTRY:\tALAMEDA DOS\tALAMEDA DOS\tTYPE\tDET_PRE",
  c!"LEXENTRY:\tALTO DA\tALTO DA\tTYPE\tDET_PRE",
  c!"LEXENTRY:\tALTO DE\tALTO DE\tTYPE\tDET_PRE",
  c!"LEXENTRY:\tALTO DO\tALTO DO\tTYPE\tDET_PRE",
  c!"LEXENTRY:\tALTO DOS\tALTO DOS\tTYPE\tDET_PRE",
  c!"LEXENTRY:\tANDAR\tANDAR\tUNITH\tDETACH",
  c!"LEXENTRY:\tAPARTAMENTO\tAPARTAMENTO\tUNITH\tDETACH",
  c!"LEXENTRY:\tAPTDO\tAPARTAMENTO\tUNITH\tDETACH",
  c!"LEXENTRY:\tAPTDO.\tAPARTAMENTO\tUNITH\tDETACH",
  c!"LEXENTRY:\tARCO\tARCO\tTYPE\tDET_PRE",
  c!"LEXENTRY:\tARCO DE\tARCO DE\tTYPE\tDET_PRE",
  c!"LEXENTRY:\tARCO DO\tARCO DO\tTYPE\tDET_PRE",
  c!"LEXENTRY:\tAV\tAVENIDA\tTYPE\tDET_PRE",
  c!"LEXENTRY:\tAV DA\tAVENIDA DA\tTYPE\tDET_PRE",
  c!"LEXENTRY:\tAV DAS\tAVENIDA DAS\tTYPE\tDET_PRE",
  c!"LEXENTRY:\tAV DE\tAVENIDA DE\tTYPE\tDET_PRE",
  c!"LEXENTRY:\tAV DO\tAVENIDA DO\tTYPE\tDET_PRE",
  c!"LEXENTRY:\tAV DOS\tAVENIDA DOS\tTYPE\tDET_PRE",
  c!"LEXENTRY:\tAV.\tAVENIDA\tTYPE\tDET_PRE",
  c!"LEXENTRY:\tAV. DA\tAVENIDA DA\tTYPE\tDET_PRE",
  c!"LEXENTRY:\tAV. DAS\tAVENIDA DAS\tTYPE\tDET_PRE",
  c!"LEXENTRY:\tAV. DE\tAVENIDA DE\tTYPE\tDET_PRE",
  c!"LEXENTRY:\tAV. DO\tAVENIDA DO\tTYPE\tDET_PRE",
  c!"LEXENTRY:\tAV. DOS\tAVENIDA DOS\tTYPE\tDET_PRE",
  c!"LEXENTRY:\tAVDA\tAVENIDA\tTYPE\tDET_PRE",
  c!"LEXENTRY:\tAVDA AD\tAVENIDA DA\tTYPE\tDET_PRE",
  c!"LEXENTRY:\tAVDA DAS\tAVENIDA DAS\tTYPE\tDET_PRE",
  c!"LEXENTRY:\tAVDA DE\tAVENIDA DE\tTYPE\tDET_PRE",
  c!"LEXENTRY:\tAVDA DO\tAVENIDA DO\tTYPE\tDET_PRE",
  c!"LEXENTRY:\tAVDA DOS\tAVENIDA DOS\tTYPE\tDET_PRE",
  c!"LEXENTRY:\tAVDA.\tAVENIDA\tTYPE\tDET_PRE",
  c!"LEXENTRY:\tAVDA. AD\tAVENIDA DA\tTYPE\tDET_PRE",
  c!"LEXENTRY:\tAVDA. DAS\tAVENIDA DAS\tTYPE\tDET_PRE",
  c!"LEXENTRY:\tAVDA. DE\tAVENIDA DE\tTYPE\tDET_PRE",
  c!"LEXENTRY:\tAVDA. DO\tAVENIDA DO\tTYPE\tDET_PRE",
  c!"LEXENTRY:\tAVDA. DOS\tAVENIDA DOS\tTYPE\tDET_PRE",
  c!"LEXENTRY:\tAVE\tAVENIDA\tTYPE\tDET_PRE",
  c!"LEXENTRY:\tAVE DA\tAVENIDA DA\tTYPE\tDET_PRE",
  c!"LEXENTRY:\tAVE DAS\tAVENIDA DAS\tTYPE\tDET_PRE",
  c!"LEXENTRY:\tAVE DE\tAVENIDA DE\tTYPE\tDET_PRE",
  c!"LEXENTRY:\tAVE DO\tAVENIDA DO\tTYPE\tDET_PRE",
  c!"LEXENTRY:\tAVE DOS\tAVENIDA DOS\tTYPE\tDET_PRE",
  c!"LEXENTRY:\tAVE.\tAVENIDA\tTYPE\tDET_PRE",
  c!"LEXENTRY:\tAVE. DA\tAVENIDA DA\tTYPE\tDET_PRE",
  c!"LEXENTRY:\tAVE. DAS\tAVENIDA DAS\tTYPE\tDET_PRE"]

/-- data/sample/portugal.lex:52-101 -/
def entries1 : List Str := [
  c!"LEXENTRY:\tAVE. DE\tAVENIDA DE\tTYPE\tDET_PRE",
  c!"LEXENTRY:\tAVE. DO\tAVENIDA DO\tTYPE\tDET_PRE",
  c!"LEXENTRY:\tAVE. DOS\tAVENIDA DOS\tTYPE\tDET_PRE",
  c!"LEXENTRY:\tAVEIRO\tAVEIRO\tPROV\tDETACH",
  c!"LEXENTRY:\tAVENIDA\tAVENIDA\tTYPE\tDET_PRE",
  c!"LEXENTRY:\tAVENIDA DA\tAVENIDA DA\tTYPE\tDET_PRE",
  c!"LEXENTRY:\tAVENIDA DAS\tAVENIDA DAS\tTYPE\tDET_PRE",
  c!"LEXENTRY:\tAVENIDA DE\tAVENIDA DE\tTYPE\tDET_PRE",
  c!"LEXENTRY:\tAVENIDA DO\tAVENIDA DO\tTYPE\tDET_PRE",
  c!"LEXENTRY:\tAVENIDA DOS\tAVENIDA DOS\tTYPE\tDET_PRE",
  c!"LEXENTRY:\tAZINHAGA\tAZINHAGA\tTYPE\tDET_PRE",
  c!"LEXENTRY:\tAZINHAGA DA\tAZINHAGA DA\tTYPE\tDET_PRE",
  c!"LEXENTRY:\tAZINHAGA DAS\tAZINHAGA DAS\tTYPE\tDET_PRE",
  c!"LEXENTRY:\tAZINHAGA DE\tAZINHAGA DE\tTYPE\tDET_PRE",
  c!"LEXENTRY:\tAZINHAGA DO\tAZINHAGA DO\tTYPE\tDET_PRE",
  c!"LEXENTRY:\tAZINHAGA DOS\tAZINHAGA DOS\tTYPE\tDET_PRE",
  c!"LEXENTRY:\tBA\tBAIRRO\tTYPE\tDET_PRE",
  c!"LEXENTRY:\tBA.\tBAIRRO\tTYPE\tDET_PRE",
  c!"LEXENTRY:\tBAIRRO\tBAIRRO\tTYPE\tDET_PRE",
  c!"LEXENTRY:\tBECO\tBECO\tTYPE\tDET_PRE",
  c!"LEXENTRY:\tBECO DA\tBECO DA\tTYPE\tDET_PRE",
  c!"LEXENTRY:\tBECO DAS\tBECO DAS\tTYPE\tDET_PRE",
  c!"LEXENTRY:\tBECO DE\tBECO DE\tTYPE\tDET_PRE",
  c!"LEXENTRY:\tBECO DO\tBECO DO\tTYPE\tDET_PRE",
  c!"LEXENTRY:\tBECO DOS\tBECO DOS\tTYPE\tDET_PRE",
  c!"LEXENTRY:\tBEJA\tBEJA\tPROV\tDETACH",
  c!"LEXENTRY:\tBRAGA\tBRAGA\tPROV\tDETACH",
  c!"LEXENTRY:\tBRAGANÇA\tBRAGANZA\tPROV\tDETACH",
  c!"LEXENTRY:\tCALÇADA\tCALÇADA\tTYPE\tDET_PRE",
  c!"LEXENTRY:\tCALÇADA DA\tCALÇADA DA\tTYPE\tDET_PRE",
  c!"LEXENTRY:\tCALÇADA DAS\tCALÇADA DAS\tTYPE\tDET_PRE",
  c!"LEXENTRY:\tCALÇADA DE\tCALÇADA DE\tTYPE\tDET_PRE",
  c!"LEXENTRY:\tCALÇADA DO\tCALÇADA DO\tTYPE\tDET_PRE",
  c!"LEXENTRY:\tCALÇADA DOS\tCALÇADA DOS\tTYPE\tDET_PRE",
  c!"LEXENTRY:\tCALÇADINHA DE\tCALÇADINHA DE\tTYPE\tDET_PRE",
  c!"LEXENTRY:\tCALÇADINHA DO\tCALÇADINHA DO\tTYPE\tDET_PRE",
  c!"LEXENTRY:\tCAMINHO\tCAMINHO\tTYPE\tDET_PRE",
  c!"LEXENTRY:\tCAMINHO DA\tCAMINHO DA\tTYPE\tDET_PRE",
  c!"LEXENTRY:\tCAMINHO DAS\tCAMINHO DAS\tTYPE\tDET_PRE",
  c!"LEXENTRY:\tCAMINHO DE\tCAMINHO DE\tTYPE\tDET_PRE",
  c!"LEXENTRY:\tCAMINHO DO\tCAMINHO DO\tTYPE\tDET_PRE",
  c!"LEXENTRY:\tCAMINHO DOS\tCAMINHO DOS\tTYPE\tDET_PRE",
  c!"LEXENTRY:\tCAMPO\tCAMPO\tTYPE\tDET_PRE",
  c!"LEXENTRY:\tCAMPO DAS\tCAMPO DAS\tTYPE\tDET_PRE",
  c!"LEXENTRY:\tCAMPO DE\tCAMPO DE\tTYPE\tDET_PRE",
  c!"LEXENTRY:\tCAMPO DOS\tCAMPO DOS\tTYPE\tDET_PRE",
  c!"LEXENTRY:\tCARREIRO DA\tCARREIRO DA\tTYPE\tDET_PRE",
  c!"LEXENTRY:\tCASE POSTALE\tCASE POSTALE\tBOXH\tDETACH",
  c!"LEXENTRY:\tCASTELO BRANCO\tCASTELO BRANCO\tPROV\tDETACH",
  c!"LEXENTRY:\tCC\tCALÇADA\tTYPE\tDET_PRE"]

/-- data/sample/portugal.lex:102-151 -/
def entries2 : List Str := [
  c!"LEXENTRY:\tCC DA\tCALÇADA DA\tTYPE\tDET_PRE",
  c!"LEXENTRY:\tCC DAS\tCALÇADA DAS\tTYPE\tDET_PRE",
  c!"LEXENTRY:\tCC DE\tCALÇADA DE\tTYPE\tDET_PRE",
  c!"LEXENTRY:\tCC DO\tCALÇADA DO\tTYPE\tDET_PRE",
  c!"LEXENTRY:\tCC DOS\tCALÇADA DOS\tTYPE\tDET_PRE",
  c!"LEXENTRY:\tCC.\tCALÇADA\tTYPE\tDET_PRE",
  c!"LEXENTRY:\tCC. DA\tCALÇADA DA\tTYPE\tDET_PRE",
  c!"LEXENTRY:\tCC. DAS\tCALÇADA DAS\tTYPE\tDET_PRE",
  c!"LEXENTRY:\tCC. DE\tCALÇADA DE\tTYPE\tDET_PRE",
  c!"LEXENTRY:\tCC. DO\tCALÇADA DO\tTYPE\tDET_PRE",
  c!"LEXENTRY:\tCC. DOS\tCALÇADA DOS\tTYPE\tDET_PRE",
  c!"LEXENTRY:\tCCI\tCCI\tBOXH\tDETACH",
  c!"LEXENTRY:\tCOIMBRA\tCOIMBRA\tPROV\tDETACH",
  c!"LEXENTRY:\tCOSTA DO\tCOSTA DO\tTYPE\tDET_PRE",
  c!"LEXENTRY:\tD.\tDOM\tWORD\tDETACH",
  c!"LEXENTRY:\tDOM\tDOM\tWORD\tDETACH",
  c!"LEXENTRY:\tENG.\tENGENHEIRO\tWORD\tDETACH",
  c!"LEXENTRY:\tENGENHEIRO\tENGENHEIRO\tWORD\tDETACH",
  c!"LEXENTRY:\tENGº\tENGENHEIRO\tWORD\tDETACH",
  c!"LEXENTRY:\tESCADAS\tESCADAS\tTYPE\tDET_PRE",
  c!"LEXENTRY:\tESCADAS DA\tESCADAS DA\tTYPE\tDET_PRE",
  c!"LEXENTRY:\tESCADAS DAS\tESCADAS DAS\tTYPE\tDET_PRE",
  c!"LEXENTRY:\tESCADAS DE\tESCADAS DE\tTYPE\tDET_PRE",
  c!"LEXENTRY:\tESCADAS DO\tESCADAS DO\tTYPE\tDET_PRE",
  c!"LEXENTRY:\tESCADAS DOS\tESCADAS DOS\tTYPE\tDET_PRE",
  c!"LEXENTRY:\tESCADINHAS\tESCADINHAS\tTYPE\tDET_PRE",
  c!"LEXENTRY:\tESCADINHAS DA\tESCADINHAS DA\tTYPE\tDET_PRE",
  c!"LEXENTRY:\tESCADINHAS DAS\tESCADINHAS DAS\tTYPE\tDET_PRE",
  c!"LEXENTRY:\tESCADINHAS DE\tESCADINHAS DE\tTYPE\tDET_PRE",
  c!"LEXENTRY:\tESCADINHAS DO\tESCADINHAS DO\tTYPE\tDET_PRE",
  c!"LEXENTRY:\tESCADINHAS DOS\tESCADINHAS DOS\tTYPE\tDET_PRE",
  c!"LEXENTRY:\tESPLANADA\tESPLANADA\tTYPE\tDET_PRE",
  c!"LEXENTRY:\tESPLANADA DO\tESPLANADA DO\tTYPE\tDET_PRE",
  c!"LEXENTRY:\tEST\tESTRADA\tTYPE\tDET_PRE",
  c!"LEXENTRY:\tEST DA\tESTRADA DA\tTYPE\tDET_PRE",
  c!"LEXENTRY:\tEST DAS\tESTRADA DAS\tTYPE\tDET_PRE",
  c!"LEXENTRY:\tEST DE\tESTRADA DE\tTYPE\tDET_PRE",
  c!"LEXENTRY:\tEST DO\tESTRADA DO\tTYPE\tDET_PRE",
  c!"LEXENTRY:\tEST DOS\tESTRADA DOS\tTYPE\tDET_PRE",
  c!"LEXENTRY:\tEST.\tESTRADA\tTYPE\tDET_PRE",
  c!"LEXENTRY:\tEST. DA\tESTRADA DA\tTYPE\tDET_PRE",
  c!"LEXENTRY:\tEST. DAS\tESTRADA DAS\tTYPE\tDET_PRE",
  c!"LEXENTRY:\tEST. DE\tESTRADA DE\tTYPE\tDET_PRE",
  c!"LEXENTRY:\tEST. DO\tESTRADA DO\tTYPE\tDET_PRE",
  c!"LEXENTRY:\tEST. DOS\tESTRADA DOS\tTYPE\tDET_PRE",
  c!"LEXENTRY:\tESTR\tESTRADA\tTYPE\tDET_PRE",
  c!"LEXENTRY:\tESTR DA\tESTRADA DA\tTYPE\tDET_PRE",
  c!"LEXENTRY:\tESTR DAS\tESTRADA DAS\tTYPE\tDET_PRE",
  c!"LEXENTRY:\tESTR DE\tESTRADA DE\tTYPE\tDET_PRE",
  c!"LEXENTRY:\tESTR DO\tESTRADA DO\tTYPE\tDET_PRE"]

/-- data/sample/portugal.lex:152-201 -/
def entries3 : List Str := [
  c!"LEXENTRY:\tESTR DOS\tESTRADA DOS\tTYPE\tDET_PRE",
  c!"LEXENTRY:\tESTR.\tESTRADA\tTYPE\tDET_PRE",
  c!"LEXENTRY:\tESTR. DA\tESTRADA DA\tTYPE\tDET_PRE",
  c!"LEXENTRY:\tESTR. DAS\tESTRADA DAS\tTYPE\tDET_PRE",
  c!"LEXENTRY:\tESTR. DE\tESTRADA DE\tTYPE\tDET_PRE",
  c!"LEXENTRY:\tESTR. DO\tESTRADA DO\tTYPE\tDET_PRE",
  c!"LEXENTRY:\tESTR. DOS\tESTRADA DOS\tTYPE\tDET_PRE",
  c!"LEXENTRY:\tESTRADA\tESTRADA\tTYPE\tDET_PRE",
  c!"LEXENTRY:\tESTRADA DA\tESTRADA DA\tTYPE\tDET_PRE",
  c!"LEXENTRY:\tESTRADA DAS\tESTRADA DAS\tTYPE\tDET_PRE",
  c!"LEXENTRY:\tESTRADA DE\tESTRADA DE\tTYPE\tDET_PRE",
  c!"LEXENTRY:\tESTRADA DO\tESTRADA DO\tTYPE\tDET_PRE",
  c!"LEXENTRY:\tESTRADA DOS\tESTRADA DOS\tTYPE\tDET_PRE",
  c!"LEXENTRY:\tEVORA\tEVORA                            \tPROV\tDETACH",
  c!"LEXENTRY:\tFARO\tFARO\tPROV\tDETACH",
  c!"LEXENTRY:\tG.\tGOMES\tWORD\tDETACH",
  c!"LEXENTRY:\tGOMES\tGOMES\tWORD\tDETACH",
  c!"LEXENTRY:\tGUARDA\tGUARDA\tPROV\tDETACH",
  c!"LEXENTRY:\tINF.\tINFANTE\tWORD\tDETACH",
  c!"LEXENTRY:\tINFANTE\tINFANTE\tWORD\tDETACH",
  c!"LEXENTRY:\tL\tLARGO\tTYPE\tDET_PRE",
  c!"LEXENTRY:\tL DA\tLARGO DA\tTYPE\tDET_PRE",
  c!"LEXENTRY:\tL DAS\tLARGO DAS\tTYPE\tDET_PRE",
  c!"LEXENTRY:\tL DE\tLARGO DE\tTYPE\tDET_PRE",
  c!"LEXENTRY:\tL DO\tLARGO DO\tTYPE\tDET_PRE",
  c!"LEXENTRY:\tL DOS\tLARGO DOS\tTYPE\tDET_PRE",
  c!"LEXENTRY:\tL.\tLARGO\tTYPE\tDET_PRE",
  c!"LEXENTRY:\tL. DA\tLARGO DA\tTYPE\tDET_PRE",
  c!"LEXENTRY:\tL. DAS\tLARGO DAS\tTYPE\tDET_PRE",
  c!"LEXENTRY:\tL. DE\tLARGO DE\tTYPE\tDET_PRE",
  c!"LEXENTRY:\tL. DO\tLARGO DO\tTYPE\tDET_PRE",
  c!"LEXENTRY:\tL. DOS\tLARGO DOS\tTYPE\tDET_PRE",
  c!"LEXENTRY:\tLARGO\tLARGO\tTYPE\tDET_PRE",
  c!"LEXENTRY:\tLARGO DA\tLARGO DA\tTYPE\tDET_PRE",
  c!"LEXENTRY:\tLARGO DAS\tLARGO DAS\tTYPE\tDET_PRE",
  c!"LEXENTRY:\tLARGO DE\tLARGO DE\tTYPE\tDET_PRE",
  c!"LEXENTRY:\tLARGO DO\tLARGO DO\tTYPE\tDET_PRE",
  c!"LEXENTRY:\tLARGO DOS\tLARGO DOS\tTYPE\tDET_PRE",
  c!"LEXENTRY:\tLEIRIA\tLEIRIA\tPROV\tDETACH",
  c!"LEXENTRY:\tLGO\tLARGO\tTYPE\tDET_PRE",
  c!"LEXENTRY:\tLGO DA\tLARGO DA\tTYPE\tDET_PRE",
  c!"LEXENTRY:\tLGO DAS\tLARGO DAS\tTYPE\tDET_PRE",
  c!"LEXENTRY:\tLGO DE\tLARGO DE\tTYPE\tDET_PRE",
  c!"LEXENTRY:\tLGO DO\tLARGO DO\tTYPE\tDET_PRE",
  c!"LEXENTRY:\tLGO DOS\tLARGO DOS\tTYPE\tDET_PRE",
  c!"LEXENTRY:\tLGO.\tLARGO\tTYPE\tDET_PRE",
  c!"LEXENTRY:\tLGO. DA\tLARGO DA\tTYPE\tDET_PRE",
  c!"LEXENTRY:\tLGO. DAS\tLARGO DAS\tTYPE\tDET_PRE",
  c!"LEXENTRY:\tLGO. DE\tLARGO DE\tTYPE\tDET_PRE",
  c!"LEXENTRY:\tLGO. DO\tLARGO DO\tTYPE\tDET_PRE"]

/-- data/sample/portugal.lex:202-251 -/
def entries4 : List Str := [
  c!"LEXENTRY:\tLGO. DOS\tLARGO DOS\tTYPE\tDET_PRE",
  c!"LEXENTRY:\tLISBON\tLISBOA\tPROV\tDETACH",
  c!"LEXENTRY:\tLISBONA\tLISBOA\tPROV\tDETACH",
  c!"LEXENTRY:\tLISBONNE\tLISBOA\tPROV\tDETACH",
  c!"LEXENTRY:\tLISSABON\tLISBOA\tPROV\tDETACH",
  c!"LEXENTRY:\tMAL.\tMARECHAL\tWORD\tDETACH",
  c!"LEXENTRY:\tMARECHAL\tMARECHAL\tWORD\tDETACH",
  c!"LEXENTRY:\tNAC.\tNACIONAL\tWORD\tDETACH",
  c!"LEXENTRY:\tNACIONAL\tNACIONAL\tWORD\tDETACH",
  c!"LEXENTRY:\tOPORTO\tOPORTO\tPROV\tDETACH",
  c!"LEXENTRY:\tPASSEIO\tPASSEIO\tTYPE\tDET_PRE",
  c!"LEXENTRY:\tPASSEIO DA\tPASSEIO DA\tTYPE\tDET_PRE",
  c!"LEXENTRY:\tPASSEIO DAS\tPASSEIO DAS\tTYPE\tDET_PRE",
  c!"LEXENTRY:\tPASSEIO DE\tPASSEIO DE\tTYPE\tDET_PRE",
  c!"LEXENTRY:\tPASSEIO DO\tPASSEIO DO\tTYPE\tDET_PRE",
  c!"LEXENTRY:\tPASSEIO DOS\tPASSEIO DOS\tTYPE\tDET_PRE",
  c!"LEXENTRY:\tPATIO DA\tPATIO DA\tTYPE\tDET_PRE",
  c!"LEXENTRY:\tPATIO DAS\tPATIO DAS\tTYPE\tDET_PRE",
  c!"LEXENTRY:\tPATIO DE\tPATIO DE\tTYPE\tDET_PRE",
  c!"LEXENTRY:\tPATIO DO\tPATIO DO\tTYPE\tDET_PRE",
  c!"LEXENTRY:\tPONTE\tPONTE\tTYPE\tDET_PRE",
  c!"LEXENTRY:\tPONTE DA\tPONTE DA\tTYPE\tDET_PRE",
  c!"LEXENTRY:\tPONTE DE\tPONTE DE\tTYPE\tDET_PRE",
  c!"LEXENTRY:\tPONTE DO\tPONTE DO\tTYPE\tDET_PRE",
  c!"LEXENTRY:\tPORTALEGRE\tPORTALEGRE\tPROV\tDETACH",
  c!"LEXENTRY:\tPORTO\tPORTO\tPROV\tDETACH",
  c!"LEXENTRY:\tPORTOGALLO\tPORTUGAL\tNATION\tDETACH",
  c!"LEXENTRY:\tPORTUGAL\tPORTUGAL\tNATION\tDETACH",
  c!"LEXENTRY:\tPORTUGALI\tPORTUGAL\tNATION\tDETACH",
  c!"LEXENTRY:\tPORTUGALSKO\tPORTUGAL\tNATION\tDETACH",
  c!"LEXENTRY:\tPR\tPRAÇA\tTYPE\tDET_PRE",
  c!"LEXENTRY:\tPR DA\tPRAÇA DA\tTYPE\tDET_PRE",
  c!"LEXENTRY:\tPR DAS\tPRAÇA DAS\tTYPE\tDET_PRE",
  c!"LEXENTRY:\tPR DE\tPRAÇA DE\tTYPE\tDET_PRE",
  c!"LEXENTRY:\tPR DO\tPRAÇA DO\tTYPE\tDET_PRE",
  c!"LEXENTRY:\tPR DOS\tPRAÇA DOS\tTYPE\tDET_PRE",
  c!"LEXENTRY:\tPR.\tPRAÇA\tTYPE\tDET_PRE",
  c!"LEXENTRY:\tPR. DA\tPRAÇA DA\tTYPE\tDET_PRE",
  c!"LEXENTRY:\tPR. DAS\tPRAÇA DAS\tTYPE\tDET_PRE",
  c!"LEXENTRY:\tPR. DE\tPRAÇA DE\tTYPE\tDET_PRE",
  c!"LEXENTRY:\tPR. DO\tPRAÇA DO\tTYPE\tDET_PRE",
  c!"LEXENTRY:\tPR. DOS\tPRAÇA DOS\tTYPE\tDET_PRE",
  c!"LEXENTRY:\tPRACETA\tPRACETA\tTYPE\tDET_PRE",
  c!"LEXENTRY:\tPRACETA DA\tPRACETA DA\tTYPE\tDET_PRE",
  c!"LEXENTRY:\tPRACETA DAS\tPRACETA DAS\tTYPE\tDET_PRE",
  c!"LEXENTRY:\tPRACETA DE\tPRACETA DE\tTYPE\tDET_PRE",
  c!"LEXENTRY:\tPRACETA DO\tPRACETA DO\tTYPE\tDET_PRE",
  c!"LEXENTRY:\tPRACETA DOS\tPRACETA DOS\tTYPE\tDET_PRE",
  c!"LEXENTRY:\tPRAZA\tPRAÇA\tTYPE\tDET_PRE",
  c!"LEXENTRY:\tPRAZA DA\tPRAÇA DA\tTYPE\tDET_PRE"]

/-- data/sample/portugal.lex:252-301 -/
def entries5 : List Str := [
  c!"LEXENTRY:\tPRAZA DAS\tPRAÇA DAS\tTYPE\tDET_PRE",
  c!"LEXENTRY:\tPRAZA DE\tPRAÇA DE\tTYPE\tDET_PRE",
  c!"LEXENTRY:\tPRAZA DO\tPRAÇA DO\tTYPE\tDET_PRE",
  c!"LEXENTRY:\tPRAZA DOS\tPRAÇA DOS\tTYPE\tDET_PRE",
  c!"LEXENTRY:\tPRAÇA\tPRAÇA\tTYPE\tDET_PRE",
  c!"LEXENTRY:\tPRAÇA DA\tPRAÇA DA\tTYPE\tDET_PRE",
  c!"LEXENTRY:\tPRAÇA DAS\tPRAÇA DAS\tTYPE\tDET_PRE",
  c!"LEXENTRY:\tPRAÇA DE\tPRAÇA DE\tTYPE\tDET_PRE",
  c!"LEXENTRY:\tPRAÇA DO\tPRAÇA DO\tTYPE\tDET_PRE",
  c!"LEXENTRY:\tPRAÇA DOS\tPRAÇA DOS\tTYPE\tDET_PRE",
  c!"LEXENTRY:\tPRT\tPORTUGAL\tNATION\tDETACH",
  c!"LEXENTRY:\tPT\tPORTUGAL\tNATION\tDETACH",
  c!"LEXENTRY:\tPÁTEO\tPÁTEO\tTYPE\tDET_PRE",
  c!"LEXENTRY:\tPÁTEO DE\tPÁTEO DE\tTYPE\tDET_PRE",
  c!"LEXENTRY:\tPÁTEO DO\tPÁTEO DO\tTYPE\tDET_PRE",
  c!"LEXENTRY:\tPÁTEO DOS\tPÁTEO DOS\tTYPE\tDET_PRE",
  c!"LEXENTRY:\tPÁTIO\tPÁTIO\tTYPE\tDET_PRE",
  c!"LEXENTRY:\tPÁTIO DA\tPÁTIO DA\tTYPE\tDET_PRE",
  c!"LEXENTRY:\tPÁTIO DAS\tPÁTIO DAS\tTYPE\tDET_PRE",
  c!"LEXENTRY:\tPÁTIO DE\tPÁTIO DE\tTYPE\tDET_PRE",
  c!"LEXENTRY:\tPÁTIO DO\tPÁTIO DO\tTYPE\tDET_PRE",
  c!"LEXENTRY:\tPÁTIO DOS\tPÁTIO DOS\tTYPE\tDET_PRE",
  c!"LEXENTRY:\tPÇ\tPRAÇA\tTYPE\tDET_PRE",
  c!"LEXENTRY:\tPÇ DA\tPRAÇA DA\tTYPE\tDET_PRE",
  c!"LEXENTRY:\tPÇ DAS\tPRAÇA DAS\tTYPE\tDET_PRE",
  c!"LEXENTRY:\tPÇ DE\tPRAÇA DE\tTYPE\tDET_PRE",
  c!"LEXENTRY:\tPÇ DO\tPRAÇA DO\tTYPE\tDET_PRE",
  c!"LEXENTRY:\tPÇ DOS\tPRAÇA DOS\tTYPE\tDET_PRE",
  c!"LEXENTRY:\tPÇ.\tPRAÇA\tTYPE\tDET_PRE",
  c!"LEXENTRY:\tPÇ. DA\tPRAÇA DA\tTYPE\tDET_PRE",
  c!"LEXENTRY:\tPÇ. DAS\tPRAÇA DAS\tTYPE\tDET_PRE",
  c!"LEXENTRY:\tPÇ. DE\tPRAÇA DE\tTYPE\tDET_PRE",
  c!"LEXENTRY:\tPÇ. DO\tPRAÇA DO\tTYPE\tDET_PRE",
  c!"LEXENTRY:\tPÇ. DOS\tPRAÇA DOS\tTYPE\tDET_PRE",
  c!"LEXENTRY:\tQTA\tQUINTA\tWORD\tDETACH",
  c!"LEXENTRY:\tQTA.\tQUINTA\tWORD\tDETACH",
  c!"LEXENTRY:\tQUINTA\tQUINTA\tWORD\tDETACH",
  c!"LEXENTRY:\tR\tRUA\tTYPE\tDET_PRE",
  c!"LEXENTRY:\tR DA\tRUA DA\tTYPE\tDET_PRE",
  c!"LEXENTRY:\tR DAS\tRUA DAS\tTYPE\tDET_PRE",
  c!"LEXENTRY:\tR DE\tRUA DE\tTYPE\tDET_PRE",
  c!"LEXENTRY:\tR DO\tRUA DO\tTYPE\tDET_PRE",
  c!"LEXENTRY:\tR DOS\tRUA DOS\tTYPE\tDET_PRE",
  c!"LEXENTRY:\tR.\tRUA\tTYPE\tDET_PRE",
  c!"LEXENTRY:\tR. DA\tRUA DA\tTYPE\tDET_PRE",
  c!"LEXENTRY:\tR. DAS\tRUA DAS\tTYPE\tDET_PRE",
  c!"LEXENTRY:\tR. DE\tRUA DE\tTYPE\tDET_PRE",
  c!"LEXENTRY:\tR. DO\tRUA DO\tTYPE\tDET_PRE",
  c!"LEXENTRY:\tR. DOS\tRUA DOS\tTYPE\tDET_PRE",
  c!"LEXENTRY:\tRAMPA\tRAMPA\tTYPE\tDET_PRE"]

/-- data/sample/portugal.lex:302-341 -/
def entries6 : List Str := [
  c!"LEXENTRY:\tRAMPA DAS\tRAMPA DAS\tTYPE\tDET_PRE",
  c!"LEXENTRY:\tRAMPA DO\tRAMPA DO\tTYPE\tDET_PRE",
  c!"LEXENTRY:\tROSSIO DA\tROSSIO DA\tTYPE\tDET_PRE",
  c!"LEXENTRY:\tROSSIO DE\tROSSIO DE\tTYPE\tDET_PRE",
  c!"LEXENTRY:\tROSSIO DO\tROSSIO DO\tTYPE\tDET_PRE",
  c!"LEXENTRY:\tRUA\tRUA\tTYPE\tDET_PRE",
  c!"LEXENTRY:\tRUA DA\tRUA DA\tTYPE\tDET_PRE",
  c!"LEXENTRY:\tRUA DAS\tRUA DAS\tTYPE\tDET_PRE",
  c!"LEXENTRY:\tRUA DE\tRUA DE\tTYPE\tDET_PRE",
  c!"LEXENTRY:\tRUA DO\tRUA DO\tTYPE\tDET_PRE",
  c!"LEXENTRY:\tRUA DOS\tRUA DOS\tTYPE\tDET_PRE",
  c!"LEXENTRY:\tS.\tSÃO\tWORD\tDETACH",
  c!"LEXENTRY:\tSALA\tSALA\tUNITH\tDETACH",
  c!"LEXENTRY:\tSANTARÉM\tSANTAREM\tPROV\tDETACH",
  c!"LEXENTRY:\tSETÚBAL\tSETUBAL\tPROV\tDETACH",
  c!"LEXENTRY:\tSÃO\tSÃO\tWORD\tDETACH",
  c!"LEXENTRY:\tTERREIRO\tTERREIRO\tTYPE\tDET_PRE",
  c!"LEXENTRY:\tTERREIRO DA\tTERREIRO DA\tTYPE\tDET_PRE",
  c!"LEXENTRY:\tTRAVESSA\tTRAVESSA\tTYPE\tDET_PRE",
  c!"LEXENTRY:\tTRAVESSA DA\tTRAVESSA DA\tTYPE\tDET_PRE",
  c!"LEXENTRY:\tTRAVESSA DAS\tTRAVESSA DAS\tTYPE\tDET_PRE",
  c!"LEXENTRY:\tTRAVESSA DE\tTRAVESSA DE\tTYPE\tDET_PRE",
  c!"LEXENTRY:\tTRAVESSA DO\tTRAVESSA DO\tTYPE\tDET_PRE",
  c!"LEXENTRY:\tTRAVESSA DOS\tTRAVESSA DOS\tTYPE\tDET_PRE",
  c!"LEXENTRY:\tVIA\tVIA\tTYPE\tDET_PRE",
  c!"LEXENTRY:\tVIA DE\tVIA DE\tTYPE\tDET_PRE",
  c!"LEXENTRY:\tVIA DO\tVIA DO\tTYPE\tDET_PRE",
  c!"LEXENTRY:\tVIANA DO CASTELO\tVIANA DO CASTELO\tPROV\tDETACH",
  c!"LEXENTRY:\tVIELA\tVIELA\tTYPE\tDET_PRE",
  c!"LEXENTRY:\tVIELA DA\tVIELA DA\tTYPE\tDET_PRE",
  c!"LEXENTRY:\tVIELA DAS\tVIELA DAS\tTYPE\tDET_PRE",
  c!"LEXENTRY:\tVIELA DE\tVIELA DE\tTYPE\tDET_PRE",
  c!"LEXENTRY:\tVIELA DO\tVIELA DO\tTYPE\tDET_PRE",
  c!"LEXENTRY:\tVIELA DOS\tVIELA DOS\tTYPE\tDET_PRE",
  c!"LEXENTRY:\tVILA\tVILA\tTYPE\tDET_PRE",
  c!"LEXENTRY:\tVILA DA\tVILA DA\tTYPE\tDET_PRE",
  c!"LEXENTRY:\tVILA DO\tVILA DO\tTYPE\tDET_PRE",
  c!"LEXENTRY:\tVILA REAL\tVILA REAL\tPROV\tDETACH",
  c!"LEXENTRY:\tVISEU\tVISEU\tPROV\tDETACH",
  c!"LEXENTRY:\tÉVORA\tEVORA\tPROV\tDETACH"]

/-- The text, and what is claimed of it. -/
def lexicon : LexSample where
  header := c!"LEXICON:\tlex-portugal.txt\tPOR\tpt_PT"
  body := entries0 ++ entries1 ++ entries2 ++ entries3 ++ entries4 ++ entries5 ++ entries6
  lang := .POR
  locale := c!"pt_PT"
  classes := [
    .UNITH, .TYPE, .PROV, .BOXH, .WORD, .NATION]

set_option maxRecDepth 1000000 in
theorem lexicon_checked : checkLex lexicon [0, 1, 53, 97, 114, 226] = true := by decide +kernel

/-- What of the grammar cannot match. -/
def pair : Pair where
  sample := sample
  lexicon := lexicon
  idle := [
    c!"[placename]",
    c!"PLACEN -> BLDNG -> 0.7",
    c!"PLACEN WORD -> BLDNG BLDNG -> 0.6",
    c!"PLACEN WORD WORD -> BLDNG BLDNG BLDNG -> 0.5",
    c!"PLACEN WORD WORD WORD -> BLDNG BLDNG BLDNG BLDNG -> 0.4",
    c!"CITY -> CITY -> 0.9"]
  null := [.building, .predir, .qual, .suftype, .sufdir, .ruralroute]

/-- What shows it. -/
def pairCert : PairCert where
  dead := [.CITY, .PLACEN]
  barren := [c!"placename"]
  reach := [
    c!"ADDRESS", c!"micro", c!"macro", c!"streetname", c!"housenumber", c!"unit", c!"pobox", c!"locality",
    c!"postal", c!"citywords", c!"region", c!"country", c!"word", c!"city"]

set_option maxRecDepth 100000 in
theorem pair_checked : checkPair pair pairCert = true := by decide +kernel

end AS.Sample.Portugal
