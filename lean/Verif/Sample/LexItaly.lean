import Verif.Lemmas.LexCheck
import Verif.Lemmas.PairCheck
import Verif.Sample.Italy
/-
The lexicon data/sample/italy.lex (all 966 lines), and what of italy.gmr cannot match with it. Written by
tools/lexicons.py.
-/
namespace AS.Sample.Italy

/-- data/sample/italy.lex:2-51 -/
def entries0 : List Str := [
  c!"LEXENTRY:\tACCESSO\tACCESSO\tTYPE\tDET_PRE",
  c!"LEXENTRY:\tACCESSO A\tACCESSO A\tTYPE\tDET_PRE",
  c!"LEXENTRY:\tAG\tAG\tPROV\tDETACH",
  c!"LEXENTRY:\tAGRIGENTO\tAG\tWORD,PROV\tDETACH",
  c!"LEXENTRY:\tAL\tAL\tPROV\tDETACH",
  c!"LEXENTRY:\tALEJANDRIA\tAL\tWORD,PROV\tDETACH",
  c!"LEXENTRY:\tALESSANDRIA\tAL\tWORD,PROV\tDETACH",
  c!"LEXENTRY:\tALEXANDRIE\tAL\tWORD,PROV\tDETACH",
  c!"LEXENTRY:\tALLEE\tALLEE\tTYPE\tATT_SUF,DET_SUF",
  c!"LEXENTRY:\tALLÉE\tALLÉE\tTYPE\tDET_PRE",
  c!"LEXENTRY:\tALTO\tALTO\tTYPE\tDET_PRE",
  c!"LEXENTRY:\tALZAIA\tALZAIA\tTYPE\tDET_PRE",
  c!"LEXENTRY:\tAN\tAN\tPROV\tDETACH",
  c!"LEXENTRY:\tANCIENNE ROUTE DE\tANCIENNE ROUTE DE\tTYPE\tDET_PRE",
  c!"LEXENTRY:\tANCONA\tAN\tWORD,PROV\tDETACH",
  c!"LEXENTRY:\tANCÔNE\tAN\tWORD,PROV\tDETACH",
  c!"LEXENTRY:\tAO\tAO\tPROV\tDETACH",
  c!"LEXENTRY:\tAOSTA\tAO\tWORD,PROV\tDETACH",
  c!"LEXENTRY:\tAOSTE\tAO\tWORD,PROV\tDETACH",
  c!"LEXENTRY:\tAP\tAP\tPROV\tDETACH",
  c!"LEXENTRY:\tAQ\tAQ\tPROV\tDETACH",
  c!"LEXENTRY:\tAR\tAR\tPROV\tDETACH",
  c!"LEXENTRY:\tARCHIVOLTO\tARCHIVOLTO\tTYPE\tDET_PRE",
  c!"LEXENTRY:\tARCHIVOLTO DELLE\tARCHIVOLTO DELLE\tTYPE\tDET_PRE",
  c!"LEXENTRY:\tARCHIVOLTO DI\tARCHIVOLTO DI\tTYPE\tDET_PRE",
  c!"LEXENTRY:\tARCO\tARCO\tTYPE\tDET_PRE",
  c!"LEXENTRY:\tAREZZO\tAR\tWORD,PROV\tDETACH",
  c!"LEXENTRY:\tASCOLI PICENO\tAP\tWORD,PROV\tDETACH",
  c!"LEXENTRY:\tASSOCIAZIONE\tASSOCIAZIONE\tPLACEN\tDETACH",
  c!"LEXENTRY:\tASTI\tAT\tWORD,PROV\tDETACH",
  c!"LEXENTRY:\tAT\tAT\tPROV\tDETACH",
  c!"LEXENTRY:\tAUTOSTRADA\tAUTOSTRADA\tTYPE\tDET_PRE",
  c!"LEXENTRY:\tAUTOSTRADA D'\tAUTOSTRADA D'\tTYPE\tATT_PRE",
  c!"LEXENTRY:\tAUTOSTRADA DEI\tAUTOSTRADA DEI\tTYPE\tDET_PRE",
  c!"LEXENTRY:\tAUTOSTRADA DEL\tAUTOSTRADA DEL\tTYPE\tDET_PRE",
  c!"LEXENTRY:\tAUTOSTRADA DELLA\tAUTOSTRADA DELLA\tTYPE\tDET_PRE",
  c!"LEXENTRY:\tAV\tAV\tPROV\tDETACH",
  c!"LEXENTRY:\tAVELLINO\tAV\tWORD,PROV\tDETACH",
  c!"LEXENTRY:\tAVENUE\tAVENUE\tTYPE\tDET_PRE",
  c!"LEXENTRY:\tAVENUE DE\tAVENUE DE\tTYPE\tDET_PRE",
  c!"LEXENTRY:\tAVENUE DE LA\tAVENUE DE LA\tTYPE\tDET_PRE",
  c!"LEXENTRY:\tAVENUE DES\tAVENUE DES\tTYPE\tDET_PRE",
  c!"LEXENTRY:\tAVENUE DU\tAVENUE DU\tTYPE\tDET_PRE",
  c!"LEXENTRY:\tAZIENDA\tAZIENDA\tPLACEN\tDETACH",
  c!"LEXENTRY:\tBA\tBA\tPROV\tDETACH",
  c!"LEXENTRY:\tBACH\tBACH\tTYPE\tATT_SUF",
  c!"LEXENTRY:\tBACINO\tBACINO\tTYPE\tDET_PRE",
  c!"LEXENTRY:\tBANCA\tBANCA\tPLACEN\tDETACH",
  c!"LEXENTRY:\tBANCO\tBANCO\tPLACEN\tDETACH",
  c!"LEXENTRY:\tBARI\tBA \tWORD,PROV\tDETACH"]

/-- data/sample/italy.lex:52-101 -/
def entries1 : List Str := [
  c!"LEXENTRY:\tBARRIERA\tBARRIERA\tTYPE\tDET_PRE",
  c!"LEXENTRY:\tBASTIONE\tBASTIONE\tTYPE\tDET_PRE",
  c!"LEXENTRY:\tBASTIONE DELLA\tBASTIONE DELLA\tTYPE\tDET_PRE",
  c!"LEXENTRY:\tBASTIONI DI\tBASTIONI DI\tTYPE\tDET_PRE",
  c!"LEXENTRY:\tBELLUNO\tBL\tWORD,PROV\tDETACH",
  c!"LEXENTRY:\tBELVEDERE\tBELVEDERE\tTYPE\tDET_PRE",
  c!"LEXENTRY:\tBENEVENTO\tBN \tWORD,PROV\tDETACH",
  c!"LEXENTRY:\tBERG\tBERG\tTYPE\tATT_SUF",
  c!"LEXENTRY:\tBERGAME \tBL\tWORD,PROV\tDETACH",
  c!"LEXENTRY:\tBERGAMO\tBG \tWORD,PROV\tDETACH",
  c!"LEXENTRY:\tBERGWEG\tBERGWEG\tTYPE\tATT_SUF",
  c!"LEXENTRY:\tBG\tBG\tPROV\tDETACH",
  c!"LEXENTRY:\tBI\tBI\tPROV\tDETACH",
  c!"LEXENTRY:\tBIELLA\tBI\tWORD,PROV\tDETACH",
  c!"LEXENTRY:\tBL\tBL\tPROV\tDETACH",
  c!"LEXENTRY:\tBN\tBN\tPROV\tDETACH",
  c!"LEXENTRY:\tBO\tBO\tPROV\tDETACH",
  c!"LEXENTRY:\tBOLOGNA\tBO\tWORD,PROV\tDETACH",
  c!"LEXENTRY:\tBOLOGNE\tBO\tWORD,PROV\tDETACH",
  c!"LEXENTRY:\tBOLONIA\tBO\tWORD,PROV\tDETACH",
  c!"LEXENTRY:\tBOLZANO\tBOLZANO-BOZEN\tWORD,PROV\tDETACH",
  c!"LEXENTRY:\tBORGATA\tBORGATA\tTYPE\tDET_PRE",
  c!"LEXENTRY:\tBORGO\tBORGO\tTYPE\tDET_PRE",
  c!"LEXENTRY:\tBOULEVARD\tBOULEVARD\tTYPE\tDET_PRE",
  c!"LEXENTRY:\tBOULEVARD DES\tBOULEVARD DES\tTYPE\tDET_PRE",
  c!"LEXENTRY:\tBOZEN\tBOLZANO-BOZEN\tWORD,PROV\tDETACH",
  c!"LEXENTRY:\tBR\tBR\tPROV\tDETACH",
  c!"LEXENTRY:\tBRESCIA\tBS\tWORD,PROV\tDETACH",
  c!"LEXENTRY:\tBRINDES\tBR\tWORD,PROV\tDETACH",
  c!"LEXENTRY:\tBRINDIS\tBR\tWORD,PROV\tDETACH",
  c!"LEXENTRY:\tBRINDISI\tBR\tWORD,PROV\tDETACH",
  c!"LEXENTRY:\tBRÜCKE\tBRÜCKE\tTYPE\tATT_SUF,DET_SUF",
  c!"LEXENTRY:\tBS\tBS\tPROV\tDETACH",
  c!"LEXENTRY:\tBT\tBT\tPROV\tDETACH",
  c!"LEXENTRY:\tBURG\tBURG\tTYPE\tATT_SUF",
  c!"LEXENTRY:\tBZ\tBOLZANO-BOZEN\tPROV\tDETACH",
  c!"LEXENTRY:\tBZ\tBZ\tPROV\tDETACH",
  c!"LEXENTRY:\tC.DA\tCONTRADA\tTYPE\tDET_PRE",
  c!"LEXENTRY:\tC.L\tCALLE\tTYPE\tDET_PRE",
  c!"LEXENTRY:\tC.PO\tCAMPO\tTYPE\tDET_PRE",
  c!"LEXENTRY:\tC.SO\tCORSO\tTYPE\tDET_PRE",
  c!"LEXENTRY:\tCA\tCA\tPROV\tDETACH",
  c!"LEXENTRY:\tCA'\tCA'\tTYPE\tDET_PRE",
  c!"LEXENTRY:\tCA' DEI\tCA' DEI\tTYPE\tDET_PRE",
  c!"LEXENTRY:\tCA' DEL\tCA' DEL\tTYPE\tDET_PRE",
  c!"LEXENTRY:\tCA' DI\tCA' DI\tTYPE\tDET_PRE",
  c!"LEXENTRY:\tCAGLIARI\tCA\tWORD,PROV\tDETACH",
  c!"LEXENTRY:\tCAL\tCAL\tTYPE\tDET_PRE",
  c!"LEXENTRY:\tCALATA\tCALATA\tTYPE\tDET_PRE",
  c!"LEXENTRY:\tCALLE\tCALLE\tTYPE\tDET_PRE"]

/-- data/sample/italy.lex:102-151 -/
def entries2 : List Str := [
  c!"LEXENTRY:\tCALLE DEL\tCALLE DEL\tTYPE\tDET_PRE",
  c!"LEXENTRY:\tCALLER\tCA\tWORD,PROV\tDETACH",
  c!"LEXENTRY:\tCALTANISSETTA\tCL\tWORD,PROV\tDETACH",
  c!"LEXENTRY:\tCAMPIELLO\tCAMPIELLO\tTYPE\tDET_PRE",
  c!"LEXENTRY:\tCAMPO\tCAMPO\tTYPE\tDET_PRE",
  c!"LEXENTRY:\tCAMPOBASSO\tCB \tWORD,PROV\tDETACH",
  c!"LEXENTRY:\tCANTON\tCANTON\tTYPE\tDET_PRE",
  c!"LEXENTRY:\tCANTONE\tCANTONE\tTYPE\tDET_PRE",
  c!"LEXENTRY:\tCARRER\tCARRER\tTYPE\tDET_PRE",
  c!"LEXENTRY:\tCARRER DE L'\tCARRER DE L'\tTYPE\tATT_PRE",
  c!"LEXENTRY:\tCARRER DE LA\tCARRER DE LA\tTYPE\tDET_PRE",
  c!"LEXENTRY:\tCARRER DE LES\tCARRER DE LES\tTYPE\tDET_PRE",
  c!"LEXENTRY:\tCARRER DEL\tCARRER DEL\tTYPE\tDET_PRE",
  c!"LEXENTRY:\tCARRER DELS\tCARRER DELS\tTYPE\tDET_PRE",
  c!"LEXENTRY:\tCASA\tCASA\tPLACEN\tDETACH",
  c!"LEXENTRY:\tCASALE\tCASALE\tTYPE\tDET_PRE",
  c!"LEXENTRY:\tCASCINA\tCASCINA\tTYPE\tDET_PRE",
  c!"LEXENTRY:\tCASE\tCASE\tTYPE\tDET_PRE",
  c!"LEXENTRY:\tCASE SPARSE\tCASE SPARSE\tTYPE\tDET_PRE",
  c!"LEXENTRY:\tCASELLA POSTALE\tCASELLA POSTALE\tBOXH\tDETACH",
  c!"LEXENTRY:\tCASERTA\tCE\tWORD,PROV\tDETACH",
  c!"LEXENTRY:\tCASERTE\tCE\tWORD,PROV\tDETACH",
  c!"LEXENTRY:\tCATANIA\tCT \tWORD,PROV\tDETACH",
  c!"LEXENTRY:\tCATANZARO\tCZ \tWORD,PROV\tDETACH",
  c!"LEXENTRY:\tCAVALCAVIA\tCAVALCAVIA\tTYPE\tDET_PRE",
  c!"LEXENTRY:\tCB\tCB\tPROV\tDETACH",
  c!"LEXENTRY:\tCE\tCE\tPROV\tDETACH",
  c!"LEXENTRY:\tCH\tCH\tPROV\tDETACH",
  c!"LEXENTRY:\tCHEMIN\tCHEMIN\tTYPE\tDET_PRE",
  c!"LEXENTRY:\tCHEMIN DE\tCHEMIN DE\tTYPE\tDET_PRE",
  c!"LEXENTRY:\tCHEMIN DE L'\tCHEMIN DE L'\tTYPE\tATT_PRE",
  c!"LEXENTRY:\tCHEMIN DE LA\tCHEMIN DE LA\tTYPE\tDET_PRE",
  c!"LEXENTRY:\tCHEMIN DES\tCHEMIN DES\tTYPE\tDET_PRE",
  c!"LEXENTRY:\tCHEMIN DU\tCHEMIN DU\tTYPE\tDET_PRE",
  c!"LEXENTRY:\tCHIASSO\tCHIASSO\tTYPE\tDET_PRE",
  c!"LEXENTRY:\tCHIASSO DE'\tCHIASSO DE'\tTYPE\tDET_PRE",
  c!"LEXENTRY:\tCHIASSO DEGLI\tCHIASSO DEGLI\tTYPE\tDET_PRE",
  c!"LEXENTRY:\tCHIASSO DEI\tCHIASSO DEI\tTYPE\tDET_PRE",
  c!"LEXENTRY:\tCHIASSO DEL\tCHIASSO DEL\tTYPE\tDET_PRE",
  c!"LEXENTRY:\tCHIASSO DELLE\tCHIASSO DELLE\tTYPE\tDET_PRE",
  c!"LEXENTRY:\tCHIASSO DI\tCHIASSO DI\tTYPE\tDET_PRE",
  c!"LEXENTRY:\tCHIESA\tCHIESA\tPLACEN\tDETACH",
  c!"LEXENTRY:\tCHIETI\tCH \tWORD,PROV\tDETACH",
  c!"LEXENTRY:\tCI\tCI\tPROV\tDETACH",
  c!"LEXENTRY:\tCIRCONVALLAZIONE\tCIRCONVALLAZIONE\tTYPE\tDET_PRE",
  c!"LEXENTRY:\tCIRCONVALLAZIONE DELLE\tCIRCONVALLAZIONE DELLE\tTYPE\tDET_PRE",
  c!"LEXENTRY:\tCL\tCL\tPROV\tDETACH",
  c!"LEXENTRY:\tCN\tCN\tPROV\tDETACH",
  c!"LEXENTRY:\tCO\tCO\tPROV\tDETACH",
  c!"LEXENTRY:\tCOMO\tCO \tWORD,PROV\tDETACH"]

/-- data/sample/italy.lex:152-201 -/
def entries3 : List Str := [
  c!"LEXENTRY:\tCOMPANIA\tCOMPANIA\tPLACEN\tDETACH",
  c!"LEXENTRY:\tCONSORZIO\tCONSORZIO\tPLACEN\tDETACH",
  c!"LEXENTRY:\tCONTRADA\tCONTRADA\tTYPE\tDET_PRE",
  c!"LEXENTRY:\tCONTRADA DEL\tCONTRADA DEL\tTYPE\tDET_PRE",
  c!"LEXENTRY:\tCONTRÀ\tCONTRÀ\tTYPE\tDET_PRE",
  c!"LEXENTRY:\tCONTRÀ DEI\tCONTRÀ DEI\tTYPE\tDET_PRE",
  c!"LEXENTRY:\tCONTRÀ DEL\tCONTRÀ DEL\tTYPE\tDET_PRE",
  c!"LEXENTRY:\tCONTRÀ DELLA\tCONTRÀ DELLA\tTYPE\tDET_PRE",
  c!"LEXENTRY:\tCONTRÀ DELLE\tCONTRÀ DELLE\tTYPE\tDET_PRE",
  c!"LEXENTRY:\tCOPAGNIA\tCOPAGNIA\tPLACEN\tDETACH",
  c!"LEXENTRY:\tCORSIA\tCORSIA\tTYPE\tDET_PRE",
  c!"LEXENTRY:\tCORSO\tCORSO\tTYPE\tDET_PRE",
  c!"LEXENTRY:\tCORSO AL\tCORSO AL\tTYPE\tDET_PRE",
  c!"LEXENTRY:\tCORSO D'\tCORSO D'\tTYPE\tATT_PRE",
  c!"LEXENTRY:\tCORSO DEGLI\tCORSO DEGLI\tTYPE\tDET_PRE",
  c!"LEXENTRY:\tCORSO DEL\tCORSO DEL\tTYPE\tDET_PRE",
  c!"LEXENTRY:\tCORSO DELLA\tCORSO DELLA\tTYPE\tDET_PRE",
  c!"LEXENTRY:\tCORSO DI\tCORSO DI\tTYPE\tDET_PRE",
  c!"LEXENTRY:\tCORTE\tCORTE\tTYPE\tDET_PRE",
  c!"LEXENTRY:\tCORTE DEI\tCORTE DEI\tTYPE\tDET_PRE",
  c!"LEXENTRY:\tCORTICELLA\tCORTICELLA\tTYPE\tDET_PRE",
  c!"LEXENTRY:\tCORTILE\tCORTILE\tTYPE\tDET_PRE",
  c!"LEXENTRY:\tCOSENZA\tCS \tWORD,PROV\tDETACH",
  c!"LEXENTRY:\tCOSTA\tCOSTA\tTYPE\tDET_PRE",
  c!"LEXENTRY:\tCOSTA DEL\tCOSTA DEL\tTYPE\tDET_PRE",
  c!"LEXENTRY:\tCOSTA DELLE\tCOSTA DELLE\tTYPE\tDET_PRE",
  c!"LEXENTRY:\tCOSTA DI\tCOSTA DI\tTYPE\tDET_PRE",
  c!"LEXENTRY:\tCP\tCASELLA POSTALE\tBOXH\tDETACH",
  c!"LEXENTRY:\tCR\tCR\tPROV\tDETACH",
  c!"LEXENTRY:\tCREDITO\tCREDITO\tPLACEN\tDETACH",
  c!"LEXENTRY:\tCREMONA\tCR\tWORD,PROV\tDETACH",
  c!"LEXENTRY:\tCROSA\tCROSA\tTYPE\tDET_PRE",
  c!"LEXENTRY:\tCROSA DI\tCROSA DI\tTYPE\tDET_PRE",
  c!"LEXENTRY:\tCROSINO DELLO\tCROSINO DELLO\tTYPE\tDET_PRE",
  c!"LEXENTRY:\tCROSINO DI\tCROSINO DI\tTYPE\tDET_PRE",
  c!"LEXENTRY:\tCROTONE\tKR\tWORD,PROV\tDETACH",
  c!"LEXENTRY:\tCRÉMONE   \tCR\tWORD,PROV\tDETACH",
  c!"LEXENTRY:\tCS\tCS\tPROV\tDETACH",
  c!"LEXENTRY:\tCSO\tCORSO\tTYPE\tDET_PRE",
  c!"LEXENTRY:\tCT\tCT\tPROV\tDETACH",
  c!"LEXENTRY:\tCUNEO\tCN \tWORD,PROV\tDETACH",
  c!"LEXENTRY:\tCZ\tCZ\tPROV\tDETACH",
  c!"LEXENTRY:\tDAMM\tDAMM\tTYPE\tATT_SUF,DET_SUF",
  c!"LEXENTRY:\tDISCESA\tDISCESA\tTYPE\tDET_PRE",
  c!"LEXENTRY:\tDISCESA A\tDISCESA A\tTYPE\tDET_PRE",
  c!"LEXENTRY:\tDISTACCO DI PIAZZA\tDISTACCO DI PIAZZA\tTYPE\tDET_PRE",
  c!"LEXENTRY:\tEN\tEN\tPROV\tDETACH",
  c!"LEXENTRY:\tENNA\tEN \tWORD,PROV\tDETACH",
  c!"LEXENTRY:\tENTE\tENTE\tPLACEN\tDETACH",
  c!"LEXENTRY:\tFC\tFC\tPROV\tDETACH"]

/-- data/sample/italy.lex:202-251 -/
def entries4 : List Str := [
  c!"LEXENTRY:\tFE\tFE\tPROV\tDETACH",
  c!"LEXENTRY:\tFELD\tFELD\tTYPE\tATT_SUF,DET_SUF",
  c!"LEXENTRY:\tFERRARA\tFE\tWORD,PROV\tDETACH",
  c!"LEXENTRY:\tFERRARE \tFE\tWORD,PROV\tDETACH",
  c!"LEXENTRY:\tFG\tFG\tPROV\tDETACH",
  c!"LEXENTRY:\tFI\tFI\tPROV\tDETACH",
  c!"LEXENTRY:\tFIRENZE\tFI\tWORD,PROV\tDETACH",
  c!"LEXENTRY:\tFLORENCE\tFI\tWORD,PROV\tDETACH",
  c!"LEXENTRY:\tFLORENCIA\tFI\tWORD,PROV\tDETACH",
  c!"LEXENTRY:\tFLORENS\tFI\tWORD,PROV\tDETACH",
  c!"LEXENTRY:\tFLORENZ\tFI\tWORD,PROV\tDETACH",
  c!"LEXENTRY:\tFM\tFM\tPROV\tDETACH",
  c!"LEXENTRY:\tFOGGIA\tFG\tWORD,PROV\tDETACH",
  c!"LEXENTRY:\tFOND\tFONDAMENTA\tTYPE\tDET_PRE",
  c!"LEXENTRY:\tFOND.\tFONDAMENTA\tTYPE\tDET_PRE",
  c!"LEXENTRY:\tFONDACO\tFONDACO\tTYPE\tDET_PRE",
  c!"LEXENTRY:\tFONDAMENTA\tFONDAMENTA\tTYPE\tDET_PRE",
  c!"LEXENTRY:\tFORLÌ-CESENA \tFO\tWORD,PROV\tDETACH",
  c!"LEXENTRY:\tFORO\tFORO\tTYPE\tDET_PRE",
  c!"LEXENTRY:\tFOSSATO\tFOSSATO\tTYPE\tDET_PRE",
  c!"LEXENTRY:\tFOSSATO DI\tFOSSATO DI\tTYPE\tDET_PRE",
  c!"LEXENTRY:\tFR\tFR\tPROV\tDETACH",
  c!"LEXENTRY:\tFR. FR\tFRAZIONE\tTYPE\tDET_PRE",
  c!"LEXENTRY:\tFRAZ\tFRAZIONE\tTYPE\tDET_PRE",
  c!"LEXENTRY:\tFRAZ.\tFRAZIONE\tTYPE\tDET_PRE",
  c!"LEXENTRY:\tFRAZIONE\tFRAZIONE\tTYPE\tDET_PRE",
  c!"LEXENTRY:\tFROSINONE\tFR \tWORD,PROV\tDETACH",
  c!"LEXENTRY:\tG.\tGIOVANNI\tWORD\tDETACH",
  c!"LEXENTRY:\tGALLERIA\tGALLERIA\tTYPE\tDET_PRE",
  c!"LEXENTRY:\tGALLERIA DEGLI\tGALLERIA DEGLI\tTYPE\tDET_PRE",
  c!"LEXENTRY:\tGALLERIA DEI\tGALLERIA DEI\tTYPE\tDET_PRE",
  c!"LEXENTRY:\tGALLERIA DEL\tGALLERIA DEL\tTYPE\tDET_PRE",
  c!"LEXENTRY:\tGALLERIA DELLE\tGALLERIA DELLE\tTYPE\tDET_PRE",
  c!"LEXENTRY:\tGANG\tGANG\tTYPE\tATT_SUF",
  c!"LEXENTRY:\tGASSE\tGASSE\tTYPE\tATT_SUF,DET_SUF",
  c!"LEXENTRY:\tGE\tGE\tPROV\tDETACH",
  c!"LEXENTRY:\tGENOVA\tGE\tWORD,PROV\tDETACH",
  c!"LEXENTRY:\tGENUA\tGE\tWORD,PROV\tDETACH",
  c!"LEXENTRY:\tGIARDINI\tGIARDINI\tTYPE\tDET_PRE",
  c!"LEXENTRY:\tGIARDINO\tGIARDINO\tTYPE\tDET_PRE",
  c!"LEXENTRY:\tGIOVANNI\tGIOVANNI\tWORD\tDETACH",
  c!"LEXENTRY:\tGO\tGO\tPROV\tDETACH",
  c!"LEXENTRY:\tGORIZIA\tGO \tWORD,PROV\tDETACH",
  c!"LEXENTRY:\tGR\tGR\tPROV\tDETACH",
  c!"LEXENTRY:\tGRABEN\tGRABEN\tTYPE\tATT_SUF,DET_SUF",
  c!"LEXENTRY:\tGROSSETO\tGR\tWORD,PROV\tDETACH",
  c!"LEXENTRY:\tHAMEAU\tHAMEAU\tTYPE\tDET_PRE",
  c!"LEXENTRY:\tHAMEAU DE\tHAMEAU DE\tTYPE\tDET_PRE",
  c!"LEXENTRY:\tHAMEAU DE LA\tHAMEAU DE LA\tTYPE\tDET_PRE",
  c!"LEXENTRY:\tHAMEAU LA\tHAMEAU LA\tTYPE\tDET_PRE"]

/-- data/sample/italy.lex:252-301 -/
def entries5 : List Str := [
  c!"LEXENTRY:\tHOF\tHOF\tTYPE\tATT_SUF",
  c!"LEXENTRY:\tHÖHE\tHÖHE\tTYPE\tDET_SUF",
  c!"LEXENTRY:\tICDP\tICDP\tPLACEN\tDETACH",
  c!"LEXENTRY:\tIM\tIM\tPROV\tDETACH",
  c!"LEXENTRY:\tIMPASSE\tIMPASSE\tTYPE\tDET_PRE",
  c!"LEXENTRY:\tIMPASSE DES\tIMPASSE DES\tTYPE\tDET_PRE",
  c!"LEXENTRY:\tIMPERIA\tIM \tWORD,PROV\tDETACH",
  c!"LEXENTRY:\tINTERRATO\tINTERRATO\tTYPE\tDET_PRE",
  c!"LEXENTRY:\tINTERNO\tINTERNO\tUNITH\tDETACH",
  c!"LEXENTRY:\tPIANO\tPIANO\tUNITH\tDETACH",
  c!"LEXENTRY:\tIS\tIS\tPROV\tDETACH",
  c!"LEXENTRY:\tISERNIA\tIS \tWORD,PROV\tDETACH",
  c!"LEXENTRY:\tIT\tITALY\tNATION\tDETACH",
  c!"LEXENTRY:\tITA\tITALY\tNATION\tDETACH",
  c!"LEXENTRY:\tITALY\tITALY\tNATION\tDETACH",
  c!"LEXENTRY:\tKM\tKM\tRR\tDETACH",
  c!"LEXENTRY:\tKR\tKR\tPROV\tDETACH",
  c!"LEXENTRY:\tL'AQUILA\tAQ \tWORD,PROV\tDETACH",
  c!"LEXENTRY:\tL.\tLUDOVICO\tWORD\tDETACH",
  c!"LEXENTRY:\tLA SPEZIA\tSP \tWORD,PROV\tDETACH",
  c!"LEXENTRY:\tLANDSTRASSE\tLANDSTRASSE\tTYPE\tDET_SUF",
  c!"LEXENTRY:\tLARGO\tLARGO\tTYPE\tDET_PRE",
  c!"LEXENTRY:\tLARGO DEGLI\tLARGO DEGLI\tTYPE\tDET_PRE",
  c!"LEXENTRY:\tLARGO DEI\tLARGO DEI\tTYPE\tDET_PRE",
  c!"LEXENTRY:\tLARGO DEL\tLARGO DEL\tTYPE\tDET_PRE",
  c!"LEXENTRY:\tLARGO DELL'\tLARGO DELL'\tTYPE\tATT_PRE",
  c!"LEXENTRY:\tLARGO DELLA\tLARGO DELLA\tTYPE\tDET_PRE",
  c!"LEXENTRY:\tLARGO DELLE\tLARGO DELLE\tTYPE\tDET_PRE",
  c!"LEXENTRY:\tLARGO DI\tLARGO DI\tTYPE\tDET_PRE",
  c!"LEXENTRY:\tLATINA\tLT \tWORD,PROV\tDETACH",
  c!"LEXENTRY:\tLC\tLC\tPROV\tDETACH",
  c!"LEXENTRY:\tLE\tLE\tPROV\tDETACH",
  c!"LEXENTRY:\tLECCE\tLE \tWORD,PROV\tDETACH",
  c!"LEXENTRY:\tLECCO\tLC \tWORD,PROV\tDETACH",
  c!"LEXENTRY:\tLEGHORN\tLI\tWORD,PROV\tDETACH",
  c!"LEXENTRY:\tLGO\tLARGO\tTYPE\tDET_PRE",
  c!"LEXENTRY:\tLGO.\tLARGO\tTYPE\tDET_PRE",
  c!"LEXENTRY:\tLI\tLI\tPROV\tDETACH",
  c!"LEXENTRY:\tLIORNA\tLI\tWORD,PROV\tDETACH",
  c!"LEXENTRY:\tLISTA\tLISTA\tTYPE\tDET_PRE",
  c!"LEXENTRY:\tLIVORNO\tLI\tWORD,PROV\tDETACH",
  c!"LEXENTRY:\tLIVOURNE \tLI\tWORD,PROV\tDETACH",
  c!"LEXENTRY:\tLO\tLO\tPROV\tDETACH",
  c!"LEXENTRY:\tLOCALITÀ\tLOCALITÀ\tTYPE\tDET_PRE",
  c!"LEXENTRY:\tLODI\tLO \tWORD,PROV\tDETACH",
  c!"LEXENTRY:\tLT\tLT\tPROV\tDETACH",
  c!"LEXENTRY:\tLU\tLU\tPROV\tDETACH",
  c!"LEXENTRY:\tLUCA\tLU\tWORD,PROV\tDETACH",
  c!"LEXENTRY:\tLUCCA\tLU\tWORD,PROV\tDETACH",
  c!"LEXENTRY:\tLUCQUES \tLU\tWORD,PROV\tDETACH"]

/-- data/sample/italy.lex:302-351 -/
def entries6 : List Str := [
  c!"LEXENTRY:\tLUDOVICO\tLUDOVICO\tWORD\tDETACH",
  c!"LEXENTRY:\tLUNGADIGE\tLUNGADIGE\tTYPE\tDET_PRE",
  c!"LEXENTRY:\tLUNGARGINE\tLUNGARGINE\tTYPE\tDET_PRE",
  c!"LEXENTRY:\tLUNGARGINE DEL\tLUNGARGINE DEL\tTYPE\tDET_PRE",
  c!"LEXENTRY:\tLUNGARNO\tLUNGARNO\tTYPE\tDET_PRE",
  c!"LEXENTRY:\tLUNGARNO DEGLI\tLUNGARNO DEGLI\tTYPE\tDET_PRE",
  c!"LEXENTRY:\tLUNGARNO DEI\tLUNGARNO DEI\tTYPE\tDET_PRE",
  c!"LEXENTRY:\tLUNGARNO DEL\tLUNGARNO DEL\tTYPE\tDET_PRE",
  c!"LEXENTRY:\tLUNGARNO DELLA\tLUNGARNO DELLA\tTYPE\tDET_PRE",
  c!"LEXENTRY:\tLUNGARNO DELLE\tLUNGARNO DELLE\tTYPE\tDET_PRE",
  c!"LEXENTRY:\tLUNGARNO DI\tLUNGARNO DI\tTYPE\tDET_PRE",
  c!"LEXENTRY:\tLUNGO DORA\tLUNGO DORA\tTYPE\tDET_PRE",
  c!"LEXENTRY:\tLUNGO PO\tLUNGO PO\tTYPE\tDET_PRE",
  c!"LEXENTRY:\tLUNGO STURA\tLUNGO STURA\tTYPE\tDET_PRE",
  c!"LEXENTRY:\tLUNGO TORRENTE\tLUNGO TORRENTE\tTYPE\tDET_PRE",
  c!"LEXENTRY:\tLUNGOBISAGNO\tLUNGOBISAGNO\tTYPE\tDET_PRE",
  c!"LEXENTRY:\tLUNGOMARE\tLUNGOMARE\tTYPE\tDET_PRE",
  c!"LEXENTRY:\tLUNGOMARE DI\tLUNGOMARE DI\tTYPE\tDET_PRE",
  c!"LEXENTRY:\tLUNGOMONTE\tLUNGOMONTE\tTYPE\tDET_PRE",
  c!"LEXENTRY:\tLUNGOPARCO\tLUNGOPARCO\tTYPE\tDET_PRE",
  c!"LEXENTRY:\tLUNGOSTURA CORSO\tLUNGOSTURA CORSO\tTYPE\tDET_PRE",
  c!"LEXENTRY:\tLUNGOTEVERE\tLUNGOTEVERE\tTYPE\tDET_PRE",
  c!"LEXENTRY:\tLUNGOTEVERE DE'\tLUNGOTEVERE DE'\tTYPE\tDET_PRE",
  c!"LEXENTRY:\tLUNGOTEVERE DEGLI\tLUNGOTEVERE DEGLI\tTYPE\tDET_PRE",
  c!"LEXENTRY:\tLUNGOTEVERE DEI\tLUNGOTEVERE DEI\tTYPE\tDET_PRE",
  c!"LEXENTRY:\tLUNGOTEVERE DELL'\tLUNGOTEVERE DELL'\tTYPE\tATT_PRE",
  c!"LEXENTRY:\tLUNGOTEVERE DELLA\tLUNGOTEVERE DELLA\tTYPE\tDET_PRE",
  c!"LEXENTRY:\tLUNGOTEVERE DELLE\tLUNGOTEVERE DELLE\tTYPE\tDET_PRE",
  c!"LEXENTRY:\tLUNGOTEVERE DI\tLUNGOTEVERE DI\tTYPE\tDET_PRE",
  c!"LEXENTRY:\tLUNGOTEVERE IN\tLUNGOTEVERE IN\tTYPE\tDET_PRE",
  c!"LEXENTRY:\tMACERATA\tMC \tWORD,PROV\tDETACH",
  c!"LEXENTRY:\tMAILAND\tMI\tWORD,PROV\tDETACH",
  c!"LEXENTRY:\tMANTOUE\tMN\tWORD,PROV\tDETACH",
  c!"LEXENTRY:\tMANTOVA\tMN\tWORD,PROV\tDETACH",
  c!"LEXENTRY:\tMANTUA \tMN\tWORD,PROV\tDETACH",
  c!"LEXENTRY:\tMARKT\tMARKT\tTYPE\tATT_SUF",
  c!"LEXENTRY:\tMASSA-CARRARA\tMS\tWORD,PROV\tDETACH",
  c!"LEXENTRY:\tMASSA-CARRARE\tMS\tWORD,PROV\tDETACH",
  c!"LEXENTRY:\tMATERA\tMT \tWORD,PROV\tDETACH",
  c!"LEXENTRY:\tMB\tMB\tPROV\tDETACH",
  c!"LEXENTRY:\tMC\tMC\tPROV\tDETACH",
  c!"LEXENTRY:\tME\tME\tPROV\tDETACH",
  c!"LEXENTRY:\tMESSINA\tME \tWORD,PROV\tDETACH",
  c!"LEXENTRY:\tMI\tMI\tPROV\tDETACH",
  c!"LEXENTRY:\tMILAAN\tMI\tWORD,PROV\tDETACH",
  c!"LEXENTRY:\tMILAN\tMI\tWORD,PROV\tDETACH",
  c!"LEXENTRY:\tMILANO\tMI\tWORD,PROV\tDETACH",
  c!"LEXENTRY:\tMILÁN \tMI\tWORD,PROV\tDETACH",
  c!"LEXENTRY:\tMN\tMN\tPROV\tDETACH",
  c!"LEXENTRY:\tMO\tMO\tPROV\tDETACH"]

/-- data/sample/italy.lex:352-401 -/
def entries7 : List Str := [
  c!"LEXENTRY:\tMODENA\tMO\tWORD,PROV\tDETACH",
  c!"LEXENTRY:\tMODÈNE \tMO\tWORD,PROV\tDETACH",
  c!"LEXENTRY:\tMOLO\tMOLO\tTYPE\tDET_PRE",
  c!"LEXENTRY:\tMS\tMS\tPROV\tDETACH",
  c!"LEXENTRY:\tMT\tMT\tPROV\tDETACH",
  c!"LEXENTRY:\tMUNICIPALE\tMUNICIPALE\tPLACEN\tDETACH",
  c!"LEXENTRY:\tMUNICIPIO\tMUNICIPIO\tPLACEN\tDETACH",
  c!"LEXENTRY:\tMURA\tMURA\tTYPE\tDET_PRE",
  c!"LEXENTRY:\tMURA DEGLI\tMURA DEGLI\tTYPE\tDET_PRE",
  c!"LEXENTRY:\tMURA DEL\tMURA DEL\tTYPE\tDET_PRE",
  c!"LEXENTRY:\tMURA DELLA\tMURA DELLA\tTYPE\tDET_PRE",
  c!"LEXENTRY:\tMURA DELLE\tMURA DELLE\tTYPE\tDET_PRE",
  c!"LEXENTRY:\tMURA DELLO\tMURA DELLO\tTYPE\tDET_PRE",
  c!"LEXENTRY:\tMURA DI\tMURA DI\tTYPE\tDET_PRE",
  c!"LEXENTRY:\tMURALLA DEL\tMURALLA DEL\tTYPE\tDET_PRE",
  c!"LEXENTRY:\tNA\tNA\tPROV\tDETACH",
  c!"LEXENTRY:\tNAPELS\tNA\tWORD,PROV\tDETACH",
  c!"LEXENTRY:\tNAPLES\tNA\tWORD,PROV\tDETACH",
  c!"LEXENTRY:\tNAPOLI\tNA\tWORD,PROV\tDETACH",
  c!"LEXENTRY:\tNEAPEL\tNA\tWORD,PROV\tDETACH",
  c!"LEXENTRY:\tNO\tNO\tPROV\tDETACH",
  c!"LEXENTRY:\tNOVARA\tNO\tWORD,PROV\tDETACH",
  c!"LEXENTRY:\tNOVARE\tNO\tWORD,PROV\tDETACH",
  c!"LEXENTRY:\tNU\tNU\tPROV\tDETACH",
  c!"LEXENTRY:\tNUORO\tNU\tWORD,PROV\tDETACH",
  c!"LEXENTRY:\tNUOVA STRADA\tNUOVA STRADA\tTYPE\tDET_PRE",
  c!"LEXENTRY:\tNÁPOLES\tNA\tWORD,PROV\tDETACH",
  c!"LEXENTRY:\tOG\tOG\tPROV\tDETACH",
  c!"LEXENTRY:\tOR\tOR\tPROV\tDETACH",
  c!"LEXENTRY:\tORISTANO\tOR \tWORD,PROV\tDETACH",
  c!"LEXENTRY:\tOT\tOT\tPROV\tDETACH",
  c!"LEXENTRY:\tP.\tPIAZZA\tTYPE\tDET_PRE",
  c!"LEXENTRY:\tP.LE\tPIAZZALE\tTYPE\tDET_PRE",
  c!"LEXENTRY:\tP.ZA\tPIAZZA\tTYPE\tDET_PRE",
  c!"LEXENTRY:\tPA\tPA\tPROV\tDETACH",
  c!"LEXENTRY:\tPADOUE\tPD\tWORD,PROV\tDETACH",
  c!"LEXENTRY:\tPADOVA\tPD\tWORD,PROV\tDETACH",
  c!"LEXENTRY:\tPADUA\tPD\tWORD,PROV\tDETACH",
  c!"LEXENTRY:\tPALERMO\tPA \tWORD,PROV\tDETACH",
  c!"LEXENTRY:\tPARCO\tPARCO\tTYPE\tDET_PRE",
  c!"LEXENTRY:\tPARCO DELLE\tPARCO DELLE\tTYPE\tDET_PRE",
  c!"LEXENTRY:\tPARK\tPARK\tTYPE\tATT_SUF",
  c!"LEXENTRY:\tPARMA\tPR\tWORD,PROV\tDETACH",
  c!"LEXENTRY:\tPARME\tPR\tWORD,PROV\tDETACH",
  c!"LEXENTRY:\tPASSAGE\tPASSAGE\tTYPE\tDET_PRE",
  c!"LEXENTRY:\tPASSAGE DU\tPASSAGE DU\tTYPE\tDET_PRE",
  c!"LEXENTRY:\tPASSAGGIO\tPASSAGGIO\tTYPE\tDET_PRE",
  c!"LEXENTRY:\tPASSAGGIO DEGLI\tPASSAGGIO DEGLI\tTYPE\tDET_PRE",
  c!"LEXENTRY:\tPASSAGGIO PRIVATO\tPASSAGGIO PRIVATO\tTYPE\tDET_PRE",
  c!"LEXENTRY:\tPASSEGGIATA\tPASSEGGIATA\tTYPE\tDET_PRE"]

/-- data/sample/italy.lex:402-451 -/
def entries8 : List Str := [
  c!"LEXENTRY:\tPASSEGGIATA DEL\tPASSEGGIATA DEL\tTYPE\tDET_PRE",
  c!"LEXENTRY:\tPASSETTO\tPASSETTO\tTYPE\tDET_PRE",
  c!"LEXENTRY:\tPASSO\tPASSO\tTYPE\tDET_PRE",
  c!"LEXENTRY:\tPASSO A\tPASSO A\tTYPE\tDET_PRE",
  c!"LEXENTRY:\tPASSO AL\tPASSO AL\tTYPE\tDET_PRE",
  c!"LEXENTRY:\tPASSO DEI\tPASSO DEI\tTYPE\tDET_PRE",
  c!"LEXENTRY:\tPASSO DEL\tPASSO DEL\tTYPE\tDET_PRE",
  c!"LEXENTRY:\tPASSO DELL'\tPASSO DELL'\tTYPE\tATT_PRE",
  c!"LEXENTRY:\tPASSO DELLA\tPASSO DELLA\tTYPE\tDET_PRE",
  c!"LEXENTRY:\tPASSO DELLE\tPASSO DELLE\tTYPE\tDET_PRE",
  c!"LEXENTRY:\tPASSO DELLO\tPASSO DELLO\tTYPE\tDET_PRE",
  c!"LEXENTRY:\tPASSO DI\tPASSO DI\tTYPE\tDET_PRE",
  c!"LEXENTRY:\tPAVIA\tPV\tWORD,PROV\tDETACH",
  c!"LEXENTRY:\tPAVIE\tPV\tWORD,PROV\tDETACH",
  c!"LEXENTRY:\tPC\tPC\tPROV\tDETACH",
  c!"LEXENTRY:\tPD\tPD\tPROV\tDETACH",
  c!"LEXENTRY:\tPE\tPE\tPROV\tDETACH",
  c!"LEXENTRY:\tPERCORSO\tPERCORSO\tTYPE\tDET_PRE",
  c!"LEXENTRY:\tPERUGIA\tPG\tWORD,PROV\tDETACH",
  c!"LEXENTRY:\tPERUSA\tPG\tWORD,PROV\tDETACH",
  c!"LEXENTRY:\tPESARO E URBINO\tPS \tWORD,PROV\tDETACH",
  c!"LEXENTRY:\tPESCARA\tPE \tWORD,PROV\tDETACH",
  c!"LEXENTRY:\tPG\tPG\tPROV\tDETACH",
  c!"LEXENTRY:\tPI\tPI\tPROV\tDETACH",
  c!"LEXENTRY:\tPIACENZA\tPC \tWORD,PROV\tDETACH",
  c!"LEXENTRY:\tPIANO DI\tPIANO DI\tTYPE\tDET_PRE",
  c!"LEXENTRY:\tPIAZZA\tPIAZZA\tTYPE\tDET_PRE",
  c!"LEXENTRY:\tPIAZZA AI\tPIAZZA AI\tTYPE\tDET_PRE",
  c!"LEXENTRY:\tPIAZZA DE'\tPIAZZA DE'\tTYPE\tDET_PRE",
  c!"LEXENTRY:\tPIAZZA DEGLI\tPIAZZA DEGLI\tTYPE\tDET_PRE",
  c!"LEXENTRY:\tPIAZZA DEI\tPIAZZA DEI\tTYPE\tDET_PRE",
  c!"LEXENTRY:\tPIAZZA DEL\tPIAZZA DEL\tTYPE\tDET_PRE",
  c!"LEXENTRY:\tPIAZZA DELL'\tPIAZZA DELL'\tTYPE\tATT_PRE",
  c!"LEXENTRY:\tPIAZZA DELLA\tPIAZZA DELLA\tTYPE\tDET_PRE",
  c!"LEXENTRY:\tPIAZZA DELLE\tPIAZZA DELLE\tTYPE\tDET_PRE",
  c!"LEXENTRY:\tPIAZZA DELLO\tPIAZZA DELLO\tTYPE\tDET_PRE",
  c!"LEXENTRY:\tPIAZZA DI\tPIAZZA DI\tTYPE\tDET_PRE",
  c!"LEXENTRY:\tPIAZZA IN\tPIAZZA IN\tTYPE\tDET_PRE",
  c!"LEXENTRY:\tPIAZZA INFERIORE\tPIAZZA INFERIORE\tTYPE\tDET_PRE",
  c!"LEXENTRY:\tPIAZZA INFERIORE DI\tPIAZZA INFERIORE DI\tTYPE\tDET_PRE",
  c!"LEXENTRY:\tPIAZZA SUPERIORE\tPIAZZA SUPERIORE\tTYPE\tDET_PRE",
  c!"LEXENTRY:\tPIAZZA À\tPIAZZA À\tTYPE\tDET_PRE",
  c!"LEXENTRY:\tPIAZZALE\tPIAZZALE\tTYPE\tDET_PRE",
  c!"LEXENTRY:\tPIAZZALE AI\tPIAZZALE AI\tTYPE\tDET_PRE",
  c!"LEXENTRY:\tPIAZZALE DEGLI\tPIAZZALE DEGLI\tTYPE\tDET_PRE",
  c!"LEXENTRY:\tPIAZZALE DEI\tPIAZZALE DEI\tTYPE\tDET_PRE",
  c!"LEXENTRY:\tPIAZZALE DEL\tPIAZZALE DEL\tTYPE\tDET_PRE",
  c!"LEXENTRY:\tPIAZZALE DELL'\tPIAZZALE DELL'\tTYPE\tATT_PRE",
  c!"LEXENTRY:\tPIAZZALE DELLA\tPIAZZALE DELLA\tTYPE\tDET_PRE",
  c!"LEXENTRY:\tPIAZZALE DELLE\tPIAZZALE DELLE\tTYPE\tDET_PRE"]

/-- data/sample/italy.lex:452-501 -/
def entries9 : List Str := [
  c!"LEXENTRY:\tPIAZZALE DELLO\tPIAZZALE DELLO\tTYPE\tDET_PRE",
  c!"LEXENTRY:\tPIAZZALE DI\tPIAZZALE DI\tTYPE\tDET_PRE",
  c!"LEXENTRY:\tPIAZZETTA\tPIAZZETTA\tTYPE\tDET_PRE",
  c!"LEXENTRY:\tPIAZZETTA DEI\tPIAZZETTA DEI\tTYPE\tDET_PRE",
  c!"LEXENTRY:\tPIAZZETTA DEL\tPIAZZETTA DEL\tTYPE\tDET_PRE",
  c!"LEXENTRY:\tPIAZZETTA DELL'\tPIAZZETTA DELL'\tTYPE\tATT_PRE",
  c!"LEXENTRY:\tPIAZZETTA DELLA\tPIAZZETTA DELLA\tTYPE\tDET_PRE",
  c!"LEXENTRY:\tPIAZZETTA DI\tPIAZZETTA DI\tTYPE\tDET_PRE",
  c!"LEXENTRY:\tPIAZZETTA PRIVATA\tPIAZZETTA PRIVATA\tTYPE\tDET_PRE",
  c!"LEXENTRY:\tPISA\tPI\tWORD,PROV\tDETACH",
  c!"LEXENTRY:\tPISCINA\tPISCINA\tTYPE\tDET_PRE",
  c!"LEXENTRY:\tPISE\tPI\tWORD,PROV\tDETACH",
  c!"LEXENTRY:\tPISTOIA\tPT\tWORD,PROV\tDETACH",
  c!"LEXENTRY:\tPISTOYA \tPT\tWORD,PROV\tDETACH",
  c!"LEXENTRY:\tPLACE\tPLACE\tTYPE\tDET_PRE",
  c!"LEXENTRY:\tPLACE DE\tPLACE DE\tTYPE\tDET_PRE",
  c!"LEXENTRY:\tPLACE DE L'\tPLACE DE L'\tTYPE\tATT_PRE",
  c!"LEXENTRY:\tPLACE DE LA\tPLACE DE LA\tTYPE\tDET_PRE",
  c!"LEXENTRY:\tPLACE DES\tPLACE DES\tTYPE\tDET_PRE",
  c!"LEXENTRY:\tPLACE DU\tPLACE DU\tTYPE\tDET_PRE",
  c!"LEXENTRY:\tPLACETA DE\tPLACETA DE\tTYPE\tDET_PRE",
  c!"LEXENTRY:\tPLATZ\tPLATZ\tTYPE\tATT_PRE,ATT_SUF,DET_PRE,DET_SUF",
  c!"LEXENTRY:\tPLAÇA DE\tPLAÇA DE\tTYPE\tDET_PRE",
  c!"LEXENTRY:\tPLAÇA DEL\tPLAÇA DEL\tTYPE\tDET_PRE",
  c!"LEXENTRY:\tPN\tPN\tPROV\tDETACH",
  c!"LEXENTRY:\tPO\tPO\tPROV\tDETACH",
  c!"LEXENTRY:\tPOGGIO\tPOGGIO\tTYPE\tDET_PRE",
  c!"LEXENTRY:\tPOGGIO DELLA\tPOGGIO DELLA\tTYPE\tDET_PRE",
  c!"LEXENTRY:\tPOGGIO DI\tPOGGIO DI\tTYPE\tDET_PRE",
  c!"LEXENTRY:\tPONTE\tPONTE\tTYPE\tDET_PRE",
  c!"LEXENTRY:\tPONTE DEI\tPONTE DEI\tTYPE\tDET_PRE",
  c!"LEXENTRY:\tPONTE DEL\tPONTE DEL\tTYPE\tDET_PRE",
  c!"LEXENTRY:\tPONTE DELL'\tPONTE DELL'\tTYPE\tATT_PRE",
  c!"LEXENTRY:\tPONTE DELLA\tPONTE DELLA\tTYPE\tDET_PRE",
  c!"LEXENTRY:\tPONTE DI\tPONTE DI\tTYPE\tDET_PRE",
  c!"LEXENTRY:\tPONTE SUL\tPONTE SUL\tTYPE\tDET_PRE",
  c!"LEXENTRY:\tPORDENONE\tPN \tWORD,PROV\tDETACH",
  c!"LEXENTRY:\tPORTA\tPORTA\tTYPE\tDET_PRE",
  c!"LEXENTRY:\tPORTICHETTI\tPORTICHETTI\tTYPE\tDET_PRE",
  c!"LEXENTRY:\tPORTICI\tPORTICI\tTYPE\tDET_PRE",
  c!"LEXENTRY:\tPORTICO\tPORTICO\tTYPE\tDET_PRE",
  c!"LEXENTRY:\tPOTENZA\tPZ \tWORD,PROV\tDETACH",
  c!"LEXENTRY:\tPR\tPR\tPROV\tDETACH",
  c!"LEXENTRY:\tPRATO\tPO \tWORD,PROV\tDETACH",
  c!"LEXENTRY:\tPROMENADE\tPROMENADE\tTYPE\tATT_SUF,DET_SUF",
  c!"LEXENTRY:\tPT\tPT\tPROV\tDETACH",
  c!"LEXENTRY:\tPU\tPU\tPROV\tDETACH",
  c!"LEXENTRY:\tPV\tPV\tPROV\tDETACH",
  c!"LEXENTRY:\tPZ\tPZ\tPROV\tDETACH",
  c!"LEXENTRY:\tQUADRATO\tQUADRATO\tTYPE\tDET_PRE"]

/-- data/sample/italy.lex:502-551 -/
def entries10 : List Str := [
  c!"LEXENTRY:\tQUADRATO DELLA\tQUADRATO DELLA\tTYPE\tDET_PRE",
  c!"LEXENTRY:\tQUADRIVIO\tQUADRIVIO\tTYPE\tDET_PRE",
  c!"LEXENTRY:\tRA\tRA\tPROV\tDETACH",
  c!"LEXENTRY:\tRACCORDO\tRACCORDO\tTYPE\tDET_PRE",
  c!"LEXENTRY:\tRACCORDO AUTOSTRADALE\tRACCORDO AUTOSTRADALE\tTYPE\tDET_PRE",
  c!"LEXENTRY:\tRAGUSA\tRG \tWORD,PROV\tDETACH",
  c!"LEXENTRY:\tRAMO\tRAMO\tTYPE\tDET_PRE",
  c!"LEXENTRY:\tRAMPA\tRAMPA\tTYPE\tDET_PRE",
  c!"LEXENTRY:\tRAMPA DELLA\tRAMPA DELLA\tTYPE\tDET_PRE",
  c!"LEXENTRY:\tRAMPA DELLE\tRAMPA DELLE\tTYPE\tDET_PRE",
  c!"LEXENTRY:\tRAMPA DI\tRAMPA DI\tTYPE\tDET_PRE",
  c!"LEXENTRY:\tRAVENNA\tRA\tWORD,PROV\tDETACH",
  c!"LEXENTRY:\tRAVENNE  \tRA\tWORD,PROV\tDETACH",
  c!"LEXENTRY:\tRC\tRC\tPROV\tDETACH",
  c!"LEXENTRY:\tRE\tRE\tPROV\tDETACH",
  c!"LEXENTRY:\tREGGIO D'ÉMILIE\tRE\tWORD,PROV\tDETACH",
  c!"LEXENTRY:\tREGGIO DE CALABRE\tRC\tWORD,PROV\tDETACH",
  c!"LEXENTRY:\tREGGIO DI CALABRIA\tRC\tWORD,PROV\tDETACH",
  c!"LEXENTRY:\tREGGIO NELL'EMILIA\tRE\tWORD,PROV\tDETACH",
  c!"LEXENTRY:\tREGIONE\tREGIONE\tTYPE\tDET_PRE",
  c!"LEXENTRY:\tRG\tRG\tPROV\tDETACH",
  c!"LEXENTRY:\tRI\tRI\tPROV\tDETACH",
  c!"LEXENTRY:\tRIETI\tRI \tWORD,PROV\tDETACH",
  c!"LEXENTRY:\tRIMINI\tRN \tWORD,PROV\tDETACH",
  c!"LEXENTRY:\tRING\tRING\tTYPE\tATT_SUF",
  c!"LEXENTRY:\tRIO\tRIO\tTYPE\tDET_PRE",
  c!"LEXENTRY:\tRIO TERRÀ\tRIO TERRÀ\tTYPE\tDET_PRE",
  c!"LEXENTRY:\tRIPA\tRIPA\tTYPE\tDET_PRE",
  c!"LEXENTRY:\tRIPA DI\tRIPA DI\tTYPE\tDET_PRE",
  c!"LEXENTRY:\tRIVA\tRIVA\tTYPE\tDET_PRE",
  c!"LEXENTRY:\tRIVA DEL\tRIVA DEL\tTYPE\tDET_PRE",
  c!"LEXENTRY:\tRIVALE\tRIVALE\tTYPE\tDET_PRE",
  c!"LEXENTRY:\tRIVIERA\tRIVIERA\tTYPE\tDET_PRE",
  c!"LEXENTRY:\tRIVIERA DEI\tRIVIERA DEI\tTYPE\tDET_PRE",
  c!"LEXENTRY:\tRIVO\tRIVO\tTYPE\tDET_PRE",
  c!"LEXENTRY:\tRM\tRM\tPROV\tDETACH",
  c!"LEXENTRY:\tRN\tRN\tPROV\tDETACH",
  c!"LEXENTRY:\tRO\tRO\tPROV\tDETACH",
  c!"LEXENTRY:\tROM\tRM\tWORD,PROV\tDETACH",
  c!"LEXENTRY:\tROMA\tRM\tWORD,PROV\tDETACH",
  c!"LEXENTRY:\tROME\tRM\tWORD,PROV\tDETACH",
  c!"LEXENTRY:\tRONDÒ\tRONDÒ\tTYPE\tDET_PRE",
  c!"LEXENTRY:\tROTONDA\tROTONDA\tTYPE\tDET_PRE",
  c!"LEXENTRY:\tROUTE\tROUTE\tTYPE\tDET_PRE",
  c!"LEXENTRY:\tROUTE DE\tROUTE DE\tTYPE\tDET_PRE",
  c!"LEXENTRY:\tROUTE DE LA\tROUTE DE LA\tTYPE\tDET_PRE",
  c!"LEXENTRY:\tROUTE DES\tROUTE DES\tTYPE\tDET_PRE",
  c!"LEXENTRY:\tROUTE DU\tROUTE DU\tTYPE\tDET_PRE",
  c!"LEXENTRY:\tROVIGO\tRO \tWORD,PROV\tDETACH",
  c!"LEXENTRY:\tRUA\tRUA\tTYPE\tDET_PRE"]

/-- data/sample/italy.lex:552-601 -/
def entries11 : List Str := [
  c!"LEXENTRY:\tRUE\tRUE\tTYPE\tDET_PRE",
  c!"LEXENTRY:\tRUE D'\tRUE D'\tTYPE\tATT_PRE",
  c!"LEXENTRY:\tRUE DE\tRUE DE\tTYPE\tDET_PRE",
  c!"LEXENTRY:\tRUE DE L'\tRUE DE L'\tTYPE\tATT_PRE",
  c!"LEXENTRY:\tRUE DE LA\tRUE DE LA\tTYPE\tDET_PRE",
  c!"LEXENTRY:\tRUE DES\tRUE DES\tTYPE\tDET_PRE",
  c!"LEXENTRY:\tRUE DU\tRUE DU\tTYPE\tDET_PRE",
  c!"LEXENTRY:\tRUE L'\tRUE L'\tTYPE\tATT_PRE",
  c!"LEXENTRY:\tRUE LA\tRUE LA\tTYPE\tDET_PRE",
  c!"LEXENTRY:\tRUELLE\tRUELLE\tTYPE\tDET_PRE",
  c!"LEXENTRY:\tRUELLE DE\tRUELLE DE\tTYPE\tDET_PRE",
  c!"LEXENTRY:\tRUELLE DE L'\tRUELLE DE L'\tTYPE\tATT_PRE",
  c!"LEXENTRY:\tRUELLE DES\tRUELLE DES\tTYPE\tDET_PRE",
  c!"LEXENTRY:\tRUELLE DU\tRUELLE DU\tTYPE\tDET_PRE",
  c!"LEXENTRY:\tRUGA\tRUGA\tTYPE\tDET_PRE",
  c!"LEXENTRY:\tS.\tSAN\tWORD\tDETACH",
  c!"LEXENTRY:\tSA\tSA\tPLACEN\tDETACH",
  c!"LEXENTRY:\tSA\tSA\tPROV\tDETACH",
  c!"LEXENTRY:\tSALERNE\tSA\tWORD,PROV\tDETACH",
  c!"LEXENTRY:\tSALERNO\tSA\tWORD,PROV\tDETACH",
  c!"LEXENTRY:\tSALITA\tSALITA\tTYPE\tDET_PRE",
  c!"LEXENTRY:\tSALITA A\tSALITA A\tTYPE\tDET_PRE",
  c!"LEXENTRY:\tSALITA AI\tSALITA AI\tTYPE\tDET_PRE",
  c!"LEXENTRY:\tSALITA AL\tSALITA AL\tTYPE\tDET_PRE",
  c!"LEXENTRY:\tSALITA ALLA\tSALITA ALLA\tTYPE\tDET_PRE",
  c!"LEXENTRY:\tSALITA ALLE\tSALITA ALLE\tTYPE\tDET_PRE",
  c!"LEXENTRY:\tSALITA DEGLI\tSALITA DEGLI\tTYPE\tDET_PRE",
  c!"LEXENTRY:\tSALITA DEI\tSALITA DEI\tTYPE\tDET_PRE",
  c!"LEXENTRY:\tSALITA DEL\tSALITA DEL\tTYPE\tDET_PRE",
  c!"LEXENTRY:\tSALITA DELL'\tSALITA DELL'\tTYPE\tATT_PRE",
  c!"LEXENTRY:\tSALITA DELLA\tSALITA DELLA\tTYPE\tDET_PRE",
  c!"LEXENTRY:\tSALITA DELLE\tSALITA DELLE\tTYPE\tDET_PRE",
  c!"LEXENTRY:\tSALITA DI\tSALITA DI\tTYPE\tDET_PRE",
  c!"LEXENTRY:\tSALITA INFERIORE\tSALITA INFERIORE\tTYPE\tDET_PRE",
  c!"LEXENTRY:\tSALITA INFERIORE AL\tSALITA INFERIORE AL\tTYPE\tDET_PRE",
  c!"LEXENTRY:\tSALITA INFERIORE DI\tSALITA INFERIORE DI\tTYPE\tDET_PRE",
  c!"LEXENTRY:\tSALITA SUPERIORE\tSALITA SUPERIORE\tTYPE\tDET_PRE",
  c!"LEXENTRY:\tSALITA SUPERIORE AI\tSALITA SUPERIORE AI\tTYPE\tDET_PRE",
  c!"LEXENTRY:\tSALITA SUPERIORE DELLA\tSALITA SUPERIORE DELLA\tTYPE\tDET_PRE",
  c!"LEXENTRY:\tSALITA SUPERIORE DI\tSALITA SUPERIORE DI\tTYPE\tDET_PRE",
  c!"LEXENTRY:\tSALITA VECCHIA DI\tSALITA VECCHIA DI\tTYPE\tDET_PRE",
  c!"LEXENTRY:\tSAN\tSAN\tWORD\tDETACH",
  c!"LEXENTRY:\tSAPA\tSAPA\tPLACEN\tDETACH",
  c!"LEXENTRY:\tSAS\tSAS\tPLACEN\tDETACH",
  c!"LEXENTRY:\tSASSARI\tSS \tWORD,PROV\tDETACH",
  c!"LEXENTRY:\tSAVONA\tSV\tWORD,PROV\tDETACH",
  c!"LEXENTRY:\tSAVONE \tSV\tWORD,PROV\tDETACH",
  c!"LEXENTRY:\tSCALA\tSCALA\tTYPE\tDET_PRE",
  c!"LEXENTRY:\tSCALA DEI\tSCALA DEI\tTYPE\tDET_PRE",
  c!"LEXENTRY:\tSCALA DELL'\tSCALA DELL'\tTYPE\tATT_PRE"]

/-- data/sample/italy.lex:602-651 -/
def entries12 : List Str := [
  c!"LEXENTRY:\tSCALEA\tSCALEA\tTYPE\tDET_PRE",
  c!"LEXENTRY:\tSCALETTA\tSCALETTA\tTYPE\tDET_PRE",
  c!"LEXENTRY:\tSCALINATA\tSCALINATA\tTYPE\tDET_PRE",
  c!"LEXENTRY:\tSCALINATA A\tSCALINATA A\tTYPE\tDET_PRE",
  c!"LEXENTRY:\tSCALINATA A VIA\tSCALINATA A VIA\tTYPE\tDET_PRE",
  c!"LEXENTRY:\tSCALINATA CHIUSA\tSCALINATA CHIUSA\tTYPE\tDET_PRE",
  c!"LEXENTRY:\tSCALINATA DEI\tSCALINATA DEI\tTYPE\tDET_PRE",
  c!"LEXENTRY:\tSCALINATA DEL\tSCALINATA DEL\tTYPE\tDET_PRE",
  c!"LEXENTRY:\tSCALINATA DELL'\tSCALINATA DELL'\tTYPE\tATT_PRE",
  c!"LEXENTRY:\tSCALINATA DELLA\tSCALINATA DELLA\tTYPE\tDET_PRE",
  c!"LEXENTRY:\tSCALINATA DELLE\tSCALINATA DELLE\tTYPE\tDET_PRE",
  c!"LEXENTRY:\tSCALINATA DI\tSCALINATA DI\tTYPE\tDET_PRE",
  c!"LEXENTRY:\tSCALO\tSCALO\tTYPE\tDET_PRE",
  c!"LEXENTRY:\tSCALONE\tSCALONE\tTYPE\tDET_PRE",
  c!"LEXENTRY:\tSCALONE VOLTO\tSCALONE VOLTO\tTYPE\tDET_PRE",
  c!"LEXENTRY:\tSDRUCCIOLO DE'\tSDRUCCIOLO DE'\tTYPE\tDET_PRE",
  c!"LEXENTRY:\tSELCIATO\tSELCIATO\tTYPE\tDET_PRE",
  c!"LEXENTRY:\tSENA\tSI\tWORD,PROV\tDETACH",
  c!"LEXENTRY:\tSENTIERO\tSENTIERO\tTYPE\tDET_PRE",
  c!"LEXENTRY:\tSENTIERO DEL\tSENTIERO DEL\tTYPE\tDET_PRE",
  c!"LEXENTRY:\tSI\tSI\tPROV\tDETACH",
  c!"LEXENTRY:\tSIENA\tSI\tWORD,PROV\tDETACH",
  c!"LEXENTRY:\tSIENNE \tSI\tWORD,PROV\tDETACH",
  c!"LEXENTRY:\tSIRACUSA\tSR\tWORD,PROV\tDETACH",
  c!"LEXENTRY:\tSITO DEI\tSITO DEI\tTYPE\tDET_PRE",
  c!"LEXENTRY:\tSITO DELLA\tSITO DELLA\tTYPE\tDET_PRE",
  c!"LEXENTRY:\tSNC\tSNC\tPLACEN\tDETACH",
  c!"LEXENTRY:\tSO\tSO\tPROV\tDETACH",
  c!"LEXENTRY:\tSOCIETÀ\tSOCIETÀ\tPLACEN\tDETACH",
  c!"LEXENTRY:\tSONDRIO\tSO \tWORD,PROV\tDETACH",
  c!"LEXENTRY:\tSOTTOPASSAGGIO\tSOTTOPASSAGGIO\tTYPE\tDET_PRE",
  c!"LEXENTRY:\tSOTTOPORTICO\tSOTTOPORTICO\tTYPE\tDET_PRE",
  c!"LEXENTRY:\tSOTTOVIA\tSOTTOVIA\tTYPE\tDET_PRE",
  c!"LEXENTRY:\tSP\tSP\tPROV\tDETACH",
  c!"LEXENTRY:\tSPA\tSPA\tPLACEN\tDETACH",
  c!"LEXENTRY:\tSPALTO\tSPALTO\tTYPE\tDET_PRE",
  c!"LEXENTRY:\tSPIANATA DI\tSPIANATA DI\tTYPE\tDET_PRE",
  c!"LEXENTRY:\tSQUARE\tSQUARE\tTYPE\tDET_PRE",
  c!"LEXENTRY:\tSR\tSR\tPROV\tDETACH",
  c!"LEXENTRY:\tSRL\tSRL\tPLACEN\tDETACH",
  c!"LEXENTRY:\tSS\tSS\tPROV\tDETACH",
  c!"LEXENTRY:\tSS\tSUPERSTRADA\tTYPE\tDET_PRE",
  c!"LEXENTRY:\tSS.\tSUPERSTRADA\tTYPE\tDET_PRE",
  c!"LEXENTRY:\tSTAZIONE\tSTAZIONE\tPLACEN\tDETACH",
  c!"LEXENTRY:\tSTEG\tSTEG\tTYPE\tATT_SUF,DET_SUF",
  c!"LEXENTRY:\tSTEIG\tSTEIG\tTYPE\tATT_SUF",
  c!"LEXENTRY:\tSTEIN\tSTEIN\tTYPE\tATT_SUF",
  c!"LEXENTRY:\tSTRADA\tSTRADA\tTYPE\tDET_PRE",
  c!"LEXENTRY:\tSTRADA AI\tSTRADA AI\tTYPE\tDET_PRE",
  c!"LEXENTRY:\tSTRADA AL\tSTRADA AL\tTYPE\tDET_PRE"]

/-- data/sample/italy.lex:652-701 -/
def entries13 : List Str := [
  c!"LEXENTRY:\tSTRADA ALLA\tSTRADA ALLA\tTYPE\tDET_PRE",
  c!"LEXENTRY:\tSTRADA ALLE\tSTRADA ALLE\tTYPE\tDET_PRE",
  c!"LEXENTRY:\tSTRADA ALTA DI\tSTRADA ALTA DI\tTYPE\tDET_PRE",
  c!"LEXENTRY:\tSTRADA ANTICA\tSTRADA ANTICA\tTYPE\tDET_PRE",
  c!"LEXENTRY:\tSTRADA ANTICA DELLA\tSTRADA ANTICA DELLA\tTYPE\tDET_PRE",
  c!"LEXENTRY:\tSTRADA ANTICA DI\tSTRADA ANTICA DI\tTYPE\tDET_PRE",
  c!"LEXENTRY:\tSTRADA COMUNALE\tSTRADA COMUNALE\tTYPE\tDET_PRE",
  c!"LEXENTRY:\tSTRADA COMUNALE ALLA\tSTRADA COMUNALE ALLA\tTYPE\tDET_PRE",
  c!"LEXENTRY:\tSTRADA COMUNALE ANTICA DI\tSTRADA COMUNALE ANTICA DI\tTYPE\tDET_PRE",
  c!"LEXENTRY:\tSTRADA COMUNALE DA\tSTRADA COMUNALE DA\tTYPE\tDET_PRE",
  c!"LEXENTRY:\tSTRADA COMUNALE DEI\tSTRADA COMUNALE DEI\tTYPE\tDET_PRE",
  c!"LEXENTRY:\tSTRADA COMUNALE DEL\tSTRADA COMUNALE DEL\tTYPE\tDET_PRE",
  c!"LEXENTRY:\tSTRADA COMUNALE DELLA\tSTRADA COMUNALE DELLA\tTYPE\tDET_PRE",
  c!"LEXENTRY:\tSTRADA COMUNALE DELLE\tSTRADA COMUNALE DELLE\tTYPE\tDET_PRE",
  c!"LEXENTRY:\tSTRADA COMUNALE DI\tSTRADA COMUNALE DI\tTYPE\tDET_PRE",
  c!"LEXENTRY:\tSTRADA COMUNALE PER\tSTRADA COMUNALE PER\tTYPE\tDET_PRE",
  c!"LEXENTRY:\tSTRADA CONSORTILE\tSTRADA CONSORTILE\tTYPE\tDET_PRE",
  c!"LEXENTRY:\tSTRADA CONSORTILE ALLA\tSTRADA CONSORTILE ALLA\tTYPE\tDET_PRE",
  c!"LEXENTRY:\tSTRADA CONSORTILE DEI\tSTRADA CONSORTILE DEI\tTYPE\tDET_PRE",
  c!"LEXENTRY:\tSTRADA CONSORTILE DEL\tSTRADA CONSORTILE DEL\tTYPE\tDET_PRE",
  c!"LEXENTRY:\tSTRADA CONSORTILE DELLA\tSTRADA CONSORTILE DELLA\tTYPE\tDET_PRE",
  c!"LEXENTRY:\tSTRADA DA\tSTRADA DA\tTYPE\tDET_PRE",
  c!"LEXENTRY:\tSTRADA DAI\tSTRADA DAI\tTYPE\tDET_PRE",
  c!"LEXENTRY:\tSTRADA DAL\tSTRADA DAL\tTYPE\tDET_PRE",
  c!"LEXENTRY:\tSTRADA DEGLI\tSTRADA DEGLI\tTYPE\tDET_PRE",
  c!"LEXENTRY:\tSTRADA DEI\tSTRADA DEI\tTYPE\tDET_PRE",
  c!"LEXENTRY:\tSTRADA DEL\tSTRADA DEL\tTYPE\tDET_PRE",
  c!"LEXENTRY:\tSTRADA DELL'\tSTRADA DELL'\tTYPE\tATT_PRE",
  c!"LEXENTRY:\tSTRADA DELLA\tSTRADA DELLA\tTYPE\tDET_PRE",
  c!"LEXENTRY:\tSTRADA DELLE\tSTRADA DELLE\tTYPE\tDET_PRE",
  c!"LEXENTRY:\tSTRADA DI\tSTRADA DI\tTYPE\tDET_PRE",
  c!"LEXENTRY:\tSTRADA ESTERNA\tSTRADA ESTERNA\tTYPE\tDET_PRE",
  c!"LEXENTRY:\tSTRADA INTERPODERALE\tSTRADA INTERPODERALE\tTYPE\tDET_PRE",
  c!"LEXENTRY:\tSTRADA MILITARE\tSTRADA MILITARE\tTYPE\tDET_PRE",
  c!"LEXENTRY:\tSTRADA PER\tSTRADA PER\tTYPE\tDET_PRE",
  c!"LEXENTRY:\tSTRADA PODERALE\tSTRADA PODERALE\tTYPE\tDET_PRE",
  c!"LEXENTRY:\tSTRADA PRIVATA\tSTRADA PRIVATA\tTYPE\tDET_PRE",
  c!"LEXENTRY:\tSTRADA PROVINCIALE\tSTRADA PROVINCIALE\tTYPE\tDET_PRE",
  c!"LEXENTRY:\tSTRADA PROVINCIALE DEI\tSTRADA PROVINCIALE DEI\tTYPE\tDET_PRE",
  c!"LEXENTRY:\tSTRADA PROVINCIALE DEL\tSTRADA PROVINCIALE DEL\tTYPE\tDET_PRE",
  c!"LEXENTRY:\tSTRADA PROVINCIALE DELL'\tSTRADA PROVINCIALE DELL'\tTYPE\tATT_PRE",
  c!"LEXENTRY:\tSTRADA PROVINCIALE DELLA\tSTRADA PROVINCIALE DELLA\tTYPE\tDET_PRE",
  c!"LEXENTRY:\tSTRADA PROVINCIALE DELLE\tSTRADA PROVINCIALE DELLE\tTYPE\tDET_PRE",
  c!"LEXENTRY:\tSTRADA PROVINCIALE DI\tSTRADA PROVINCIALE DI\tTYPE\tDET_PRE",
  c!"LEXENTRY:\tSTRADA PROVINCIALE PER\tSTRADA PROVINCIALE PER\tTYPE\tDET_PRE",
  c!"LEXENTRY:\tSTRADA REGIONALE DELLA\tSTRADA REGIONALE DELLA\tTYPE\tDET_PRE",
  c!"LEXENTRY:\tSTRADA REGIONALE DI\tSTRADA REGIONALE DI\tTYPE\tDET_PRE",
  c!"LEXENTRY:\tSTRADA STATALE\tSTRADA STATALE\tTYPE\tDET_PRE",
  c!"LEXENTRY:\tSTRADA STATALE DEL\tSTRADA STATALE DEL\tTYPE\tDET_PRE",
  c!"LEXENTRY:\tSTRADA STATALE DELLA\tSTRADA STATALE DELLA\tTYPE\tDET_PRE"]

/-- data/sample/italy.lex:702-751 -/
def entries14 : List Str := [
  c!"LEXENTRY:\tSTRADA STATALE DELLE\tSTRADA STATALE DELLE\tTYPE\tDET_PRE",
  c!"LEXENTRY:\tSTRADA STATALE DI\tSTRADA STATALE DI\tTYPE\tDET_PRE",
  c!"LEXENTRY:\tSTRADA VICINALE\tSTRADA VICINALE\tTYPE\tDET_PRE",
  c!"LEXENTRY:\tSTRADA VICINALE DA\tSTRADA VICINALE DA\tTYPE\tDET_PRE",
  c!"LEXENTRY:\tSTRADA VICINALE DEI\tSTRADA VICINALE DEI\tTYPE\tDET_PRE",
  c!"LEXENTRY:\tSTRADA VICINALE DEL\tSTRADA VICINALE DEL\tTYPE\tDET_PRE",
  c!"LEXENTRY:\tSTRADA VICINALE DELLA\tSTRADA VICINALE DELLA\tTYPE\tDET_PRE",
  c!"LEXENTRY:\tSTRADA VICINALE DELLE\tSTRADA VICINALE DELLE\tTYPE\tDET_PRE",
  c!"LEXENTRY:\tSTRADA VICINALE DI\tSTRADA VICINALE DI\tTYPE\tDET_PRE",
  c!"LEXENTRY:\tSTRADALE\tSTRADALE\tTYPE\tDET_PRE",
  c!"LEXENTRY:\tSTRADELLA\tSTRADELLA\tTYPE\tDET_PRE",
  c!"LEXENTRY:\tSTRADELLA DELLE\tSTRADELLA DELLE\tTYPE\tDET_PRE",
  c!"LEXENTRY:\tSTRADONE\tSTRADONE\tTYPE\tDET_PRE",
  c!"LEXENTRY:\tSTRADONE DEI\tSTRADONE DEI\tTYPE\tDET_PRE",
  c!"LEXENTRY:\tSTRADONE DI\tSTRADONE DI\tTYPE\tDET_PRE",
  c!"LEXENTRY:\tSTRASSE\tSTRASSE\tTYPE\tATT_SUF,DET_PRE,DET_SUF",
  c!"LEXENTRY:\tSUPERSTRADA\tSUPERSTRADA\tTYPE\tDET_PRE",
  c!"LEXENTRY:\tSUPERSTRADA PER\tSUPERSTRADA PER\tTYPE\tDET_PRE",
  c!"LEXENTRY:\tSV\tSV\tPROV\tDETACH",
  c!"LEXENTRY:\tSVINCOLO\tSVINCOLO\tTYPE\tDET_PRE",
  c!"LEXENTRY:\tSYRACUSE\tSR\tWORD,PROV\tDETACH",
  c!"LEXENTRY:\tSYRAKUS\tSR\tWORD,PROV\tDETACH",
  c!"LEXENTRY:\tTA\tTA\tPROV\tDETACH",
  c!"LEXENTRY:\tTAL\tTAL\tTYPE\tATT_SUF",
  c!"LEXENTRY:\tTANGENZIALE\tTANGENZIALE\tTYPE\tDET_PRE",
  c!"LEXENTRY:\tTANGENZIALE DI\tTANGENZIALE DI\tTYPE\tDET_PRE",
  c!"LEXENTRY:\tTARANTO\tTA\tWORD,PROV\tDETACH",
  c!"LEXENTRY:\tTARENT\tTA\tWORD,PROV\tDETACH",
  c!"LEXENTRY:\tTARENTE\tTA\tWORD,PROV\tDETACH",
  c!"LEXENTRY:\tTARENTO\tTA\tWORD,PROV\tDETACH",
  c!"LEXENTRY:\tTE\tTE\tPROV\tDETACH",
  c!"LEXENTRY:\tTERAMO\tTE \tWORD,PROV\tDETACH",
  c!"LEXENTRY:\tTERNI\tTR \tWORD,PROV\tDETACH",
  c!"LEXENTRY:\tTN\tTN\tPROV\tDETACH",
  c!"LEXENTRY:\tTO\tTO\tPROV\tDETACH",
  c!"LEXENTRY:\tTORINO\tTO\tWORD,PROV\tDETACH",
  c!"LEXENTRY:\tTP\tTP\tPROV\tDETACH",
  c!"LEXENTRY:\tTR\tTR\tPROV\tDETACH",
  c!"LEXENTRY:\tTRAFORO\tTRAFORO\tTYPE\tDET_PRE",
  c!"LEXENTRY:\tTRAFORO DEL\tTRAFORO DEL\tTYPE\tDET_PRE",
  c!"LEXENTRY:\tTRAPANI\tTP \tWORD,PROV\tDETACH",
  c!"LEXENTRY:\tTRAVERSA\tTRAVERSA\tTYPE\tDET_PRE",
  c!"LEXENTRY:\tTRAVERSA ALLA\tTRAVERSA ALLA\tTYPE\tDET_PRE",
  c!"LEXENTRY:\tTRAVERSA DEGLI\tTRAVERSA DEGLI\tTYPE\tDET_PRE",
  c!"LEXENTRY:\tTRAVERSA DEI\tTRAVERSA DEI\tTYPE\tDET_PRE",
  c!"LEXENTRY:\tTRAVERSA DI\tTRAVERSA DI\tTYPE\tDET_PRE",
  c!"LEXENTRY:\tTRENTE\tTN\tWORD,PROV\tDETACH",
  c!"LEXENTRY:\tTRENTO\tTN\tWORD,PROV\tDETACH",
  c!"LEXENTRY:\tTREVISO\tTV\tWORD,PROV\tDETACH",
  c!"LEXENTRY:\tTRIENT \tTN\tWORD,PROV\tDETACH"]

/-- data/sample/italy.lex:752-801 -/
def entries15 : List Str := [
  c!"LEXENTRY:\tTRIEST\tTS\tWORD,PROV\tDETACH",
  c!"LEXENTRY:\tTRIESTE\tTS\tWORD,PROV\tDETACH",
  c!"LEXENTRY:\tTRIËST\tTS\tWORD,PROV\tDETACH",
  c!"LEXENTRY:\tTRÉVISE \tTV\tWORD,PROV\tDETACH",
  c!"LEXENTRY:\tTS\tTS\tPROV\tDETACH",
  c!"LEXENTRY:\tTUNNEL\tTUNNEL\tTYPE\tATT_SUF",
  c!"LEXENTRY:\tTURIJN\tTO\tWORD,PROV\tDETACH",
  c!"LEXENTRY:\tTURIN\tTO\tWORD,PROV\tDETACH",
  c!"LEXENTRY:\tTV\tTV\tPROV\tDETACH",
  c!"LEXENTRY:\tUD\tUD\tPROV\tDETACH",
  c!"LEXENTRY:\tUDINE\tUD \tWORD,PROV\tDETACH",
  c!"LEXENTRY:\tUFER\tUFER\tTYPE\tATT_SUF",
  c!"LEXENTRY:\tV\tVIA\tTYPE\tDET_PRE",
  c!"LEXENTRY:\tV A\tVIA A\tTYPE\tDET_PRE",
  c!"LEXENTRY:\tV AI\tVIA AI\tTYPE\tDET_PRE",
  c!"LEXENTRY:\tV AL\tVIA AL\tTYPE\tDET_PRE",
  c!"LEXENTRY:\tV ALLA\tVIA ALLA\tTYPE\tDET_PRE",
  c!"LEXENTRY:\tV ALLE\tVIA ALLE\tTYPE\tDET_PRE",
  c!"LEXENTRY:\tV DA\tVIA DA\tTYPE\tDET_PRE",
  c!"LEXENTRY:\tV DAI\tVIA DAI\tTYPE\tDET_PRE",
  c!"LEXENTRY:\tV DAL\tVIA DAL\tTYPE\tDET_PRE",
  c!"LEXENTRY:\tV DE'\tVIA DE'\tTYPE\tDET_PRE",
  c!"LEXENTRY:\tV DEI\tVIA DEI\tTYPE\tDET_PRE",
  c!"LEXENTRY:\tV DEL\tVIA DEL\tTYPE\tDET_PRE",
  c!"LEXENTRY:\tV DI\tVIA DI\tTYPE\tDET_PRE",
  c!"LEXENTRY:\tV FRA\tVIA FRA\tTYPE\tDET_PRE",
  c!"LEXENTRY:\tV IN\tVIA IN\tTYPE\tDET_PRE",
  c!"LEXENTRY:\tV PER\tVIA PER\tTYPE\tDET_PRE",
  c!"LEXENTRY:\tV.\tVIA\tTYPE\tDET_PRE",
  c!"LEXENTRY:\tV. A\tVIA A\tTYPE\tDET_PRE",
  c!"LEXENTRY:\tV. AI\tVIA AI\tTYPE\tDET_PRE",
  c!"LEXENTRY:\tV. AL\tVIA AL\tTYPE\tDET_PRE",
  c!"LEXENTRY:\tV. ALLA\tVIA ALLA\tTYPE\tDET_PRE",
  c!"LEXENTRY:\tV. ALLE\tVIA ALLE\tTYPE\tDET_PRE",
  c!"LEXENTRY:\tV. DA\tVIA DA\tTYPE\tDET_PRE",
  c!"LEXENTRY:\tV. DAI\tVIA DAI\tTYPE\tDET_PRE",
  c!"LEXENTRY:\tV. DAL\tVIA DAL\tTYPE\tDET_PRE",
  c!"LEXENTRY:\tV. DE'\tVIA DE'\tTYPE\tDET_PRE",
  c!"LEXENTRY:\tV. DEI\tVIA DEI\tTYPE\tDET_PRE",
  c!"LEXENTRY:\tV. DEL\tVIA DEL\tTYPE\tDET_PRE",
  c!"LEXENTRY:\tV. DI\tVIA DI\tTYPE\tDET_PRE",
  c!"LEXENTRY:\tV. FRA\tVIA FRA\tTYPE\tDET_PRE",
  c!"LEXENTRY:\tV. IN\tVIA IN\tTYPE\tDET_PRE",
  c!"LEXENTRY:\tV. PER\tVIA PER\tTYPE\tDET_PRE",
  c!"LEXENTRY:\tVA\tVA\tPROV\tDETACH",
  c!"LEXENTRY:\tVALLETTA\tVALLETTA\tTYPE\tDET_PRE",
  c!"LEXENTRY:\tVARCO\tVARCO\tTYPE\tDET_PRE",
  c!"LEXENTRY:\tVARESE\tVA \tWORD,PROV\tDETACH",
  c!"LEXENTRY:\tVB\tVB\tPROV\tDETACH",
  c!"LEXENTRY:\tVERBANO-CÚSIO-OSSOLA\tVB\tWORD,PROV\tDETACH"]

/-- data/sample/italy.lex:802-851 -/
def entries16 : List Str := [
  c!"LEXENTRY:\tVC\tVC\tPROV\tDETACH",
  c!"LEXENTRY:\tVE\tVE\tPROV\tDETACH",
  c!"LEXENTRY:\tVENECIA\tVE\tWORD,PROV\tDETACH",
  c!"LEXENTRY:\tVENEDIG\tVE\tWORD,PROV\tDETACH",
  c!"LEXENTRY:\tVENETIË\tVE\tWORD,PROV\tDETACH",
  c!"LEXENTRY:\tVENEZIA\tVE\tWORD,PROV\tDETACH",
  c!"LEXENTRY:\tVENICE\tVE\tWORD,PROV\tDETACH",
  c!"LEXENTRY:\tVENISE\tVE\tWORD,PROV\tDETACH",
  c!"LEXENTRY:\tVERBANO-CUSIO-OSSOLA\tVB\tWORD,PROV\tDETACH",
  c!"LEXENTRY:\tVERCEIL \tVC\tWORD,PROV\tDETACH",
  c!"LEXENTRY:\tVERCELLI\tVC\tWORD,PROV\tDETACH",
  c!"LEXENTRY:\tVERONA\tVR \tWORD,PROV\tDETACH",
  c!"LEXENTRY:\tVI\tVI\tPROV\tDETACH",
  c!"LEXENTRY:\tVIA\tVIA\tTYPE\tDET_PRE",
  c!"LEXENTRY:\tVIA A\tVIA A\tTYPE\tDET_PRE",
  c!"LEXENTRY:\tVIA A.\tVIA ALLE\tTYPE\tDET_PRE",
  c!"LEXENTRY:\tVIA AI\tVIA AI\tTYPE\tDET_PRE",
  c!"LEXENTRY:\tVIA AL\tVIA AL\tTYPE\tDET_PRE",
  c!"LEXENTRY:\tVIA ALL'\tVIA ALL'\tTYPE\tATT_PRE",
  c!"LEXENTRY:\tVIA ALLA\tVIA ALLA\tTYPE\tDET_PRE",
  c!"LEXENTRY:\tVIA ALLE\tVIA ALLE\tTYPE\tDET_PRE",
  c!"LEXENTRY:\tVIA ALLE VECCHIE\tVIA ALLE VECCHIE\tTYPE\tDET_PRE",
  c!"LEXENTRY:\tVIA ANTICA\tVIA ANTICA\tTYPE\tDET_PRE",
  c!"LEXENTRY:\tVIA D'\tVIA D'\tTYPE\tATT_PRE",
  c!"LEXENTRY:\tVIA DA\tVIA DA\tTYPE\tDET_PRE",
  c!"LEXENTRY:\tVIA DAI\tVIA DAI\tTYPE\tDET_PRE",
  c!"LEXENTRY:\tVIA DAL\tVIA DAL\tTYPE\tDET_PRE",
  c!"LEXENTRY:\tVIA DE'\tVIA DE'\tTYPE\tDET_PRE",
  c!"LEXENTRY:\tVIA DEGLI\tVIA DEGLI\tTYPE\tDET_PRE",
  c!"LEXENTRY:\tVIA DEI\tVIA DEI\tTYPE\tDET_PRE",
  c!"LEXENTRY:\tVIA DEL\tVIA DEL\tTYPE\tDET_PRE",
  c!"LEXENTRY:\tVIA DELL'\tVIA DELL'\tTYPE\tATT_PRE",
  c!"LEXENTRY:\tVIA DELLA\tVIA DELLA\tTYPE\tDET_PRE",
  c!"LEXENTRY:\tVIA DELLE\tVIA DELLE\tTYPE\tDET_PRE",
  c!"LEXENTRY:\tVIA DELLO\tVIA DELLO\tTYPE\tDET_PRE",
  c!"LEXENTRY:\tVIA DI\tVIA DI\tTYPE\tDET_PRE",
  c!"LEXENTRY:\tVIA DIETRO\tVIA DIETRO\tTYPE\tDET_PRE",
  c!"LEXENTRY:\tVIA FRA\tVIA FRA\tTYPE\tDET_PRE",
  c!"LEXENTRY:\tVIA IN\tVIA IN\tTYPE\tDET_PRE",
  c!"LEXENTRY:\tVIA INFERIORE\tVIA INFERIORE\tTYPE\tDET_PRE",
  c!"LEXENTRY:\tVIA INFERIORE DEI\tVIA INFERIORE DEI\tTYPE\tDET_PRE",
  c!"LEXENTRY:\tVIA INFERIORE DI\tVIA INFERIORE DI\tTYPE\tDET_PRE",
  c!"LEXENTRY:\tVIA INTERNA\tVIA INTERNA\tTYPE\tDET_PRE",
  c!"LEXENTRY:\tVIA MILITARE DI\tVIA MILITARE DI\tTYPE\tDET_PRE",
  c!"LEXENTRY:\tVIA MURA DI\tVIA MURA DI\tTYPE\tDET_PRE",
  c!"LEXENTRY:\tVIA PER\tVIA PER\tTYPE\tDET_PRE",
  c!"LEXENTRY:\tVIA PONTE\tVIA PONTE\tTYPE\tDET_PRE",
  c!"LEXENTRY:\tVIA PRIVATA\tVIA PRIVATA\tTYPE\tDET_PRE",
  c!"LEXENTRY:\tVIA PRIVATA DEGLI\tVIA PRIVATA DEGLI\tTYPE\tDET_PRE",
  c!"LEXENTRY:\tVIA PRIVATA DEI\tVIA PRIVATA DEI\tTYPE\tDET_PRE"]

/-- data/sample/italy.lex:852-901 -/
def entries17 : List Str := [
  c!"LEXENTRY:\tVIA PRIVATA DEL\tVIA PRIVATA DEL\tTYPE\tDET_PRE",
  c!"LEXENTRY:\tVIA PRIVATA DELL'\tVIA PRIVATA DELL'\tTYPE\tATT_PRE",
  c!"LEXENTRY:\tVIA PRIVATA DELLA\tVIA PRIVATA DELLA\tTYPE\tDET_PRE",
  c!"LEXENTRY:\tVIA PRIVATA DELLE\tVIA PRIVATA DELLE\tTYPE\tDET_PRE",
  c!"LEXENTRY:\tVIA PRIVATA DI\tVIA PRIVATA DI\tTYPE\tDET_PRE",
  c!"LEXENTRY:\tVIA PROVINCIALE\tVIA PROVINCIALE\tTYPE\tDET_PRE",
  c!"LEXENTRY:\tVIA SOTTO\tVIA SOTTO\tTYPE\tDET_PRE",
  c!"LEXENTRY:\tVIA SOTTO I\tVIA SOTTO I\tTYPE\tDET_PRE",
  c!"LEXENTRY:\tVIA SOTTO LE\tVIA SOTTO LE\tTYPE\tDET_PRE",
  c!"LEXENTRY:\tVIA SUPERIORE\tVIA SUPERIORE\tTYPE\tDET_PRE",
  c!"LEXENTRY:\tVIA SUPERIORE DEI\tVIA SUPERIORE DEI\tTYPE\tDET_PRE",
  c!"LEXENTRY:\tVIA SUPERIORE DEL\tVIA SUPERIORE DEL\tTYPE\tDET_PRE",
  c!"LEXENTRY:\tVIA SUPERIORE DELL'\tVIA SUPERIORE DELL'\tTYPE\tATT_PRE",
  c!"LEXENTRY:\tVIA SUPERIORE DELLE\tVIA SUPERIORE DELLE\tTYPE\tDET_PRE",
  c!"LEXENTRY:\tVIA VECCHIA DI\tVIA VECCHIA DI\tTYPE\tDET_PRE",
  c!"LEXENTRY:\tVIA VICINALE\tVIA VICINALE\tTYPE\tDET_PRE",
  c!"LEXENTRY:\tVIADOTTO\tVIADOTTO\tTYPE\tDET_PRE",
  c!"LEXENTRY:\tVIADOTTO DELLA\tVIADOTTO DELLA\tTYPE\tDET_PRE",
  c!"LEXENTRY:\tVIALE\tVIALE\tTYPE\tDET_PRE",
  c!"LEXENTRY:\tVIALE AI\tVIALE AI\tTYPE\tDET_PRE",
  c!"LEXENTRY:\tVIALE AL\tVIALE AL\tTYPE\tDET_PRE",
  c!"LEXENTRY:\tVIALE ALLA\tVIALE ALLA\tTYPE\tDET_PRE",
  c!"LEXENTRY:\tVIALE DEGLI\tVIALE DEGLI\tTYPE\tDET_PRE",
  c!"LEXENTRY:\tVIALE DEI\tVIALE DEI\tTYPE\tDET_PRE",
  c!"LEXENTRY:\tVIALE DEL\tVIALE DEL\tTYPE\tDET_PRE",
  c!"LEXENTRY:\tVIALE DELL'\tVIALE DELL'\tTYPE\tATT_PRE",
  c!"LEXENTRY:\tVIALE DELLA\tVIALE DELLA\tTYPE\tDET_PRE",
  c!"LEXENTRY:\tVIALE DELLE\tVIALE DELLE\tTYPE\tDET_PRE",
  c!"LEXENTRY:\tVIALE DELLO\tVIALE DELLO\tTYPE\tDET_PRE",
  c!"LEXENTRY:\tVIALE DI\tVIALE DI\tTYPE\tDET_PRE",
  c!"LEXENTRY:\tVIALETTO\tVIALETTO\tTYPE\tDET_PRE",
  c!"LEXENTRY:\tVIALETTO DEL\tVIALETTO DEL\tTYPE\tDET_PRE",
  c!"LEXENTRY:\tVIALETTO DELLA\tVIALETTO DELLA\tTYPE\tDET_PRE",
  c!"LEXENTRY:\tVIBO VALENTIA\tVV\tWORD,PROV\tDETACH",
  c!"LEXENTRY:\tVICENCE \tVI\tWORD,PROV\tDETACH",
  c!"LEXENTRY:\tVICENZA\tVI\tWORD,PROV\tDETACH",
  c!"LEXENTRY:\tVICO\tVICO\tTYPE\tDET_PRE",
  c!"LEXENTRY:\tVICO A\tVICO A\tTYPE\tDET_PRE",
  c!"LEXENTRY:\tVICO ALLA\tVICO ALLA\tTYPE\tDET_PRE",
  c!"LEXENTRY:\tVICO CHIUSO\tVICO CHIUSO\tTYPE\tDET_PRE",
  c!"LEXENTRY:\tVICO CHIUSO DEGLI\tVICO CHIUSO DEGLI\tTYPE\tDET_PRE",
  c!"LEXENTRY:\tVICO CHIUSO DEI\tVICO CHIUSO DEI\tTYPE\tDET_PRE",
  c!"LEXENTRY:\tVICO CHIUSO DEL\tVICO CHIUSO DEL\tTYPE\tDET_PRE",
  c!"LEXENTRY:\tVICO CHIUSO DELLA\tVICO CHIUSO DELLA\tTYPE\tDET_PRE",
  c!"LEXENTRY:\tVICO CHIUSO DELLO\tVICO CHIUSO DELLO\tTYPE\tDET_PRE",
  c!"LEXENTRY:\tVICO CIECO DIETRO\tVICO CIECO DIETRO\tTYPE\tDET_PRE",
  c!"LEXENTRY:\tVICO DE\tVICO DE\tTYPE\tDET_PRE",
  c!"LEXENTRY:\tVICO DEGLI\tVICO DEGLI\tTYPE\tDET_PRE",
  c!"LEXENTRY:\tVICO DEI\tVICO DEI\tTYPE\tDET_PRE",
  c!"LEXENTRY:\tVICO DEL\tVICO DEL\tTYPE\tDET_PRE"]

/-- data/sample/italy.lex:902-951 -/
def entries18 : List Str := [
  c!"LEXENTRY:\tVICO DELL'\tVICO DELL'\tTYPE\tATT_PRE",
  c!"LEXENTRY:\tVICO DELLA\tVICO DELLA\tTYPE\tDET_PRE",
  c!"LEXENTRY:\tVICO DELLE\tVICO DELLE\tTYPE\tDET_PRE",
  c!"LEXENTRY:\tVICO DI\tVICO DI\tTYPE\tDET_PRE",
  c!"LEXENTRY:\tVICO DIETRO\tVICO DIETRO\tTYPE\tDET_PRE",
  c!"LEXENTRY:\tVICO DIETRO IL\tVICO DIETRO IL\tTYPE\tDET_PRE",
  c!"LEXENTRY:\tVICO INFERIORE\tVICO INFERIORE\tTYPE\tDET_PRE",
  c!"LEXENTRY:\tVICO INFERIORE DEL\tVICO INFERIORE DEL\tTYPE\tDET_PRE",
  c!"LEXENTRY:\tVICO SECONDO\tVICO SECONDO\tTYPE\tDET_PRE",
  c!"LEXENTRY:\tVICO SECONDO DELLO\tVICO SECONDO DELLO\tTYPE\tDET_PRE",
  c!"LEXENTRY:\tVICO SUPERIORE\tVICO SUPERIORE\tTYPE\tDET_PRE",
  c!"LEXENTRY:\tVICO SUPERIORE DEL\tVICO SUPERIORE DEL\tTYPE\tDET_PRE",
  c!"LEXENTRY:\tVICO SUPERIORE DI\tVICO SUPERIORE DI\tTYPE\tDET_PRE",
  c!"LEXENTRY:\tVICOLETTO\tVICOLETTO\tTYPE\tDET_PRE",
  c!"LEXENTRY:\tVICOLETTO CIECO\tVICOLETTO CIECO\tTYPE\tDET_PRE",
  c!"LEXENTRY:\tVICOLETTO CIECO DIETRO\tVICOLETTO CIECO DIETRO\tTYPE\tDET_PRE",
  c!"LEXENTRY:\tVICOLETTO CORTICELLA\tVICOLETTO CORTICELLA\tTYPE\tDET_PRE",
  c!"LEXENTRY:\tVICOLO\tVICOLO\tTYPE\tDET_PRE",
  c!"LEXENTRY:\tVICOLO AL\tVICOLO AL\tTYPE\tDET_PRE",
  c!"LEXENTRY:\tVICOLO CIECO\tVICOLO CIECO\tTYPE\tDET_PRE",
  c!"LEXENTRY:\tVICOLO D'\tVICOLO D'\tTYPE\tATT_PRE",
  c!"LEXENTRY:\tVICOLO DE'\tVICOLO DE'\tTYPE\tDET_PRE",
  c!"LEXENTRY:\tVICOLO DEGLI\tVICOLO DEGLI\tTYPE\tDET_PRE",
  c!"LEXENTRY:\tVICOLO DEI\tVICOLO DEI\tTYPE\tDET_PRE",
  c!"LEXENTRY:\tVICOLO DEL\tVICOLO DEL\tTYPE\tDET_PRE",
  c!"LEXENTRY:\tVICOLO DELL'\tVICOLO DELL'\tTYPE\tATT_PRE",
  c!"LEXENTRY:\tVICOLO DELLA\tVICOLO DELLA\tTYPE\tDET_PRE",
  c!"LEXENTRY:\tVICOLO DELLE\tVICOLO DELLE\tTYPE\tDET_PRE",
  c!"LEXENTRY:\tVICOLO DELLO\tVICOLO DELLO\tTYPE\tDET_PRE",
  c!"LEXENTRY:\tVICOLO DI\tVICOLO DI\tTYPE\tDET_PRE",
  c!"LEXENTRY:\tVICOLO DIETRO\tVICOLO DIETRO\tTYPE\tDET_PRE",
  c!"LEXENTRY:\tVICOLO PER\tVICOLO PER\tTYPE\tDET_PRE",
  c!"LEXENTRY:\tVICOLO PRIVATO\tVICOLO PRIVATO\tTYPE\tDET_PRE",
  c!"LEXENTRY:\tVIE\tVIALE\tTYPE\tDET_PRE",
  c!"LEXENTRY:\tVIE.\tVIALE\tTYPE\tDET_PRE",
  c!"LEXENTRY:\tVILLAGGIO\tVILLAGGIO\tTYPE\tDET_PRE",
  c!"LEXENTRY:\tVIOTTOLA\tVIOTTOLA\tTYPE\tDET_PRE",
  c!"LEXENTRY:\tVIOTTOLO\tVIOTTOLO\tTYPE\tDET_PRE",
  c!"LEXENTRY:\tVITERBE\tVT\tWORD,PROV\tDETACH",
  c!"LEXENTRY:\tVITERBO\tVT\tWORD,PROV\tDETACH",
  c!"LEXENTRY:\tVIUZZO\tVIUZZO\tTYPE\tDET_PRE",
  c!"LEXENTRY:\tVIUZZO DE'\tVIUZZO DE'\tTYPE\tDET_PRE",
  c!"LEXENTRY:\tVIUZZO DEI\tVIUZZO DEI\tTYPE\tDET_PRE",
  c!"LEXENTRY:\tVIUZZO DEL\tVIUZZO DEL\tTYPE\tDET_PRE",
  c!"LEXENTRY:\tVIUZZO DELLA\tVIUZZO DELLA\tTYPE\tDET_PRE",
  c!"LEXENTRY:\tVIUZZO DELLE\tVIUZZO DELLE\tTYPE\tDET_PRE",
  c!"LEXENTRY:\tVIUZZO DI\tVIUZZO DI\tTYPE\tDET_PRE",
  c!"LEXENTRY:\tVL\tVIALE\tTYPE\tDET_PRE",
  c!"LEXENTRY:\tVL.\tVIALE\tTYPE\tDET_PRE",
  c!"LEXENTRY:\tVO'\tVO'\tTYPE\tDET_PRE"]

/-- data/sample/italy.lex:952-966 -/
def entries19 : List Str := [
  c!"LEXENTRY:\tVOCABOLO\tVOCABOLO\tTYPE\tDET_PRE",
  c!"LEXENTRY:\tVOLTA\tVOLTA\tTYPE\tDET_PRE",
  c!"LEXENTRY:\tVOLTA DE'\tVOLTA DE'\tTYPE\tDET_PRE",
  c!"LEXENTRY:\tVOLTA DEI\tVOLTA DEI\tTYPE\tDET_PRE",
  c!"LEXENTRY:\tVOLTA DELLA\tVOLTA DELLA\tTYPE\tDET_PRE",
  c!"LEXENTRY:\tVOLTA DI\tVOLTA DI\tTYPE\tDET_PRE",
  c!"LEXENTRY:\tVOLTO\tVOLTO\tTYPE\tDET_PRE",
  c!"LEXENTRY:\tVR\tVR\tPROV\tDETACH",
  c!"LEXENTRY:\tVS\tVS\tPROV\tDETACH",
  c!"LEXENTRY:\tVT\tVT\tPROV\tDETACH",
  c!"LEXENTRY:\tVV\tVV\tPROV\tDETACH",
  c!"LEXENTRY:\tVÉRONE\tVT\tWORD,PROV\tDETACH",
  c!"LEXENTRY:\tWEG\tWEG\tTYPE\tATT_SUF,DET_PRE,DET_SUF",
  c!"LEXENTRY:\tWIESE\tWIESE\tTYPE\tATT_SUF",
  c!"LEXENTRY:\tWINKEL\tWINKEL\tTYPE\tATT_SUF,DET_SUF"]

/-- The text, and what is claimed of it. -/
def lexicon : LexSample where
  header := c!"LEXICON:\tlex-italy.txt\tITA\tit_IT\t"
  body := entries0 ++ entries1 ++ entries2 ++ entries3 ++ entries4 ++ entries5 ++ entries6 ++ entries7 ++ entries8
     ++ entries9 ++ entries10 ++ entries11 ++ entries12 ++ entries13 ++ entries14 ++ entries15 ++ entries16
     ++ entries17 ++ entries18 ++ entries19
  lang := .ITA
  locale := c!"it_IT"
  classes := [
    .TYPE, .PROV, .WORD, .PLACEN, .BOXH, .UNITH, .NATION, .RR]

set_option maxRecDepth 1000000 in
theorem lexicon_checked : checkLex lexicon [0, 2, 3, 28, 119, 258, 262, 265] = true := by decide +kernel

/-- What of the grammar cannot match. -/
def pair : Pair where
  sample := sample
  lexicon := lexicon
  idle := [
    c!"CITY -> CITY -> 0.9",
    c!"BUILDT -> BLDNG -> 0.7",
    c!"BUILDT WORD -> BLDNG BLDNG -> 0.6",
    c!"BUILDT WORD WORD -> BLDNG BLDNG BLDNG -> 0.5",
    c!"BUILDT WORD WORD WORD -> BLDNG BLDNG BLDNG BLDNG -> 0.4"]
  null := [.building, .predir, .qual, .suftype, .sufdir, .ruralroute, .extra]

/-- What shows it. -/
def pairCert : PairCert where
  dead := [.BUILDT, .CITY]
  barren := []
  reach := [
    c!"ADDRESS", c!"micro", c!"macro", c!"streetname", c!"housenumber", c!"unit", c!"pobox", c!"postal",
    c!"citywords", c!"region", c!"country", c!"city"]

set_option maxRecDepth 100000 in
theorem pair_checked : checkPair pair pairCert = true := by decide +kernel

end AS.Sample.Italy
