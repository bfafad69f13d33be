import Verif.Lemmas.LexCheck
import Verif.Lemmas.PairCheck
import Verif.Sample.Netherlands
/-
The lexicon data/sample/netherlands.lex (all 262 lines), and what of netherlands.gmr cannot match with it. Written by
tools/lexicons.py.
-/
namespace AS.Sample.Netherlands

/-- data/sample/netherlands.lex:2-51 -/
def entries0 : List Str := [
  c!"LEXENTRY:\tARUBA\tABW\tNATION\tDETACH",
  c!"LEXENTRY:\tAMSTERDAM\tAMSTERDAM\tCITY\tDETACH",
  c!"LEXENTRY:\tTHE HAGUE\tTHE HAGUE\tCITY\tDETACH",
  c!"LEXENTRY:\tABW\tABW\tNATION\tDETACH",
  c!"LEXENTRY:\tCURAÇAO\tCUW\tNATION\tDETACH",
  c!"LEXENTRY:\tCUW\tCUW\tNATION\tDETACH",
  c!"LEXENTRY:\tBES\tBES\tNATION\tDETACH",
  c!"LEXENTRY:\tBONAIRE\tBES\tNATION\tDETACH",
  c!"LEXENTRY:\tSABA AND SAINT EUSTATIUS\tBES\tNATION\tDETACH",
  c!"LEXENTRY:\t(DR)\t(DR.)\tPROV\tDETACH",
  c!"LEXENTRY:\t(DR.)\t(DR.)\tPROV\tDETACH",
  c!"LEXENTRY:\t(FL.)\t(FL.)\tPROV\tDETACH",
  c!"LEXENTRY:\t(FL)\t(FL.)\tPROV\tDETACH",
  c!"LEXENTRY:\t(FR.)\t(FR.)\tPROV\tDETACH",
  c!"LEXENTRY:\t(FR)\t(FR.)\tPROV\tDETACH",
  c!"LEXENTRY:\t(GLD.)\t(GLD.)\tPROV\tDETACH",
  c!"LEXENTRY:\t(GLD)\t(GLD.)\tPROV\tDETACH",
  c!"LEXENTRY:\t(GR.)\t(GR.)\tPROV\tDETACH",
  c!"LEXENTRY:\t(GR)\t(GR.)\tPROV\tDETACH",
  c!"LEXENTRY:\t(LB)\t(LIM.)\tPROV\tDETACH",
  c!"LEXENTRY:\t(LB.)\t(LIM.)\tPROV\tDETACH",
  c!"LEXENTRY:\t(LIM.)\t(LIM.)\tPROV\tDETACH",
  c!"LEXENTRY:\t(LIM)\t(LIM.)\tPROV\tDETACH",
  c!"LEXENTRY:\t(N.BR.)\t(N.BR.)\tPROV\tDETACH",
  c!"LEXENTRY:\t(N.B.)\t(N.BR.)\tPROV\tDETACH",
  c!"LEXENTRY:\t(NB)\t(N.BR.)\tPROV\tDETACH",
  c!"LEXENTRY:\t(NBR)\t(N.BR.)\tPROV\tDETACH",
  c!"LEXENTRY:\t(N.H.)\t(N.H.)\tPROV\tDETACH",
  c!"LEXENTRY:\t(NH)\t(N.H.)\tPROV\tDETACH",
  c!"LEXENTRY:\t(OV.)\t(OV.)\tPROV\tDETACH",
  c!"LEXENTRY:\t(OV)\t(OV.)\tPROV\tDETACH",
  c!"LEXENTRY:\t(UTR.)\t(UTR.)\tPROV\tDETACH",
  c!"LEXENTRY:\t(UTR)\t(UTR.)\tPROV\tDETACH",
  c!"LEXENTRY:\t(Z.H.)\t(Z.H.)\tPROV\tDETACH",
  c!"LEXENTRY:\t(ZH)\t(Z.H.)\tPROV\tDETACH",
  c!"LEXENTRY:\t(ZLD.)\t(ZLD.)\tPROV\tDETACH",
  c!"LEXENTRY:\t(ZLD)\t(ZLD.)\tPROV\tDETACH",
  c!"LEXENTRY:\tAKKER\tAKKER\tTYPE\tATT_SUF,DET_SUF",
  c!"LEXENTRY:\tAKKERS\tAKKERS\tTYPE\tATT_SUF,DET_SUF",
  c!"LEXENTRY:\tALLÉE\tALLÉE\tTYPE\tATT_SUF,DET_SUF",
  c!"LEXENTRY:\tAV\tAVENUE\tTYPE\tDET_SUF",
  c!"LEXENTRY:\tAVE\tAVENUE\tTYPE\tDET_SUF",
  c!"LEXENTRY:\tAVENUE\tAVENUE\tTYPE\tDET_SUF",
  c!"LEXENTRY:\tBAAN\tBAAN\tTYPE\tATT_SUF,DET_SUF",
  c!"LEXENTRY:\tBAAN \tBAAN\tTYPE\tATT_SUF,DET_SUF",
  c!"LEXENTRY:\tBD\tBOULEVARD\tTYPE\tATT_SUF",
  c!"LEXENTRY:\tBD.\tBOULEVARD\tTYPE\tATT_SUF",
  c!"LEXENTRY:\tBEEMD\tBEEMD\tTYPE\tATT_SUF",
  c!"LEXENTRY:\tBERG\tBERG\tTYPE\tATT_SUF,DET_SUF",
  c!"LEXENTRY:\tBERGWEG\tBERGWEG\tTYPE\tATT_SUF,DET_SUF"]

/-- data/sample/netherlands.lex:52-101 -/
def entries1 : List Str := [
  c!"LEXENTRY:\tBG\tBERG\tTYPE\tATT_SUF,DET_SUF",
  c!"LEXENTRY:\tBLVD\tBOULEVARD\tTYPE\tATT_SUF",
  c!"LEXENTRY:\tBLVD.\tBOULEVARD\tTYPE\tATT_SUF",
  c!"LEXENTRY:\tBN\tBAAN\tTYPE\tATT_SUF,DET_SUF",
  c!"LEXENTRY:\tBORG\tBORG\tTYPE\tATT_SUF",
  c!"LEXENTRY:\tBORGH\tBORGH\tTYPE\tATT_SUF",
  c!"LEXENTRY:\tBOULEV\tBOULEVARD\tTYPE\tATT_SUF",
  c!"LEXENTRY:\tBOULEV.\tBOULEVARD\tTYPE\tATT_SUF",
  c!"LEXENTRY:\tBOULEVARD\tBOULEVARD\tTYPE\tATT_SUF",
  c!"LEXENTRY:\tBRINK\tBRINK\tTYPE\tATT_SUF,DET_SUF",
  c!"LEXENTRY:\tBRUG\tBRUG\tTYPE\tATT_SUF,DET_SUF",
  c!"LEXENTRY:\tBUITENLANDS\tBUITENLANDS\tPLACEN\tDETACH",
  c!"LEXENTRY:\tBURG\tBURG\tTYPE\tATT_SUF",
  c!"LEXENTRY:\tBURG\tBURGEMEESTER\tWORD\tDETACH",
  c!"LEXENTRY:\tBURGEMEESTER\tBURGEMEESTER\tWORD\tDETACH",
  c!"LEXENTRY:\tBURGWAL\tBURGWAL\tTYPE\tATT_SUF,DET_SUF",
  c!"LEXENTRY:\tBUURT\tBUURT\tTYPE\tATT_SUF",
  c!"LEXENTRY:\tBV\tBV\tPLACEN\tDETACH",
  c!"LEXENTRY:\tB.V.\tBV\tPLACEN\tDETACH",
  c!"LEXENTRY:\tBVBA\tBVBA\tPLACEN\tDETACH",
  c!"LEXENTRY:\tCB\tCB\tPLACEN\tDETACH",
  c!"LEXENTRY:\tCENTRUM\tCENTRUM\tTYPE\tATT_SUF,DET_SUF",
  c!"LEXENTRY:\tCOÖPERATIE\tCOÖPERATIE\tPLACEN\tDETACH",
  c!"LEXENTRY:\tCVA\tCVA\tPLACEN\tDETACH",
  c!"LEXENTRY:\tCVOA\tCVOA\tPLACEN\tDETACH",
  c!"LEXENTRY:\tD\tDE\tWORD\tDETACH",
  c!"LEXENTRY:\tDAL\tDAL\tTYPE\tATT_SUF,DET_SUF",
  c!"LEXENTRY:\tDAM\tDAM\tTYPE\tATT_SUF,DET_SUF",
  c!"LEXENTRY:\tDANS\tDANS\tTYPE\tATT_SUF",
  c!"LEXENTRY:\tDE\tDE\tWORD\tDETACH",
  c!"LEXENTRY:\tDIEP\tDIEP\tTYPE\tATT_SUF,DET_SUF",
  c!"LEXENTRY:\tDIJK\tDIJK\tTYPE\tATT_SUF,DET_SUF",
  c!"LEXENTRY:\tDK\tDIJK\tTYPE\tATT_SUF,DET_SUF",
  c!"LEXENTRY:\tDK.\tDIJK\tTYPE\tATT_SUF,DET_SUF",
  c!"LEXENTRY:\tDOK\tDOK\tTYPE\tATT_SUF,DET_SUF",
  c!"LEXENTRY:\tDONK\tDONK\tTYPE\tATT_SUF,DET_SUF",
  c!"LEXENTRY:\tDOORGANG\tDOORGANG\tTYPE\tATT_SUF",
  c!"LEXENTRY:\tDR\tDREEF\tTYPE\tATT_SUF,DET_SUF",
  c!"LEXENTRY:\tDR\t(DR.)\tPROV\tDETACH",
  c!"LEXENTRY:\tDR.\t(DR.)\tPROV\tDETACH",
  c!"LEXENTRY:\tDREEF\tDREEF\tTYPE\tATT_SUF,DET_SUF",
  c!"LEXENTRY:\tDRENTHE\t(DR.)\tPROV\tDETACH",
  c!"LEXENTRY:\tDWARSSTRAAT\tDWARSSTRAAT\tTYPE\tATT_SUF,DET_SUF",
  c!"LEXENTRY:\tDWARSWEG\tDWARSWEG\tTYPE\tATT_SUF,DET_SUF",
  c!"LEXENTRY:\tDWSTR\tDWARSSTRAAT\tTYPE\tATT_SUF,DET_SUF",
  c!"LEXENTRY:\tDWSTR.\tDWARSSTRAAT\tTYPE\tATT_SUF,DET_SUF",
  c!"LEXENTRY:\tDWWG\tDWARSWEG\tTYPE\tATT_SUF,DET_SUF",
  c!"LEXENTRY:\tDWWG.\tDWARSWEG\tTYPE\tATT_SUF,DET_SUF",
  c!"LEXENTRY:\tEENMANSZAAK\tEENMANSZAAK\tPLACEN\tDETACH",
  c!"LEXENTRY:\tEIND\tEIND\tTYPE\tATT_SUF,DET_SUF"]

/-- data/sample/netherlands.lex:102-151 -/
def entries2 : List Str := [
  c!"LEXENTRY:\tEINDE\tEINDE\tTYPE\tATT_SUF,DET_SUF",
  c!"LEXENTRY:\tERF\tERF\tTYPE\tATT_SUF,DET_SUF",
  c!"LEXENTRY:\tFILIAAL\tFILIAAL\tPLACEN\tDETACH",
  c!"LEXENTRY:\tFL\t(FL.)\tPROV\tDETACH",
  c!"LEXENTRY:\tFL.\t(FL.)\tPROV\tDETACH",
  c!"LEXENTRY:\tFLEVOLAND\t(FL.)\tPROV\tDETACH",
  c!"LEXENTRY:\tFR\t(FR.)\tPROV\tDETACH",
  c!"LEXENTRY:\tFR.\t(FR.)\tPROV\tDETACH",
  c!"LEXENTRY:\tFRIESLAND\t(FR.)\tPROV\tDETACH",
  c!"LEXENTRY:\tFRYSLÂN\t(FR.)\tPROV\tDETACH",
  c!"LEXENTRY:\tGAARD\tGAARD\tTYPE\tATT_SUF,DET_SUF",
  c!"LEXENTRY:\tGAARDE\tGAARDE\tTYPE\tATT_SUF",
  c!"LEXENTRY:\tGALERIJ\tGALERIJ\tTYPE\tATT_SUF",
  c!"LEXENTRY:\tGANG\tGANG\tTYPE\tATT_SUF",
  c!"LEXENTRY:\tGELDERLAND\t(GLD.)\tPROV\tDETACH",
  c!"LEXENTRY:\tGLD\t(GLD.)\tPROV\tDETACH",
  c!"LEXENTRY:\tGLD.\t(GLD.)\tPROV\tDETACH",
  c!"LEXENTRY:\tGR\tGRACHT\tTYPE\tATT_SUF,DET_SUF",
  c!"LEXENTRY:\tGR\t(GR.)\tPROV\tDETACH",
  c!"LEXENTRY:\tGR.\tGRACHT\tTYPE\tATT_SUF,DET_SUF",
  c!"LEXENTRY:\tGR.\t(GR.)\tPROV\tDETACH",
  c!"LEXENTRY:\tGRACHT\tGRACHT\tTYPE\tATT_SUF,DET_SUF",
  c!"LEXENTRY:\tGROEP\tGROEP\tPLACEN\tDETACH",
  c!"LEXENTRY:\tGRONINGEN\t(GR.)\tPROV\tDETACH",
  c!"LEXENTRY:\tHAAG\tHAAG\tTYPE\tATT_SUF,DET_SUF",
  c!"LEXENTRY:\tHAVEN\tHAVEN\tTYPE\tATT_SUF,DET_SUF",
  c!"LEXENTRY:\tHEI\tHEI\tTYPE\tATT_SUF,DET_SUF",
  c!"LEXENTRY:\tHEIDE\tHEIDE\tTYPE\tDET_SUF",
  c!"LEXENTRY:\tHELLING\tHELLING\tTYPE\tATT_SUF",
  c!"LEXENTRY:\tHEUVEL\tHEUVEL\tTYPE\tATT_SUF",
  c!"LEXENTRY:\tHOEK\tHOEK\tTYPE\tATT_SUF,DET_SUF",
  c!"LEXENTRY:\tHOF\tHOF\tTYPE\tATT_SUF,DET_SUF",
  c!"LEXENTRY:\tHOFJE\tHOFJE\tTYPE\tATT_SUF,DET_SUF",
  c!"LEXENTRY:\tHORST\tHORST\tTYPE\tATT_SUF,DET_SUF",
  c!"LEXENTRY:\tKAAI\tKAAI\tTYPE\tATT_SUF,DET_SUF",
  c!"LEXENTRY:\tKADE\tKADE\tTYPE\tATT_SUF,DET_SUF",
  c!"LEXENTRY:\tKAN\tKANAAL\tTYPE\tATT_SUF,DET_SUF",
  c!"LEXENTRY:\tKAN.\tKANAAL\tTYPE\tATT_SUF,DET_SUF",
  c!"LEXENTRY:\tKANAAL\tKANAAL\tTYPE\tATT_SUF,DET_SUF",
  c!"LEXENTRY:\tKD\tKADE\tTYPE\tATT_SUF,DET_SUF",
  c!"LEXENTRY:\tKD.\tKADE\tTYPE\tATT_SUF,DET_SUF",
  c!"LEXENTRY:\tLAAN\tLAAN\tTYPE\tATT_PRE,ATT_SUF,DET_PRE,DET_SUF",
  c!"LEXENTRY:\tLAAN NAAR\tLAAN NAAR\tTYPE\tDET_PRE",
  c!"LEXENTRY:\tLAAN OP\tLAAN OP\tTYPE\tDET_PRE",
  c!"LEXENTRY:\tLAAN VAN\tLAAN VAN\tTYPE\tDET_PRE",
  c!"LEXENTRY:\tLAANTJE\tLAANTJE\tTYPE\tATT_SUF,DET_SUF",
  c!"LEXENTRY:\tLB\t(LIM.)\tPROV\tDETACH",
  c!"LEXENTRY:\tLB.\t(LIM.)\tPROV\tDETACH",
  c!"LEXENTRY:\tLEI\tLEI\tTYPE\tATT_SUF,DET_SUF",
  c!"LEXENTRY:\tLIM\t(LIM.)\tPROV\tDETACH"]

/-- data/sample/netherlands.lex:152-201 -/
def entries3 : List Str := [
  c!"LEXENTRY:\tLIM.\t(LIM.)\tPROV\tDETACH",
  c!"LEXENTRY:\tLIMBURG\t(LIM.)\tPROV\tDETACH",
  c!"LEXENTRY:\tLN\tLAAN\tTYPE\tATT_PRE,ATT_SUF,DET_PRE,DET_SUF",
  c!"LEXENTRY:\tLN.\tLAAN\tTYPE\tATT_PRE,ATT_SUF,DET_PRE,DET_SUF",
  c!"LEXENTRY:\tLO\tLO\tTYPE\tATT_SUF",
  c!"LEXENTRY:\tLOOP\tLOOP\tTYPE\tATT_SUF",
  c!"LEXENTRY:\tMAATSCHAPPIJ\tMAATSCHAPPIJ\tPLACEN\tDETACH",
  c!"LEXENTRY:\tMARKT\tMARKT\tTYPE\tATT_SUF,DET_SUF",
  c!"LEXENTRY:\tMIJ\tMIJ\tPLACEN\tDETACH",
  c!"LEXENTRY:\tMKT\tMARKT\tTYPE\tATT_SUF,DET_SUF",
  c!"LEXENTRY:\tMKT.\tMARKT\tTYPE\tATT_SUF",
  c!"LEXENTRY:\tMOLEN\tMOLEN\tTYPE\tATT_SUF,DET_SUF",
  c!"LEXENTRY:\tN.B.\t(N.BR.)\tPROV\tDETACH",
  c!"LEXENTRY:\tN.BR.\t(N.BR.)\tPROV\tDETACH",
  c!"LEXENTRY:\tNB\t(N.BR.)\tPROV\tDETACH",
  c!"LEXENTRY:\tNBR\t(N.BR.)\tPROV\tDETACH",
  c!"LEXENTRY:\tNETHERLANDS\tNETHERLANDS\tNATION\tDETACH",
  c!"LEXENTRY:\tNH\t(N.H.)\tPROV\tDETACH",
  c!"LEXENTRY:\tNH.\t(N.H.)\tPROV\tDETACH",
  c!"LEXENTRY:\tNL\tNETHERLANDS\tNATION\tDETACH",
  c!"LEXENTRY:\tNLD\tNETHERLANDS\tNATION\tDETACH",
  c!"LEXENTRY:\tNOORD BRABANT\t(N.BR.)\tPROV\tDETACH",
  c!"LEXENTRY:\tNOORD HOLLAND\t(N.H.)\tPROV\tDETACH",
  c!"LEXENTRY:\tNV\tNV\tPLACEN\tDETACH",
  c!"LEXENTRY:\tOORD\tOORD\tTYPE\tATT_SUF,DET_SUF",
  c!"LEXENTRY:\tOV\t(OV.)\tPROV\tDETACH",
  c!"LEXENTRY:\tOV.\t(OV.)\tPROV\tDETACH",
  c!"LEXENTRY:\tOVERIJSSEL\t(OV.)\tPROV\tDETACH",
  c!"LEXENTRY:\tP.O. BOX\tPOSTBUS\tBOXH\tDETACH",
  c!"LEXENTRY:\tPAD\tPAD\tTYPE\tATT_SUF,DET_SUF",
  c!"LEXENTRY:\tPARK\tPARK\tTYPE\tATT_PRE,ATT_SUF,DET_PRE,DET_SUF",
  c!"LEXENTRY:\tPB\tPOSTBUS\tBOXH\tDETACH",
  c!"LEXENTRY:\tPB.\tPOSTBUS\tBOXH\tDETACH",
  c!"LEXENTRY:\tPK\tPARK\tTYPE\tATT_PRE,ATT_SUF,DET_PRE,DET_SUF",
  c!"LEXENTRY:\tPK.\tPARK\tTYPE\tATT_PRE,ATT_SUF,DET_PRE,DET_SUF",
  c!"LEXENTRY:\tPL\tPLEIN\tTYPE\tATT_PRE,ATT_SUF,DET_PRE,DET_SUF",
  c!"LEXENTRY:\tPL.\tPLEIN\tTYPE\tATT_PRE,ATT_SUF,DET_PRE,DET_SUF",
  c!"LEXENTRY:\tPLAATS\tPLAATS\tTYPE\tATT_SUF,DET_SUF",
  c!"LEXENTRY:\tPLANTSOEN\tPLANTSOEN\tTYPE\tATT_SUF,DET_SUF",
  c!"LEXENTRY:\tPLATZ\tPLEIN\tTYPE\tATT_PRE,ATT_SUF,DET_PRE,DET_SUF",
  c!"LEXENTRY:\tPLEIN\tPLEIN\tTYPE\tATT_PRE,ATT_SUF,DET_PRE,DET_SUF",
  c!"LEXENTRY:\tPLNTS\tPLANTSOEN\tTYPE\tATT_SUF,DET_SUF",
  c!"LEXENTRY:\tPLNTS.\tPLANTSOEN\tTYPE\tATT_SUF,DET_SUF",
  c!"LEXENTRY:\tPO BOX\tPOSTBUS\tBOXH\tDETACH",
  c!"LEXENTRY:\tPOORT\tPOORT\tTYPE\tATT_SUF,DET_SUF",
  c!"LEXENTRY:\tPOSTAPART\tPOSTBUS\tBOXH\tDETACH",
  c!"LEXENTRY:\tPOSTBUS\tPOSTBUS\tBOXH\tDETACH",
  c!"LEXENTRY:\tPROMENADE\tPROMENADE\tTYPE\tATT_SUF",
  c!"LEXENTRY:\tREI\tREI\tTYPE\tATT_SUF",
  c!"LEXENTRY:\tRUI\tRUI\tTYPE\tATT_SUF,DET_SUF"]

/-- data/sample/netherlands.lex:202-251 -/
def entries4 : List Str := [
  c!"LEXENTRY:\tSCHANS\tSCHANS\tTYPE\tATT_SUF,DET_SUF",
  c!"LEXENTRY:\tSINGEL\tSINGEL\tTYPE\tATT_SUF,DET_SUF",
  c!"LEXENTRY:\tSLUIS\tSLUIS\tTYPE\tATT_SUF,DET_SUF",
  c!"LEXENTRY:\tSNGL\tSINGEL\tTYPE\tATT_SUF,DET_SUF",
  c!"LEXENTRY:\tSNGL.\tSINGEL\tTYPE\tATT_SUF,DET_SUF",
  c!"LEXENTRY:\tSPOOR\tSPOOR\tTYPE\tATT_SUF,DET_SUF",
  c!"LEXENTRY:\tSPRONG\tSPRONG\tTYPE\tATT_SUF",
  c!"LEXENTRY:\tSQ\tSQ\tTYPE\tATT_SUF,DET_SUF",
  c!"LEXENTRY:\tSQ.\tSQ\tTYPE\tATT_SUF",
  c!"LEXENTRY:\tSQUARE\tSQ\tTYPE\tATT_SUF,DET_SUF",
  c!"LEXENTRY:\tSTEDE\tSTEDE\tTYPE\tATT_SUF,DET_SUF",
  c!"LEXENTRY:\tSTEEG\tSTEEG\tTYPE\tATT_SUF,DET_SUF",
  c!"LEXENTRY:\tSTEEGJE\tSTEEGJE\tTYPE\tATT_SUF,DET_SUF",
  c!"LEXENTRY:\tSTEEN\tSTEEN\tTYPE\tATT_SUF",
  c!"LEXENTRY:\tSTEENWEG\tSTEENWEG\tTYPE\tATT_SUF",
  c!"LEXENTRY:\tSTEENWEG\tSWG\tTYPE\tATT_SUF,DET_SUF",
  c!"LEXENTRY:\tSTEIN\tSTEIN\tTYPE\tATT_SUF",
  c!"LEXENTRY:\tSTICHTING\tSTICHTING\tPLACEN\tDETACH",
  c!"LEXENTRY:\tSTR\tSTRAAT\tTYPE\tATT_SUF,DET_SUF",
  c!"LEXENTRY:\tSTR.\tSTRAAT\tTYPE\tATT_SUF",
  c!"LEXENTRY:\tSTRAAT\tSTRAAT\tTYPE\tATT_SUF,DET_SUF",
  c!"LEXENTRY:\tSTRAAT VAN\tSTRAAT VAN\tTYPE\tDET_PRE",
  c!"LEXENTRY:\tSTRAATJE\tSTRAATJE\tTYPE\tATT_SUF,DET_SUF",
  c!"LEXENTRY:\tSTRAATWEG\tSTRAATWEG\tTYPE\tATT_SUF,DET_SUF",
  c!"LEXENTRY:\tSTRWG\tSTRAATWEG\tTYPE\tATT_SUF,DET_SUF",
  c!"LEXENTRY:\tSTRWG.\tSTRAATWEG\tTYPE\tATT_SUF,DET_SUF",
  c!"LEXENTRY:\tSTWG\tSWG\tTYPE\tATT_SUF,DET_SUF",
  c!"LEXENTRY:\tSWG\tSWG\tTYPE\tATT_SUF,DET_SUF",
  c!"LEXENTRY:\tSWG.\tSWG\tTYPE\tATT_SUF",
  c!"LEXENTRY:\tTUIN\tTUIN\tTYPE\tATT_SUF,DET_SUF",
  c!"LEXENTRY:\tTUNNEL\tTUNNEL\tTYPE\tATT_SUF,DET_SUF",
  c!"LEXENTRY:\tUTR\t(UTR.)\tPROV\tDETACH",
  c!"LEXENTRY:\tUTR.\t(UTR.)\tPROV\tDETACH",
  c!"LEXENTRY:\tUTRECHT\t(UTR.)\tPROV\tDETACH",
  c!"LEXENTRY:\tV\tVAN\tWORD\tDETACH",
  c!"LEXENTRY:\tVAART\tVAART\tTYPE\tATT_SUF,DET_SUF",
  c!"LEXENTRY:\tVAN\tVAN\tWORD\tDETACH",
  c!"LEXENTRY:\tVEER\tVEER\tTYPE\tATT_SUF,DET_SUF",
  c!"LEXENTRY:\tVELD\tVELD\tTYPE\tATT_SUF,DET_SUF",
  c!"LEXENTRY:\tVEN\tVEN\tTYPE\tATT_SUF",
  c!"LEXENTRY:\tVEN \tVEN\tTYPE\tATT_SUF",
  c!"LEXENTRY:\tVENNOOTSCHAP\tVENNOOTSCHAP\tPLACEN\tDETACH",
  c!"LEXENTRY:\tVERENIGING\tVERENIGING\tPLACEN\tDETACH",
  c!"LEXENTRY:\tVEST\tVEST\tTYPE\tATT_SUF,DET_SUF",
  c!"LEXENTRY:\tVLIET\tVLIET\tTYPE\tATT_SUF,DET_SUF",
  c!"LEXENTRY:\tVOF\tVOF\tPLACEN\tDETACH",
  c!"LEXENTRY:\tWAL\tWAL\tTYPE\tATT_SUF,DET_SUF",
  c!"LEXENTRY:\tWARANDE\tWARANDE\tTYPE\tATT_SUF",
  c!"LEXENTRY:\tWEG\tWEG\tTYPE\tATT_PRE,ATT_SUF,DET_PRE,DET_SUF",
  c!"LEXENTRY:\tWEGEL\tWEGEL\tTYPE\tATT_SUF"]

/-- data/sample/netherlands.lex:252-262 -/
def entries5 : List Str := [
  c!"LEXENTRY:\tWERF\tWERF\tTYPE\tATT_SUF,DET_SUF",
  c!"LEXENTRY:\tWG\tWEG\tTYPE\tATT_PRE,ATT_SUF",
  c!"LEXENTRY:\tWG.\tWEG\tTYPE\tATT_PRE,ATT_SUF",
  c!"LEXENTRY:\tWIJK\tWIJK\tTYPE\tATT_SUF,DET_SUF",
  c!"LEXENTRY:\tZEELAND\t(ZLD.)\tPROV\tDETACH",
  c!"LEXENTRY:\tZH\t(Z.H.)\tPROV\tDETACH",
  c!"LEXENTRY:\tZH.\t(Z.H.)\tPROV\tDETACH",
  c!"LEXENTRY:\tZIJDE\tZIJDE\tTYPE\tATT_SUF",
  c!"LEXENTRY:\tZLD\t(ZLD.)\tPROV\tDETACH",
  c!"LEXENTRY:\tZLD.\t(ZLD.)\tPROV\tDETACH",
  c!"LEXENTRY:\tZUID HOLLAND\t(Z.H.)\tPROV\tDETACH"]

/-- The text, and what is claimed of it. -/
def lexicon : LexSample where
  header := c!"LEXICON:\tlex-netherlands.txt\tDUT\tnl_NL"
  body := entries0 ++ entries1 ++ entries2 ++ entries3 ++ entries4 ++ entries5
  lang := .DUT
  locale := c!"nl_NL"
  classes := [
    .NATION, .CITY, .PROV, .TYPE, .PLACEN, .WORD, .BOXH]

set_option maxRecDepth 1000000 in
theorem lexicon_checked : checkLex lexicon [0, 1, 9, 37, 61, 63, 178] = true := by decide +kernel

/-- What of the grammar cannot match. -/
def pair : Pair where
  sample := sample
  lexicon := lexicon
  idle := [
    c!"UNITH UNITT -> UNITH UNITT -> 0.8",
    c!"UNITH WORD -> UNITH UNIT -> 0.7",
    c!"UNITH NUMBER -> UNITH UNITT -> 0.7",
    c!"UNITH MIXED -> UNITH UNITT -> 0.7",
    c!"UNITH WORD WORD -> UNITH UNITT UNITT -> 0.4"]
  null := [.building, .predir, .qual, .pretype, .sufdir, .ruralroute, .extra]

/-- What shows it. -/
def pairCert : PairCert where
  dead := [.UNITH, .UNITT]
  barren := []
  reach := [
    c!"ADDRESS", c!"micro", c!"macro", c!"streetname", c!"housenumber", c!"unit", c!"pobox", c!"postal",
    c!"citywords", c!"region", c!"country", c!"basename", c!"prefix", c!"city"]

set_option maxRecDepth 100000 in
theorem pair_checked : checkPair pair pairCert = true := by decide +kernel

end AS.Sample.Netherlands
