import Verif.Lemmas.LexCheck
import Verif.Lemmas.PairCheck
import Verif.Sample.Ireland
/-
The lexicon data/sample/ireland.lex (all 367 lines), and what of ireland.gmr cannot match with it. Written by
tools/lexicons.py.
-/
namespace AS.Sample.Ireland

/-- data/sample/ireland.lex:2-51 -/
def entries0 : List Str := [
  c!"LEXENTRY:\t1\t1\tNUMBER\tDETACH",
  c!"LEXENTRY:\t10\t10\tNUMBER\tDETACH",
  c!"LEXENTRY:\t10TH\t10TH\tWORD,ORD\tDETACH",
  c!"LEXENTRY:\t11\t11\tNUMBER\tDETACH",
  c!"LEXENTRY:\t11TH\t11TH\tWORD,ORD\tDETACH",
  c!"LEXENTRY:\t12\t12\tNUMBER\tDETACH",
  c!"LEXENTRY:\t12TH\t12TH\tWORD,ORD\tDETACH",
  c!"LEXENTRY:\t13\t13\tNUMBER\tDETACH",
  c!"LEXENTRY:\t13TH\t13TH\tWORD,ORD\tDETACH",
  c!"LEXENTRY:\t14\t14\tNUMBER\tDETACH",
  c!"LEXENTRY:\t14TH\t14TH\tWORD,ORD\tDETACH",
  c!"LEXENTRY:\t15\t15\tNUMBER\tDETACH",
  c!"LEXENTRY:\t15TH\t15TH\tWORD,ORD\tDETACH",
  c!"LEXENTRY:\t16\t16\tNUMBER\tDETACH",
  c!"LEXENTRY:\t16TH\t16TH\tWORD,ORD\tDETACH",
  c!"LEXENTRY:\t17\t17\tNUMBER\tDETACH",
  c!"LEXENTRY:\t17TH\t17TH\tWORD,ORD\tDETACH",
  c!"LEXENTRY:\t18\t18\tNUMBER\tDETACH",
  c!"LEXENTRY:\t18TH\t18TH\tWORD,ORD\tDETACH",
  c!"LEXENTRY:\t19\t19\tNUMBER\tDETACH",
  c!"LEXENTRY:\t19TH\t19TH\tWORD,ORD\tDETACH",
  c!"LEXENTRY:\t1ST\t1ST\tWORD,ORD\tDETACH",
  c!"LEXENTRY:\t2\t2\tNUMBER\tDETACH",
  c!"LEXENTRY:\t20\t20\tNUMBER\tDETACH",
  c!"LEXENTRY:\t20TH\t20TH\tWORD,ORD\tDETACH",
  c!"LEXENTRY:\t2ND\t2ND\tWORD,ORD\tDETACH",
  c!"LEXENTRY:\t3\t3\tNUMBER\tDETACH",
  c!"LEXENTRY:\t30\t30\tNUMBER\tDETACH",
  c!"LEXENTRY:\t30TH\t30TH\tWORD,ORD\tDETACH",
  c!"LEXENTRY:\t3RD\t3RD\tWORD,ORD\tDETACH",
  c!"LEXENTRY:\t4\t4\tNUMBER\tDETACH",
  c!"LEXENTRY:\t40\t40\tNUMBER\tDETACH",
  c!"LEXENTRY:\t40TH\t40TH\tWORD,ORD\tDETACH",
  c!"LEXENTRY:\t4TH\t4TH\tWORD,ORD\tDETACH",
  c!"LEXENTRY:\t5\t5\tNUMBER\tDETACH",
  c!"LEXENTRY:\t50\t50\tNUMBER\tDETACH",
  c!"LEXENTRY:\t50TH\t50TH\tWORD,ORD\tDETACH",
  c!"LEXENTRY:\t5TH\t5TH\tWORD,ORD\tDETACH",
  c!"LEXENTRY:\t6\t6\tNUMBER\tDETACH",
  c!"LEXENTRY:\t60\t60\tNUMBER\tDETACH",
  c!"LEXENTRY:\t60TH\t60TH\tWORD,ORD\tDETACH",
  c!"LEXENTRY:\t6TH\t6TH\tWORD,ORD\tDETACH",
  c!"LEXENTRY:\t7\t7\tNUMBER\tDETACH",
  c!"LEXENTRY:\t70\t70\tNUMBER\tDETACH",
  c!"LEXENTRY:\t70TH\t70TH\tWORD,ORD\tDETACH",
  c!"LEXENTRY:\t7TH\t7TH\tWORD,ORD\tDETACH",
  c!"LEXENTRY:\t8\t8\tNUMBER\tDETACH",
  c!"LEXENTRY:\t80\t80\tNUMBER\tDETACH",
  c!"LEXENTRY:\t80TH\t80TH\tWORD,ORD\tDETACH",
  c!"LEXENTRY:\t8TH\t8TH\tWORD,ORD\tDETACH"]

/-- data/sample/ireland.lex:52-101 -/
def entries1 : List Str := [
  c!"LEXENTRY:\t9\t9\tNUMBER\tDETACH",
  c!"LEXENTRY:\t90\t90\tNUMBER\tDETACH",
  c!"LEXENTRY:\t90TH\t90TH\tWORD,ORD\tDETACH",
  c!"LEXENTRY:\t9TH\t9TH\tWORD,ORD\tDETACH",
  c!"LEXENTRY:\tALLEY\tAllEY\tTYPE\tDET_SUF",
  c!"LEXENTRY:\tALLY\tAllEY\tTYPE\tDET_SUF",
  c!"LEXENTRY:\tAPARTMENT\tAPT\tUNITH\tDETACH",
  c!"LEXENTRY:\tAPPR\tAPPROACH\tTYPE\tDET_SUF",
  c!"LEXENTRY:\tAPPROACH\tAPPROACH\tTYPE\tDET_SUF",
  c!"LEXENTRY:\tAPT\tAPT\tUNITH\tDETACH",
  c!"LEXENTRY:\tARC\tARCADE\tTYPE\tDET_SUF",
  c!"LEXENTRY:\tARCADE\tARCADE\tTYPE\tDET_SUF",
  c!"LEXENTRY:\tAV\tAVENUE\tTYPE\tDET_SUF",
  c!"LEXENTRY:\tAVE\tAVENUE\tTYPE\tDET_SUF",
  c!"LEXENTRY:\tAVENUE\tAVENUE\tTYPE\tDET_SUF",
  c!"LEXENTRY:\tAllEY\tAllEY\tTYPE\tDET_SUF",
  c!"LEXENTRY:\tB\tB\tUNITH\tDETACH",
  c!"LEXENTRY:\tBANK\tBANK\tTYPE\tDET_SUF",
  c!"LEXENTRY:\tBASEMENT\tB\tUNITH\tDETACH",
  c!"LEXENTRY:\tBLDG\tBLDG\tUNITH\tDETACH",
  c!"LEXENTRY:\tBOULEVARD\tBOULEVARD\tTYPE\tDET_SUF",
  c!"LEXENTRY:\tBRIDGE\tBRIDGE\tTYPE\tDET_SUF",
  c!"LEXENTRY:\tBROADWAY\tBROADWAY\tTYPE\tDET_SUF",
  c!"LEXENTRY:\tBUILDING\tBLDG\tUNITH\tDETACH",
  c!"LEXENTRY:\tBUILDINGS\tBUILDINGS\tTYPE\tDET_SUF",
  c!"LEXENTRY:\tBUILDINS\tBUILDINGS\tTYPE\tDET_SUF",
  c!"LEXENTRY:\tBVD\tBOULEVARD\tTYPE\tDET_SUF",
  c!"LEXENTRY:\tCARLOW  \tCO. CARLOW\tPROV\tDETACH",
  c!"LEXENTRY:\tCAUSEWAY\tCAUSEWAY\tTYPE\tDET_SUF",
  c!"LEXENTRY:\tCAVAN\tCO. CAVAN\tPROV\tDETACH",
  c!"LEXENTRY:\tCENTER\tCENTER\tPLACEN,WORD\tDET_SUF",
  c!"LEXENTRY:\tCHASE\tCHASE\tTYPE\tDET_SUF",
  c!"LEXENTRY:\tCHURCHYARD\tCHURCHYARD\tTYPE\tDET_SUF",
  c!"LEXENTRY:\tCIRCLE\tCIRCLE\tTYPE\tDET_SUF",
  c!"LEXENTRY:\tCIRCUS\tCIRCUS\tTYPE\tDET_SUF",
  c!"LEXENTRY:\tCL\tCLOSE\tTYPE\tDET_SUF",
  c!"LEXENTRY:\tCLARE\tCO. CLARE\tPROV\tDETACH",
  c!"LEXENTRY:\tCLOSE\tCLOSE\tTYPE\tDET_SUF",
  c!"LEXENTRY:\tCO\tCO\tPLACEN\tDETACH",
  c!"LEXENTRY:\tCO-OP\tCO-OP\tPLACEN\tDETACH",
  c!"LEXENTRY:\tCOMPANY\tCOMPANY\tPLACEN\tDETACH",
  c!"LEXENTRY:\tCOPPICE\tCOPPICE\tTYPE\tDET_SUF",
  c!"LEXENTRY:\tCOPSE\tCOPSE\tTYPE\tDET_SUF",
  c!"LEXENTRY:\tCORK\tCO. CORK\tPROV\tDETACH",
  c!"LEXENTRY:\tCORNER\tCORNER\tTYPE\tDET_SUF",
  c!"LEXENTRY:\tCORP\tCORP\tPLACEN\tDETACH",
  c!"LEXENTRY:\tCOTTAGES\tCOTTAGES\tTYPE\tDET_SUF",
  c!"LEXENTRY:\tCOUNTY CARLOW\tCO. CARLOW\tPROV\tDETACH",
  c!"LEXENTRY:\tCOUNTY CAVAN\tCO. CAVAN\tPROV\tDETACH",
  c!"LEXENTRY:\tCOUNTY CLARE\tCO. CLARE\tPROV\tDETACH"]

/-- data/sample/ireland.lex:102-151 -/
def entries2 : List Str := [
  c!"LEXENTRY:\tCOUNTY CORK\tCO. CORK\tPROV\tDETACH",
  c!"LEXENTRY:\tCOUNTY DONEGAL\tCO. DONEGAL\tPROV\tDETACH",
  c!"LEXENTRY:\tCOUNTY DUBLIN\tCO. DUBLIN\tPROV\tDETACH",
  c!"LEXENTRY:\tCOUNTY GALWAY\tCO. GALWAY\tPROV\tDETACH",
  c!"LEXENTRY:\tCOUNTY KERRY\tCO. KERRY\tPROV\tDETACH",
  c!"LEXENTRY:\tCOUNTY KILDARE\tCO. KILDARE\tPROV\tDETACH",
  c!"LEXENTRY:\tCOUNTY KILKENNY\tCO. KILKENNY\tPROV\tDETACH",
  c!"LEXENTRY:\tCOUNTY LAOIS\tCO. LAOIS\tPROV\tDETACH",
  c!"LEXENTRY:\tCOUNTY LEITRIM\tCO. LEITRIM\tPROV\tDETACH",
  c!"LEXENTRY:\tCOUNTY LIMERICK\tCO. LIMERICK\tPROV\tDETACH",
  c!"LEXENTRY:\tCOUNTY LONGFORD\tCO. LONGFORD\tPROV\tDETACH",
  c!"LEXENTRY:\tCOUNTY LOUTH\tCO. LOUTH\tPROV\tDETACH",
  c!"LEXENTRY:\tCOUNTY MAYO\tCO. MAYO\tPROV\tDETACH",
  c!"LEXENTRY:\tCOUNTY MEATH\tCO. MEATH\tPROV\tDETACH",
  c!"LEXENTRY:\tCOUNTY MONAGHAN\tCO. MONAGHAN\tPROV\tDETACH",
  c!"LEXENTRY:\tCOUNTY OFFALY\tCO. OFFALY\tPROV\tDETACH",
  c!"LEXENTRY:\tCOUNTY ROSCOMMON\tCO. ROSCOMMON\tPROV\tDETACH",
  c!"LEXENTRY:\tCOUNTY SLIGO\tCO. SLIGO\tPROV\tDETACH",
  c!"LEXENTRY:\tCOUNTY TIPPERARY\tCO. TIPPERARY\tPROV\tDETACH",
  c!"LEXENTRY:\tCOUNTY WATERFORD\tCO. WATERFORD\tPROV\tDETACH",
  c!"LEXENTRY:\tCOUNTY WESTMEATH\tCO. WESTMEATH\tPROV\tDETACH",
  c!"LEXENTRY:\tCOUNTY WEXFORD\tCO. WEXFORD\tPROV\tDETACH",
  c!"LEXENTRY:\tCOUNTY WICKLOW\tCO. WICKLOW\tPROV\tDETACH",
  c!"LEXENTRY:\tCO CARLOW\tCO. CARLOW\tPROV\tDETACH",
  c!"LEXENTRY:\tCO CAVAN\tCO. CAVAN\tPROV\tDETACH",
  c!"LEXENTRY:\tCO CLARE\tCO. CLARE\tPROV\tDETACH",
  c!"LEXENTRY:\tCO CORK\tCO. CORK\tPROV\tDETACH",
  c!"LEXENTRY:\tCO DONEGAL\tCO. DONEGAL\tPROV\tDETACH",
  c!"LEXENTRY:\tCO DUBLIN\tCO. DUBLIN\tPROV\tDETACH",
  c!"LEXENTRY:\tCO GALWAY\tCO. GALWAY\tPROV\tDETACH",
  c!"LEXENTRY:\tCO KERRY\tCO. KERRY\tPROV\tDETACH",
  c!"LEXENTRY:\tCO KILDARE\tCO. KILDARE\tPROV\tDETACH",
  c!"LEXENTRY:\tCO KILKENNY\tCO. KILKENNY\tPROV\tDETACH",
  c!"LEXENTRY:\tCO LAOIS\tCO. LAOIS\tPROV\tDETACH",
  c!"LEXENTRY:\tCO LEITRIM\tCO. LEITRIM\tPROV\tDETACH",
  c!"LEXENTRY:\tCO LIMERICK\tCO. LIMERICK\tPROV\tDETACH",
  c!"LEXENTRY:\tCO LONGFORD\tCO. LONGFORD\tPROV\tDETACH",
  c!"LEXENTRY:\tCO LOUTH\tCO. LOUTH\tPROV\tDETACH",
  c!"LEXENTRY:\tCO MAYO\tCO. MAYO\tPROV\tDETACH",
  c!"LEXENTRY:\tCO MEATH\tCO. MEATH\tPROV\tDETACH",
  c!"LEXENTRY:\tCO MONAGHAN\tCO. MONAGHAN\tPROV\tDETACH",
  c!"LEXENTRY:\tCO OFFALY\tCO. OFFALY\tPROV\tDETACH",
  c!"LEXENTRY:\tCO ROSCOMMON\tCO. ROSCOMMON\tPROV\tDETACH",
  c!"LEXENTRY:\tCO SLIGO\tCO. SLIGO\tPROV\tDETACH",
  c!"LEXENTRY:\tCO TIPPERARY\tCO. TIPPERARY\tPROV\tDETACH",
  c!"LEXENTRY:\tCO WATERFORD\tCO. WATERFORD\tPROV\tDETACH",
  c!"LEXENTRY:\tCO WESTMEATH\tCO. WESTMEATH\tPROV\tDETACH",
  c!"LEXENTRY:\tCO WEXFORD\tCO. WEXFORD\tPROV\tDETACH",
  c!"LEXENTRY:\tCO WICKLOW\tCO. WICKLOW\tPROV\tDETACH",
  c!"LEXENTRY:\tCOURT\tCOURT\tTYPE\tDET_SUF"]

/-- data/sample/ireland.lex:152-201 -/
def entries3 : List Str := [
  c!"LEXENTRY:\tCPT\tCPT\tPLACEN\tDETACH",
  c!"LEXENTRY:\tCRES\tCRESCENT\tTYPE\tDET_SUF",
  c!"LEXENTRY:\tCRESCENT\tCRESCENT\tTYPE\tDET_SUF",
  c!"LEXENTRY:\tCT\tCOURT\tTYPE\tDET_SUF",
  c!"LEXENTRY:\tDALE\tDALE\tTYPE\tDET_SUF",
  c!"LEXENTRY:\tDONEGAL\tCO. DONEGAL\tPROV\tDETACH",
  c!"LEXENTRY:\tDR\tDRIVE\tTYPE\tDET_SUF",
  c!"LEXENTRY:\tDRIVE\tDRIVE\tTYPE\tDET_SUF",
  c!"LEXENTRY:\tDROVE\tDROVE\tTYPE\tDET_SUF",
  c!"LEXENTRY:\tDUBLIN\tCO. DUBLIN\tPROV\tDETACH",
  c!"LEXENTRY:\tDUBLIN\tDUBLIN\tCITY,WORD\tDETACH",
  c!"LEXENTRY:\tE\tE\tDIRECT\tDETACH",
  c!"LEXENTRY:\tEAST\tE\tDIRECT\tDETACH",
  c!"LEXENTRY:\tEIGHT\t8\tNUMBER\tDETACH",
  c!"LEXENTRY:\tEIGHTEEN\t18\tNUMBER\tDETACH",
  c!"LEXENTRY:\tEIGHTEENTH\t18TH\tWORD,ORD\tDETACH",
  c!"LEXENTRY:\tEIGHTH\t8TH\tWORD,ORD\tDETACH",
  c!"LEXENTRY:\tEIGHTIETH\t80TH\tWORD,ORD\tDETACH",
  c!"LEXENTRY:\tEIGHTY\t80\tNUMBER\tDETACH",
  c!"LEXENTRY:\tELEVEN\t11\tNUMBER\tDETACH",
  c!"LEXENTRY:\tELEVENTH\t11TH\tWORD,ORD\tDETACH",
  c!"LEXENTRY:\tEMBANKMENT\tEMBANKMENT\tTYPE\tDET_SUF",
  c!"LEXENTRY:\tEND\tEND\tTYPE\tDET_SUF",
  c!"LEXENTRY:\tESTATE\tESTATE\tTYPE\tDET_SUF",
  c!"LEXENTRY:\tF\tF\tUNITH\tDETACH",
  c!"LEXENTRY:\tFACTORY\tFY\tUNITH\tDETACH",
  c!"LEXENTRY:\tFIELD\tFIELD\tTYPE\tDET_SUF",
  c!"LEXENTRY:\tFIELDS\tFIELDS\tTYPE\tDET_SUF",
  c!"LEXENTRY:\tFIFTEEN\t15\tNUMBER\tDETACH",
  c!"LEXENTRY:\tFIFTEENTH\t15TH\tWORD,ORD\tDETACH",
  c!"LEXENTRY:\tFIFTH\t5TH\tWORD,ORD\tDETACH",
  c!"LEXENTRY:\tFIFTIETH\t50TH\tWORD,ORD\tDETACH",
  c!"LEXENTRY:\tFIFTY\t50\tNUMBER\tDETACH",
  c!"LEXENTRY:\tFIRST\t1ST\tWORD,ORD\tDETACH",
  c!"LEXENTRY:\tFIVE\t5\tNUMBER\tDETACH",
  c!"LEXENTRY:\tFL\tFL\tUNITH\tDETACH",
  c!"LEXENTRY:\tFLAT\tF\tUNITH\tDETACH",
  c!"LEXENTRY:\tFLOOR\tFL\tUNITH\tDETACH",
  c!"LEXENTRY:\tFOLD\tFOLD\tTYPE\tDET_SUF",
  c!"LEXENTRY:\tFORTIETH\t40TH\tWORD,ORD\tDETACH",
  c!"LEXENTRY:\tFORTY\t40\tNUMBER\tDETACH",
  c!"LEXENTRY:\tFOUR\t4\tNUMBER\tDETACH",
  c!"LEXENTRY:\tFOURTEEN\t14\tNUMBER\tDETACH",
  c!"LEXENTRY:\tFOURTEENTH\t14TH\tWORD,ORD\tDETACH",
  c!"LEXENTRY:\tFOUTH\t4TH\tWORD,ORD\tDETACH",
  c!"LEXENTRY:\tFY\tFY\tUNITH\tDETACH",
  c!"LEXENTRY:\tGALWAY\tCO. GALWAY\tPROV\tDETACH",
  c!"LEXENTRY:\tGARDEN\tGARDEN\tTYPE\tDET_SUF",
  c!"LEXENTRY:\tGARDENS\tGARDENS\tTYPE\tDET_SUF",
  c!"LEXENTRY:\tGATE\tGATE\tTYPE\tDET_SUF"]

/-- data/sample/ireland.lex:202-251 -/
def entries4 : List Str := [
  c!"LEXENTRY:\tGLADE\tGLADE\tTYPE\tDET_SUF",
  c!"LEXENTRY:\tGR\tGROVE\tTYPE\tDET_SUF",
  c!"LEXENTRY:\tGRANGE\tGRANGE\tTYPE\tDET_SUF",
  c!"LEXENTRY:\tGROVE\tGROVE\tTYPE\tDET_SUF",
  c!"LEXENTRY:\tHEATH\tHEATH\tTYPE\tDET_SUF",
  c!"LEXENTRY:\tHIGHWAY\tHIGHWAY\tTYPE\tDET_SUF",
  c!"LEXENTRY:\tHILL\tHILL\tTYPE\tDET_SUF",
  c!"LEXENTRY:\tHOUSES\tHOUSES\tTYPE\tDET_SUF",
  c!"LEXENTRY:\tHWY\tHIGHWAY\tTYPE\tDET_SUF",
  c!"LEXENTRY:\tIE\tIRELAND\tNATION\tDETACH",
  c!"LEXENTRY:\tIRELAND\tIRELAND\tNATION\tDETACH",
  c!"LEXENTRY:\tIRL\tIRELAND\tNATION\tDETACH",
  c!"LEXENTRY:\tKERRY\tCO. KERRY\tPROV\tDETACH",
  c!"LEXENTRY:\tKILDARE\tCO. KILDARE\tPROV\tDETACH",
  c!"LEXENTRY:\tKILKENNY\tCO. KILKENNY\tPROV\tDETACH",
  c!"LEXENTRY:\tL\tL\tUNITH\tDETACH",
  c!"LEXENTRY:\tLANE\tLANE\tTYPE\tDET_SUF",
  c!"LEXENTRY:\tLAOIS\tCO. LAOIS\tPROV\tDETACH",
  c!"LEXENTRY:\tLAWN\tLAWN\tTYPE\tDET_SUF",
  c!"LEXENTRY:\tLEITRIM\tCO. LEITRIM\tPROV\tDETACH",
  c!"LEXENTRY:\tLEVEL\tL\tUNITH\tDETACH",
  c!"LEXENTRY:\tLIMERICK\tCO. LIMERICK\tPROV\tDETACH",
  c!"LEXENTRY:\tLIMITED\tLIMITED\tPLACEN\tDETACH",
  c!"LEXENTRY:\tLN\tLANE\tTYPE\tDET_SUF",
  c!"LEXENTRY:\tLONGFORD\tCO. LONGFORD\tPROV\tDETACH",
  c!"LEXENTRY:\tLOUTH\tCO. LOUTH\tPROV\tDETACH",
  c!"LEXENTRY:\tLTD\tLTD\tPLACEN\tDETACH",
  c!"LEXENTRY:\tM\tM\tUNITH\tDETACH",
  c!"LEXENTRY:\tMARINE BERTH\tMB\tUNITH\tDETACH",
  c!"LEXENTRY:\tMARKET\tMARKET\tTYPE\tDET_SUF",
  c!"LEXENTRY:\tMAYO\tCO. MAYO\tPROV\tDETACH",
  c!"LEXENTRY:\tMB\tMB\tUNITH\tDETACH",
  c!"LEXENTRY:\tMEAD\tMEADOW\tTYPE\tDET_SUF",
  c!"LEXENTRY:\tMEADOW\tMEADOW\tTYPE\tDET_SUF",
  c!"LEXENTRY:\tMEADOWS\tMEADOWS\tTYPE\tDET_SUF",
  c!"LEXENTRY:\tMEATH\tCO. MEATH\tPROV\tDETACH",
  c!"LEXENTRY:\tMEWS\tMEWS\tTYPE\tDET_SUF",
  c!"LEXENTRY:\tMEZZANINE\tM\tUNITH\tDETACH",
  c!"LEXENTRY:\tMONAGHAN\tCO. MONAGHAN\tPROV\tDETACH",
  c!"LEXENTRY:\tMOUNT\tMOUNT\tTYPE\tDET_SUF",
  c!"LEXENTRY:\tN\tN\tDIRECT\tDETACH",
  c!"LEXENTRY:\tNE\tNE\tDIRECT\tDETACH",
  c!"LEXENTRY:\tNINE\t9\tNUMBER\tDETACH",
  c!"LEXENTRY:\tNINETEEN\t19\tNUMBER\tDETACH",
  c!"LEXENTRY:\tNINETEENTH\t19TH\tWORD,ORD\tDETACH",
  c!"LEXENTRY:\tNINETIETH\t90TH\tWORD,ORD\tDETACH",
  c!"LEXENTRY:\tNINETY\t90\tNUMBER\tDETACH",
  c!"LEXENTRY:\tNINTH\t9TH\tWORD,ORD\tDETACH",
  c!"LEXENTRY:\tNORTH\tN\tDIRECT\tDETACH",
  c!"LEXENTRY:\tNORTHEAST\tNE\tDIRECT\tDETACH"]

/-- data/sample/ireland.lex:252-301 -/
def entries5 : List Str := [
  c!"LEXENTRY:\tNORTHWEST\tNW\tDIRECT\tDETACH",
  c!"LEXENTRY:\tNW\tNW\tDIRECT\tDETACH",
  c!"LEXENTRY:\tOFF\tOFF\tUNITH\tDETACH",
  c!"LEXENTRY:\tOFFALY\tCO. OFFALY\tPROV\tDETACH",
  c!"LEXENTRY:\tOFFICE\tOFF\tUNITH\tDETACH",
  c!"LEXENTRY:\tONE\t1\tNUMBER\tDETACH",
  c!"LEXENTRY:\tORCHARD\tORCHARD\tTYPE\tDET_SUF",
  c!"LEXENTRY:\tOVAL\tOVAL\tTYPE\tDET_SUF",
  c!"LEXENTRY:\tP.O.\tPO BOX\tBOXH\tDETACH",
  c!"LEXENTRY:\tP.O. BOX\tPO BOX\tBOXH\tDETACH",
  c!"LEXENTRY:\tPADDOCK\tPADDOCK\tTYPE\tDET_SUF",
  c!"LEXENTRY:\tPARADE\tPARADE\tTYPE\tDET_SUF",
  c!"LEXENTRY:\tPARK\tPARK\tTYPE\tDET_SUF",
  c!"LEXENTRY:\tPARKWAY\tPARKWAY\tTYPE\tDET_SUF",
  c!"LEXENTRY:\tPARTNERSHIP\tPARTNERSHIP\tPLACEN\tDETACH",
  c!"LEXENTRY:\tPASSAGE\tPASSAGE\tTYPE\tDET_SUF",
  c!"LEXENTRY:\tPATH\tPATH\tTYPE\tDET_SUF",
  c!"LEXENTRY:\tPDE\tPARADE\tTYPE\tDET_SUF",
  c!"LEXENTRY:\tPK\tPARK\tTYPE\tDET_SUF",
  c!"LEXENTRY:\tPKWY\tPARKWAY\tTYPE\tDET_SUF",
  c!"LEXENTRY:\tPL\tPLACE\tTYPE\tDET_SUF",
  c!"LEXENTRY:\tPLACE\tPLACE\tTYPE\tDET_SUF",
  c!"LEXENTRY:\tPLC\tPLC\tPLACEN\tDETACH",
  c!"LEXENTRY:\tPO\tPO BOX\tBOXH\tDETACH",
  c!"LEXENTRY:\tPO BOX\tPO BOX\tBOXH\tDETACH",
  c!"LEXENTRY:\tPOST OFFICE BOX\tPO BOX\tBOXH\tDETACH",
  c!"LEXENTRY:\tPRC\tPRC\tPLACEN\tDETACH",
  c!"LEXENTRY:\tPRECINCT\tPRECINCT\tTYPE\tDET_SUF",
  c!"LEXENTRY:\tPROMENADE\tPROMENADE\tTYPE\tDET_SUF",
  c!"LEXENTRY:\tQUAY\tQUAY\tTYPE\tDET_SUF",
  c!"LEXENTRY:\tQUAY \tQUAY\tTYPE\tDET_SUF",
  c!"LEXENTRY:\tRD\tROAD\tTYPE\tDET_SUF",
  c!"LEXENTRY:\tRIDE\tRIDE\tTYPE\tDET_SUF",
  c!"LEXENTRY:\tRIDGE\tRIDGE\tTYPE\tDET_SUF",
  c!"LEXENTRY:\tRISE\tRISE\tTYPE\tDET_SUF",
  c!"LEXENTRY:\tRM\tRM\tUNITH\tDETACH",
  c!"LEXENTRY:\tROAD\tROAD\tTYPE\tDET_SUF",
  c!"LEXENTRY:\tROOM\tRM\tUNITH\tDETACH",
  c!"LEXENTRY:\tROSCOMMON\tCO. ROSCOMMON\tPROV\tDETACH",
  c!"LEXENTRY:\tROW\tROW\tTYPE\tDET_SUF",
  c!"LEXENTRY:\tS\tS\tDIRECT\tDETACH",
  c!"LEXENTRY:\tSE\tSE\tDIRECT,UNITH\tDETACH",
  c!"LEXENTRY:\tSECOND\t2ND\tWORD,ORD\tDETACH",
  c!"LEXENTRY:\tSEVEN\t7\tNUMBER\tDETACH",
  c!"LEXENTRY:\tSEVENTEEN\t17\tNUMBER\tDETACH",
  c!"LEXENTRY:\tSEVENTEENTH\t17TH\tWORD,ORD\tDETACH",
  c!"LEXENTRY:\tSEVENTH\t7TH\tWORD,ORD\tDETACH",
  c!"LEXENTRY:\tSEVENTIETH\t70TH\tWORD,ORD\tDETACH",
  c!"LEXENTRY:\tSEVENTY\t70\tNUMBER\tDETACH",
  c!"LEXENTRY:\tSHED\tSHED\tUNITH\tDETACH"]

/-- data/sample/ireland.lex:302-351 -/
def entries6 : List Str := [
  c!"LEXENTRY:\tSHED \tSHED\tUNITH\tDETACH",
  c!"LEXENTRY:\tSHOP\tSHOP\tUNITH\tDETACH",
  c!"LEXENTRY:\tSITE\tSITE\tUNITH\tDETACH",
  c!"LEXENTRY:\tSITE\tSE\tUNITH\tDETACH",
  c!"LEXENTRY:\tSIX\t6\tNUMBER\tDETACH",
  c!"LEXENTRY:\tSIXTEEN\t16\tNUMBER\tDETACH",
  c!"LEXENTRY:\tSIXTEENTH\t16TH\tWORD,ORD\tDETACH",
  c!"LEXENTRY:\tSIXTH\t6TH\tWORD,ORD\tDETACH",
  c!"LEXENTRY:\tSIXTIETH\t60TH\tWORD,ORD\tDETACH",
  c!"LEXENTRY:\tSIXTY\t60\tNUMBER\tDETACH",
  c!"LEXENTRY:\tSL\tSL\tUNITH\tDETACH",
  c!"LEXENTRY:\tSLIGO\tCO. SLIGO\tPROV\tDETACH",
  c!"LEXENTRY:\tSOCIETY\tSOCIETY\tPLACEN\tDETACH",
  c!"LEXENTRY:\tSOUTH\tS\tDIRECT\tDETACH",
  c!"LEXENTRY:\tSOUTHEAST\tSE\tDIRECT\tDETACH",
  c!"LEXENTRY:\tSOUTHWEST\tSW\tDIRECT\tDETACH",
  c!"LEXENTRY:\tSQ\tSQUARE\tTYPE\tDET_SUF",
  c!"LEXENTRY:\tSQUARE\tSQUARE\tTYPE\tDET_SUF",
  c!"LEXENTRY:\tST\tSTREET\tTYPE\tDET_SUF",
  c!"LEXENTRY:\tSTALL\tSL\tUNITH\tDETACH",
  c!"LEXENTRY:\tSTE\tSTE\tUNITH\tDETACH",
  c!"LEXENTRY:\tSTR\tSTREET\tTYPE\tDET_SUF",
  c!"LEXENTRY:\tSTRAND\tSTRAND\tTYPE\tDET_SUF",
  c!"LEXENTRY:\tSTREET\tSTREET\tTYPE\tDET_SUF",
  c!"LEXENTRY:\tSUITE\tSTE\tUNITH\tDETACH",
  c!"LEXENTRY:\tSW\tSW\tDIRECT\tDETACH",
  c!"LEXENTRY:\tTCE\tTERRACE\tTYPE\tDET_SUF",
  c!"LEXENTRY:\tTEN\t10\tNUMBER\tDETACH",
  c!"LEXENTRY:\tTENTH\t10TH\tWORD,ORD\tDETACH",
  c!"LEXENTRY:\tTEO\tTEO\tPLACEN\tDETACH",
  c!"LEXENTRY:\tTEORANTA\tTEORANTA\tPLACEN\tDETACH",
  c!"LEXENTRY:\tTERRACE\tTERRACE\tTYPE\tDET_SUF",
  c!"LEXENTRY:\tTHIRD\t3RD\tWORD,ORD\tDETACH",
  c!"LEXENTRY:\tTHIRTEEN\t13\tNUMBER\tDETACH",
  c!"LEXENTRY:\tTHIRTEENTH\t13TH\tWORD,ORD\tDETACH",
  c!"LEXENTRY:\tTHIRTIETH\t30TH\tWORD,ORD\tDETACH",
  c!"LEXENTRY:\tTHIRTY\t30\tNUMBER\tDETACH",
  c!"LEXENTRY:\tTHREE\t3\tNUMBER\tDETACH",
  c!"LEXENTRY:\tTIPPERARY\tCO. TIPPERARY\tPROV\tDETACH",
  c!"LEXENTRY:\tTUNNEL\tTUNNEL\tTYPE\tDET_SUF",
  c!"LEXENTRY:\tTWELFTH\t12TH\tWORD,ORD\tDETACH",
  c!"LEXENTRY:\tTWELVE\t12\tNUMBER\tDETACH",
  c!"LEXENTRY:\tTWENTIETH\t20TH\tWORD,ORD\tDETACH",
  c!"LEXENTRY:\tTWENTY\t20\tNUMBER\tDETACH",
  c!"LEXENTRY:\tTWO\t2\tNUMBER\tDETACH",
  c!"LEXENTRY:\tU\tU\tUNITH\tDETACH",
  c!"LEXENTRY:\tUNIT\tU\tUNITH\tDETACH",
  c!"LEXENTRY:\tVALE\tVALE\tTYPE\tDET_SUF",
  c!"LEXENTRY:\tVALLEY\tVALLEY\tTYPE\tDET_SUF",
  c!"LEXENTRY:\tVIEW\tVIEW\tTYPE\tDET_SUF"]

/-- data/sample/ireland.lex:352-367 -/
def entries7 : List Str := [
  c!"LEXENTRY:\tVILLA\tVLLA\tUNITH\tDETACH",
  c!"LEXENTRY:\tVILLAS\tVILLAS\tTYPE\tDET_SUF",
  c!"LEXENTRY:\tVLLA\tVLLA\tUNITH\tDETACH",
  c!"LEXENTRY:\tW\tW\tDIRECT\tDETACH",
  c!"LEXENTRY:\tWALK\tWALK\tTYPE\tDET_SUF",
  c!"LEXENTRY:\tWALL\tWALL\tTYPE\tDET_SUF",
  c!"LEXENTRY:\tWAREHOUSE\tWE\tUNITH\tDETACH",
  c!"LEXENTRY:\tWATERFORD\tCO. WATERFORD\tPROV\tDETACH",
  c!"LEXENTRY:\tWAY\tWAY\tTYPE\tDET_SUF",
  c!"LEXENTRY:\tWE\tWE\tUNITH\tDETACH",
  c!"LEXENTRY:\tWEST\tW\tDIRECT\tDETACH",
  c!"LEXENTRY:\tWESTMEATH\tCO. WESTMEATH\tPROV\tDETACH",
  c!"LEXENTRY:\tWEXFORD\tCO. WEXFORD\tPROV\tDETACH",
  c!"LEXENTRY:\tWHARF\tWHARF\tTYPE\tDET_SUF",
  c!"LEXENTRY:\tWICKLOW\tCO. WICKLOW\tPROV\tDETACH",
  c!"LEXENTRY:\tYARD\tYARD\tTYPE\tDET_SUF"]

/-- The text, and what is claimed of it. -/
def lexicon : LexSample where
  header := c!"LEXICON:\tlex-ireland.txt\tENG\ten_IE"
  body := entries0 ++ entries1 ++ entries2 ++ entries3 ++ entries4 ++ entries5 ++ entries6 ++ entries7
  lang := .ENG
  locale := c!"en_IE"
  classes := [
    .NUMBER, .WORD, .ORD, .TYPE, .UNITH, .PROV, .PLACEN, .CITY, .DIRECT, .NATION, .BOXH]

set_option maxRecDepth 1000000 in
theorem lexicon_checked : checkLex lexicon [0, 2, 2, 54, 56, 77, 80, 160, 161, 209, 258] = true := by decide +kernel

/-- What of the grammar cannot match. -/
def pair : Pair where
  sample := sample
  lexicon := lexicon
  idle := [
    c!"BUILDT -> BLDNG -> 0.4",
    c!"@prefix @road @basename @suffix",
    c!"@prefix @road @basename",
    c!"@road @basename @suffix",
    c!"@road @basename",
    c!"QUALIF DIRECT -> QUALIF PREDIR -> 0.8",
    c!"DIRECT QUALIF -> PREDIR QUALIF -> 0.8",
    c!"QUALIF -> QUALIF -> 0.8",
    c!"DIRECT QUALIF -> SUFDIR QUALIF -> 0.8",
    c!"QUALIF DIRECT -> QUALIF SUFDIR -> 0.8",
    c!"[road]",
    c!"PROV ROAD -> EXTRA PRETYP -> 0.8",
    c!"ROAD -> PRETYP -> 0.8",
    c!"UNITT UNITH -> UNITT UNITH -> 0.7",
    c!"UNITH UNITT -> UNITH UNITT -> 0.7"]
  null := [.building, .qual, .ruralroute, .extra]

/-- What shows it. -/
def pairCert : PairCert where
  dead := [.BUILDT, .QUALIF, .ROAD, .UNITT]
  barren := [c!"road"]
  reach := [
    c!"ADDRESS", c!"micro", c!"macro", c!"housenumber", c!"street", c!"unit", c!"pobox", c!"citywords",
    c!"prov", c!"postal", c!"country", c!"prefixtype", c!"basename", c!"suffixtype", c!"city", c!"cityext",
    c!"prefix", c!"ptype", c!"stype", c!"suffix"]

set_option maxRecDepth 100000 in
theorem pair_checked : checkPair pair pairCert = true := by decide +kernel

end AS.Sample.Ireland
