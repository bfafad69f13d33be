import Verif.Lemmas.LexCheck
import Verif.Lemmas.PairCheck
import Verif.Sample.Greatbritain
/-
The lexicon data/sample/greatbritain.lex (all 662 lines), and what of greatbritain.gmr cannot match with it. Written by
tools/lexicons.py.
-/
namespace AS.Sample.Greatbritain

/-- data/sample/greatbritain.lex:2-51 -/
def entries0 : List Str := [
  c!"LEXENTRY:\t1\t1\tNUMBER\tDETACH",
  c!"LEXENTRY:\t10\t10\tNUMBER\tDETACH",
  c!"LEXENTRY:\t10TH\t10TH\tWORD,ORD\tDETACH",
  c!"LEXENTRY:\t11\t11\tNUMBER\tDETACH",
  c!"LEXENTRY:\t11TH\t11TH\tWORD,ORD\tDETACH",
  c!"LEXENTRY:\t12\t12\tNUMBER\tDETACH",
  c!"LEXENTRY:\t12TH\t12TH\tWORD,ORD\tDETACH",
  c!"LEXENTRY:\t13\t13\tNUMBER\tDETACH",
  c!"LEXENTRY:\t13TH\t13TH\tWORD,ORD\tDETACH",
  c!"LEXENTRY:\t14\t14\tNUMBER\tDETACH",
  c!"LEXENTRY:\t14TH\t14TH\tWORD,ORD\tDETACH",
  c!"LEXENTRY:\t15\t15\tNUMBER\tDETACH",
  c!"LEXENTRY:\t15TH\t15TH\tWORD,ORD\tDETACH",
  c!"LEXENTRY:\t16\t16\tNUMBER\tDETACH",
  c!"LEXENTRY:\t16TH\t16TH\tWORD,ORD\tDETACH",
  c!"LEXENTRY:\t17\t17\tNUMBER\tDETACH",
  c!"LEXENTRY:\t17TH\t17TH\tWORD,ORD\tDETACH",
  c!"LEXENTRY:\t18\t18\tNUMBER\tDETACH",
  c!"LEXENTRY:\t18TH\t18TH\tWORD,ORD\tDETACH",
  c!"LEXENTRY:\t19\t19\tNUMBER\tDETACH",
  c!"LEXENTRY:\t19TH\t19TH\tWORD,ORD\tDETACH",
  c!"LEXENTRY:\t1ST\t1ST\tWORD,ORD\tDETACH",
  c!"LEXENTRY:\t2\t2\tNUMBER\tDETACH",
  c!"LEXENTRY:\t20\t20\tNUMBER\tDETACH",
  c!"LEXENTRY:\t20TH\t20TH\tWORD,ORD\tDETACH",
  c!"LEXENTRY:\t2ND\t2ND\tWORD,ORD\tDETACH",
  c!"LEXENTRY:\t3\t3\tNUMBER\tDETACH",
  c!"LEXENTRY:\t30\t30\tNUMBER\tDETACH",
  c!"LEXENTRY:\t30TH\t30TH\tWORD,ORD\tDETACH",
  c!"LEXENTRY:\t3RD\t3RD\tWORD,ORD\tDETACH",
  c!"LEXENTRY:\t4\t4\tNUMBER\tDETACH",
  c!"LEXENTRY:\t40\t40\tNUMBER\tDETACH",
  c!"LEXENTRY:\t40TH\t40TH\tWORD,ORD\tDETACH",
  c!"LEXENTRY:\t4TH\t4TH\tWORD,ORD\tDETACH",
  c!"LEXENTRY:\t5\t5\tNUMBER\tDETACH",
  c!"LEXENTRY:\t50\t50\tNUMBER\tDETACH",
  c!"LEXENTRY:\t50TH\t50TH\tWORD,ORD\tDETACH",
  c!"LEXENTRY:\t5TH\t5TH\tWORD,ORD\tDETACH",
  c!"LEXENTRY:\t6\t6\tNUMBER\tDETACH",
  c!"LEXENTRY:\t60\t60\tNUMBER\tDETACH",
  c!"LEXENTRY:\t60TH\t60TH\tWORD,ORD\tDETACH",
  c!"LEXENTRY:\t6TH\t6TH\tWORD,ORD\tDETACH",
  c!"LEXENTRY:\t7\t7\tNUMBER\tDETACH",
  c!"LEXENTRY:\t70\t70\tNUMBER\tDETACH",
  c!"LEXENTRY:\t70TH\t70TH\tWORD,ORD\tDETACH",
  c!"LEXENTRY:\t7TH\t7TH\tWORD,ORD\tDETACH",
  c!"LEXENTRY:\t8\t8\tNUMBER\tDETACH",
  c!"LEXENTRY:\t80\t80\tNUMBER\tDETACH",
  c!"LEXENTRY:\t80TH\t80TH\tWORD,ORD\tDETACH",
  c!"LEXENTRY:\t8TH\t8TH\tWORD,ORD\tDETACH"]

/-- data/sample/greatbritain.lex:52-101 -/
def entries1 : List Str := [
  c!"LEXENTRY:\t9\t9\tNUMBER\tDETACH",
  c!"LEXENTRY:\t90\t90\tNUMBER\tDETACH",
  c!"LEXENTRY:\t90TH\t90TH\tWORD,ORD\tDETACH",
  c!"LEXENTRY:\t9TH\t9TH\tWORD,ORD\tDETACH",
  c!"LEXENTRY:\tABD\tABERDEENSHIRE\tPROV\tDETACH",
  c!"LEXENTRY:\tABERDEENSHIRE\tABERDEENSHIRE\tPROV\tDETACH",
  c!"LEXENTRY:\tAGY\tANGLESEY\tPROV\tDETACH",
  c!"LEXENTRY:\tALD\tALDERNEY\tPROV\tDETACH",
  c!"LEXENTRY:\tALDERNEY\tALDERNEY\tPROV\tDETACH",
  c!"LEXENTRY:\tALLEY\tAllEY\tTYPE\tDET_SUF",
  c!"LEXENTRY:\tALLY\tAllEY\tTYPE\tDET_SUF",
  c!"LEXENTRY:\tANGLESEY\tANGLESEY\tPROV\tDETACH",
  c!"LEXENTRY:\tANGUS\tANGUS\tPROV\tDETACH",
  c!"LEXENTRY:\tANS\tANGUS\tPROV\tDETACH",
  c!"LEXENTRY:\tANT\tCO. ANTRIM\tPROV\tDETACH",
  c!"LEXENTRY:\tAPARTMENT\tAPT\tUNITH\tDETACH",
  c!"LEXENTRY:\tAPPR\tAPPROACH\tTYPE\tDET_SUF",
  c!"LEXENTRY:\tAPPROACH\tAPPROACH\tTYPE\tDET_SUF",
  c!"LEXENTRY:\tAPT\tAPT\tUNITH\tDETACH",
  c!"LEXENTRY:\tARC\tARCADE\tTYPE\tDET_SUF",
  c!"LEXENTRY:\tARCADE\tARCADE\tTYPE\tDET_SUF",
  c!"LEXENTRY:\tARGYLLSHIRE\tARGYLLSHIRE\tPROV\tDETACH",
  c!"LEXENTRY:\tARL\tARGYLLSHIRE\tPROV\tDETACH",
  c!"LEXENTRY:\tARM\tCO. ARMAGH\tPROV\tDETACH",
  c!"LEXENTRY:\tAV\tAVENUE\tTYPE\tDET_SUF",
  c!"LEXENTRY:\tAVE\tAVENUE\tTYPE\tDET_SUF",
  c!"LEXENTRY:\tAVENUE\tAVENUE\tTYPE\tDET_SUF",
  c!"LEXENTRY:\tAVN\tAVON\tPROV\tDETACH",
  c!"LEXENTRY:\tAVON\tAVON\tPROV\tDETACH",
  c!"LEXENTRY:\tAYR\tAYRSHIRE\tPROV\tDETACH",
  c!"LEXENTRY:\tAYRSHIRE\tAYRSHIRE\tPROV\tDETACH",
  c!"LEXENTRY:\tAllEY\tAllEY\tTYPE\tDET_SUF",
  c!"LEXENTRY:\tB\tB\tUNITH,SINGLE,WORD\tDETACH",
  c!"LEXENTRY:\tBAN\tBANFFSHIRE\tPROV\tDETACH",
  c!"LEXENTRY:\tBANFFSHIRE\tBANFFSHIRE\tPROV\tDETACH",
  c!"LEXENTRY:\tBANK\tBANK\tTYPE\tDET_SUF",
  c!"LEXENTRY:\tBASEMENT\tB\tUNITH\tDETACH",
  c!"LEXENTRY:\tBDF\tBEDFORDSHIRE\tPROV\tDETACH",
  c!"LEXENTRY:\tBEDFORDSHIRE\tBEDFORDSHIRE\tPROV\tDETACH",
  c!"LEXENTRY:\tBEDS\tBEDFORDSHIRE\tPROV\tDETACH",
  c!"LEXENTRY:\tBERKS\tBERKSHIRE\tPROV\tDETACH",
  c!"LEXENTRY:\tBERKSHIRE\tBERKSHIRE\tPROV\tDETACH",
  c!"LEXENTRY:\tBERWICKSHIRE\tBERWICKSHIRE\tPROV\tDETACH",
  c!"LEXENTRY:\tBEW\tBERWICKSHIRE\tPROV\tDETACH",
  c!"LEXENTRY:\tBKM\tBUCKINGHAMSHIRE\tPROV\tDETACH",
  c!"LEXENTRY:\tBLDG\tBLDG\tUNITH\tDETACH",
  c!"LEXENTRY:\tBOR\tBORDERS\tPROV\tDETACH",
  c!"LEXENTRY:\tBORDERS\tBORDERS\tPROV\tDETACH",
  c!"LEXENTRY:\tBOULEVARD\tBOULEVARD\tTYPE\tDET_SUF",
  c!"LEXENTRY:\tBRE\tBRECONSHIRE\tPROV\tDETACH"]

/-- data/sample/greatbritain.lex:102-151 -/
def entries2 : List Str := [
  c!"LEXENTRY:\tBRECONSHIRE\tBRECONSHIRE\tPROV\tDETACH",
  c!"LEXENTRY:\tBRIDGE\tBRIDGE\tTYPE\tDET_SUF",
  c!"LEXENTRY:\tBRITAIN\tUNITED KINGDOM OF GREAT BRITAIN\tNATION\tDETACH",
  c!"LEXENTRY:\tBRK\tBERKSHIRE\tPROV\tDETACH",
  c!"LEXENTRY:\tBROADWAY\tBROADWAY\tTYPE\tDET_SUF",
  c!"LEXENTRY:\tBUCKINGHAMSHIRE\tBUCKINGHAMSHIRE\tPROV\tDETACH",
  c!"LEXENTRY:\tBUCKS\tBUCKINGHAMSHIRE\tPROV\tDETACH",
  c!"LEXENTRY:\tBUILDING\tBLDG\tUNITH\tDETACH",
  c!"LEXENTRY:\tBUILDINGS\tBUILDINGS\tTYPE\tDET_SUF",
  c!"LEXENTRY:\tBUILDINS\tBUILDINGS\tTYPE\tDET_SUF",
  c!"LEXENTRY:\tBUT\tBUTE\tPROV\tDETACH",
  c!"LEXENTRY:\tBUTE\tBUTE\tPROV\tDETACH",
  c!"LEXENTRY:\tBVD\tBOULEVARD\tTYPE\tDET_SUF",
  c!"LEXENTRY:\tCAE\tCAERNARVONSHIRE\tPROV\tDETACH",
  c!"LEXENTRY:\tCAERNARVONSHIRE\tCAERNARVONSHIRE\tPROV\tDETACH",
  c!"LEXENTRY:\tCAI\tCAITHNESS\tPROV\tDETACH",
  c!"LEXENTRY:\tCAITHNESS\tCAITHNESS\tPROV\tDETACH",
  c!"LEXENTRY:\tCAM\tCAMBRIDGESHIRE\tPROV\tDETACH",
  c!"LEXENTRY:\tCAMBRIDGESHIRE\tCAMBRIDGESHIRE\tPROV\tDETACH",
  c!"LEXENTRY:\tCAMBS\tCAMBRIDGESHIRE\tPROV\tDETACH",
  c!"LEXENTRY:\tCARDIGANSHIRE\tCARDIGANSHIRE\tPROV\tDETACH",
  c!"LEXENTRY:\tCARMARTHENSHIRE\tCARMARTHENSHIRE\tPROV\tDETACH",
  c!"LEXENTRY:\tCAUSEWAY\tCAUSEWAY\tTYPE\tDET_SUF",
  c!"LEXENTRY:\tCEN\tCENTRAL\tPROV\tDETACH",
  c!"LEXENTRY:\tCENT\tCENTRAL\tPROV\tDETACH",
  c!"LEXENTRY:\tCENTRAL\tCENTRAL\tPROV\tDETACH",
  c!"LEXENTRY:\tCGN\tCARDIGANSHIRE\tPROV\tDETACH",
  c!"LEXENTRY:\tCHANNEL ISLANDS\tCHANNEL ISLANDS\tPROV\tDETACH",
  c!"LEXENTRY:\tCHASE\tCHASE\tTYPE\tDET_SUF",
  c!"LEXENTRY:\tCHES\tCHESHIRE\tPROV\tDETACH",
  c!"LEXENTRY:\tCHESHIRE\tCHESHIRE\tPROV\tDETACH",
  c!"LEXENTRY:\tCHI\tCHANNEL ISLANDS\tPROV\tDETACH",
  c!"LEXENTRY:\tCHS\tCHESHIRE\tPROV\tDETACH",
  c!"LEXENTRY:\tCHURCHYARD\tCHURCHYARD\tTYPE\tDET_SUF",
  c!"LEXENTRY:\tCIRCLE\tCIRCLE\tTYPE\tDET_SUF",
  c!"LEXENTRY:\tCIRCUS\tCIRCUS\tTYPE\tDET_SUF",
  c!"LEXENTRY:\tCL\tCLOSE\tTYPE\tDET_SUF",
  c!"LEXENTRY:\tCLA\tCO. CLARE\tPROV\tDETACH",
  c!"LEXENTRY:\tCLACKMANNANSHIRE\tCLACKMANNANSHIRE\tPROV\tDETACH",
  c!"LEXENTRY:\tCLEVE\tCLEVELAND\tPROV\tDETACH",
  c!"LEXENTRY:\tCLEVELAND\tCLEVELAND\tPROV\tDETACH",
  c!"LEXENTRY:\tCLK\tCLACKMANNANSHIRE\tPROV\tDETACH",
  c!"LEXENTRY:\tCLOSE\tCLOSE\tTYPE\tDET_SUF",
  c!"LEXENTRY:\tCLV\tCLEVELAND\tPROV\tDETACH",
  c!"LEXENTRY:\tCLWYD\tCLWYD\tPROV\tDETACH",
  c!"LEXENTRY:\tCMA\tCUMBRIA\tPROV\tDETACH",
  c!"LEXENTRY:\tCMN\tCARMARTHENSHIRE\tPROV\tDETACH",
  c!"LEXENTRY:\tCNWLL\tCORNWALL\tPROV\tDETACH",
  c!"LEXENTRY:\tCO\tCO\tPLACEN\tDETACH",
  c!"LEXENTRY:\tCO ANTRIM\tCO. ANTRIM\tPROV\tDETACH"]

/-- data/sample/greatbritain.lex:152-201 -/
def entries3 : List Str := [
  c!"LEXENTRY:\tCO ARMAGH\tCO. ARMAGH\tPROV\tDETACH",
  c!"LEXENTRY:\tCO DOWN\tCO. DOWN\tPROV\tDETACH",
  c!"LEXENTRY:\tCO FERMANAGH\tCO. FERMANAGH\tPROV\tDETACH",
  c!"LEXENTRY:\tCO TYRONE\tCO. TYRONE\tPROV\tDETACH",
  c!"LEXENTRY:\tCO. ANTRIM\tCO. ANTRIM\tPROV\tDETACH",
  c!"LEXENTRY:\tCO. ARMAGH\tCO. ARMAGH\tPROV\tDETACH",
  c!"LEXENTRY:\tCO. CLARE\tCO. CLARE\tPROV\tDETACH",
  c!"LEXENTRY:\tCO. DOWN\tCO. DOWN\tPROV\tDETACH",
  c!"LEXENTRY:\tCO. DURHAM\tDURHAM\tPROV\tDETACH",
  c!"LEXENTRY:\tCO. FERMANAGH\tCO. FERMANAGH\tPROV\tDETACH",
  c!"LEXENTRY:\tCO. LONDONDERRY\tLONDONDERRY\tPROV\tDETACH",
  c!"LEXENTRY:\tCO. TYRONE\tCO. TYRONE\tPROV\tDETACH",
  c!"LEXENTRY:\tCOMPANY\tCOMPANY\tPLACEN\tDETACH",
  c!"LEXENTRY:\tCON\tCORNWALL\tPROV\tDETACH",
  c!"LEXENTRY:\tCOPPICE\tCOPPICE\tTYPE\tDET_SUF",
  c!"LEXENTRY:\tCOPSE\tCOPSE\tTYPE\tDET_SUF",
  c!"LEXENTRY:\tCORNER\tCORNER\tTYPE\tDET_SUF",
  c!"LEXENTRY:\tCORNWALL\tCORNWALL\tPROV\tDETACH",
  c!"LEXENTRY:\tCORP\tCORP\tPLACEN\tDETACH",
  c!"LEXENTRY:\tCORPORATION\tCORPORATION\tPLACEN\tDETACH",
  c!"LEXENTRY:\tCOTTAGES\tCOTTAGES\tTYPE,WORD\tDET_SUF",
  c!"LEXENTRY:\tCOUNTY ANTRIM\tCO. ANTRIM\tPROV\tDETACH",
  c!"LEXENTRY:\tCOUNTY ARMAGH\tCO. ARMAGH\tPROV\tDETACH",
  c!"LEXENTRY:\tCOUNTY CLARE\tCO. CLARE\tPROV\tDETACH",
  c!"LEXENTRY:\tCOUNTY DOWN\tCO. DOWN\tPROV\tDETACH",
  c!"LEXENTRY:\tCOUNTY DURHAM\tDURHAM\tPROV\tDETACH",
  c!"LEXENTRY:\tCOUNTY FERMANAGH\tCO. FERMANAGH\tPROV\tDETACH",
  c!"LEXENTRY:\tCOUNTY LONDONDERRY\tLONDONDERRY\tPROV\tDETACH",
  c!"LEXENTRY:\tCOURT\tCOURT\tTYPE\tDET_SUF",
  c!"LEXENTRY:\tCRES\tCRESCENT\tTYPE\tDET_SUF",
  c!"LEXENTRY:\tCRESCENT\tCRESCENT\tTYPE\tDET_SUF",
  c!"LEXENTRY:\tCT\tCOURT\tTYPE\tDET_SUF",
  c!"LEXENTRY:\tCUL\tCUMBERLAND\tPROV\tDETACH",
  c!"LEXENTRY:\tCUMB\tCUMBRIA\tPROV\tDETACH",
  c!"LEXENTRY:\tCUMBERLAND\tCUMBERLAND\tPROV\tDETACH",
  c!"LEXENTRY:\tCUMBRIA\tCUMBRIA\tPROV\tDETACH",
  c!"LEXENTRY:\tCWD\tCLWYD\tPROV\tDETACH",
  c!"LEXENTRY:\tD & G\tDUMFRIES-SHIRE\tPROV\tDETACH",
  c!"LEXENTRY:\tD&G\tDUMFRIES-SHIRE\tPROV\tDETACH",
  c!"LEXENTRY:\tDALE\tDALE\tTYPE\tDET_SUF",
  c!"LEXENTRY:\tDBY\tDERBYSHIRE\tPROV\tDETACH",
  c!"LEXENTRY:\tDEN\tDENBIGHSHIRE\tPROV\tDETACH",
  c!"LEXENTRY:\tDENBIGHSHIRE\tDENBIGHSHIRE\tPROV\tDETACH",
  c!"LEXENTRY:\tDERBYS\tDERBYSHIRE\tPROV\tDETACH",
  c!"LEXENTRY:\tDERBYSHIRE\tDERBYSHIRE\tPROV\tDETACH",
  c!"LEXENTRY:\tDEV\tDEVON\tPROV\tDETACH",
  c!"LEXENTRY:\tDEVON\tDEVON\tPROV\tDETACH",
  c!"LEXENTRY:\tDEVON\tDEVONSHIRE\tPROV\tDETACH",
  c!"LEXENTRY:\tDEVONSHIRE\tDEVONSHIRE\tPROV\tDETACH",
  c!"LEXENTRY:\tDFD\tDYFED\tPROV\tDETACH"]

/-- data/sample/greatbritain.lex:202-251 -/
def entries4 : List Str := [
  c!"LEXENTRY:\tDFS\tDUMFRIES-SHIRE\tPROV\tDETACH",
  c!"LEXENTRY:\tDGY\tDUMFRIES AND GALLOWAY\tPROV\tDETACH",
  c!"LEXENTRY:\tDNB\tDUNBARTONSHIRE\tPROV\tDETACH",
  c!"LEXENTRY:\tDO DURHAM\tDURHAM\tPROV\tDETACH",
  c!"LEXENTRY:\tDOR\tDORSET\tPROV\tDETACH",
  c!"LEXENTRY:\tDORSET\tDORSET\tPROV\tDETACH",
  c!"LEXENTRY:\tDOW\tCO. DOWN\tPROV\tDETACH",
  c!"LEXENTRY:\tDR\tDRIVE\tTYPE\tDET_SUF",
  c!"LEXENTRY:\tDRIVE\tDRIVE\tTYPE\tDET_SUF",
  c!"LEXENTRY:\tDROVE\tDROVE\tTYPE\tDET_SUF",
  c!"LEXENTRY:\tDUMFRIES & SHIRE\tDUMFRIES-SHIRE\tPROV\tDETACH",
  c!"LEXENTRY:\tDUMFRIES AND GALLOWAY\tDUMFRIES AND GALLOWAY\tPROV\tDETACH",
  c!"LEXENTRY:\tDUMFRIES&SHIRE\tDUMFRIES-SHIRE\tPROV\tDETACH",
  c!"LEXENTRY:\tDUMFRIES-SHIRE\tDUMFRIES-SHIRE\tPROV\tDETACH",
  c!"LEXENTRY:\tDUNBARTONSHIRE\tDUNBARTONSHIRE\tPROV\tDETACH",
  c!"LEXENTRY:\tDUR\tDURHAM\tPROV\tDETACH",
  c!"LEXENTRY:\tDURHAM\tDURHAM\tPROV\tDETACH",
  c!"LEXENTRY:\tDYFED\tDYFED\tPROV\tDETACH",
  c!"LEXENTRY:\tE\tE\tDIRECT\tDETACH",
  c!"LEXENTRY:\tE SUSSEX\tEAST SUSSEX\tPROV\tDETACH",
  c!"LEXENTRY:\tE SUSX\tEAST SUSSEX\tPROV\tDETACH",
  c!"LEXENTRY:\tEAST\tE\tDIRECT\tDETACH",
  c!"LEXENTRY:\tEAST LOTHIAN\tEAST LOTHIAN\tPROV\tDETACH",
  c!"LEXENTRY:\tEAST RIDING OF YORKSHIRE\tEAST RIDING OF YORKSHIRE\tPROV\tDETACH",
  c!"LEXENTRY:\tEAST SUSSEX\tEAST SUSSEX\tPROV\tDETACH",
  c!"LEXENTRY:\tEIGHT\t8\tNUMBER\tDETACH",
  c!"LEXENTRY:\tEIGHTEEN\t18\tNUMBER\tDETACH",
  c!"LEXENTRY:\tEIGHTEENTH\t18TH\tWORD,ORD\tDETACH",
  c!"LEXENTRY:\tEIGHTH\t8TH\tWORD,ORD\tDETACH",
  c!"LEXENTRY:\tEIGHTIETH\t80TH\tWORD,ORD\tDETACH",
  c!"LEXENTRY:\tEIGHTY\t80\tNUMBER\tDETACH",
  c!"LEXENTRY:\tELEVEN\t11\tNUMBER\tDETACH",
  c!"LEXENTRY:\tELEVENTH\t11TH\tWORD,ORD\tDETACH",
  c!"LEXENTRY:\tELN\tEAST LOTHIAN\tPROV\tDETACH",
  c!"LEXENTRY:\tEMBANKMENT\tEMBANKMENT\tTYPE\tDET_SUF",
  c!"LEXENTRY:\tEND\tEND\tTYPE\tDET_SUF",
  c!"LEXENTRY:\tENGLAND\tUNITED KINGDOM OF GREAT BRITAIN\tNATION\tDETACH",
  c!"LEXENTRY:\tERY\tEAST RIDING OF YORKSHIRE\tPROV\tDETACH",
  c!"LEXENTRY:\tESS\tESSEX\tPROV\tDETACH",
  c!"LEXENTRY:\tESSEX\tESSEX\tPROV\tDETACH",
  c!"LEXENTRY:\tESTATE\tESTATE\tTYPE\tDET_SUF",
  c!"LEXENTRY:\tF\tF\tUNITH\tDETACH",
  c!"LEXENTRY:\tFACTORY\tFY\tUNITH\tDETACH",
  c!"LEXENTRY:\tFER\tCO. FERMANAGH\tPROV\tDETACH",
  c!"LEXENTRY:\tFIELD\tFIELD\tTYPE\tDET_SUF",
  c!"LEXENTRY:\tFIELDS\tFIELDS\tTYPE\tDET_SUF",
  c!"LEXENTRY:\tFIF\tFIFE\tPROV\tDETACH",
  c!"LEXENTRY:\tFIFE\tFIFE\tPROV\tDETACH",
  c!"LEXENTRY:\tFIFTEEN\t15\tNUMBER\tDETACH",
  c!"LEXENTRY:\tFIFTEENTH\t15TH\tWORD,ORD\tDETACH"]

/-- data/sample/greatbritain.lex:252-301 -/
def entries5 : List Str := [
  c!"LEXENTRY:\tFIFTH\t5TH\tWORD,ORD\tDETACH",
  c!"LEXENTRY:\tFIFTIETH\t50TH\tWORD,ORD\tDETACH",
  c!"LEXENTRY:\tFIFTY\t50\tNUMBER\tDETACH",
  c!"LEXENTRY:\tFIRST\t1ST\tWORD,ORD\tDETACH",
  c!"LEXENTRY:\tFIVE\t5\tNUMBER\tDETACH",
  c!"LEXENTRY:\tFLAT\tF\tUNITH\tDETACH",
  c!"LEXENTRY:\tFLINTSHIRE\tFLINTSHIRE\tPROV\tDETACH",
  c!"LEXENTRY:\tFLN\tFLINTSHIRE\tPROV\tDETACH",
  c!"LEXENTRY:\tFLOOR\tFLOOR\tUNITH\tDETACH",
  c!"LEXENTRY:\tGROUND\tGROUND\tUNITT\tDETACH",
  c!"LEXENTRY:\tG\tGROUND\tUNITT\tDETACH",
  c!"LEXENTRY:\tLOWER GROUND\tLOWER GROUND\tUNITT\tDETACH",
  c!"LEXENTRY:\tLG\tLOWER GROUND\tUNITT\tDETACH",
  c!"LEXENTRY:\tUPPER GROUND\tUPPER GROUND\tUNITT\tDETACH",
  c!"LEXENTRY:\tUG\tUPPER GROUND\tUNITT\tDETACH",
  c!"LEXENTRY:\tFOLD\tFOLD\tTYPE\tDET_SUF",
  c!"LEXENTRY:\tFORTIETH\t40TH\tWORD,ORD\tDETACH",
  c!"LEXENTRY:\tFORTY\t40\tNUMBER\tDETACH",
  c!"LEXENTRY:\tFOUR\t4\tNUMBER\tDETACH",
  c!"LEXENTRY:\tFOURTEEN\t14\tNUMBER\tDETACH",
  c!"LEXENTRY:\tFOURTEENTH\t14TH\tWORD,ORD\tDETACH",
  c!"LEXENTRY:\tFOURTH\t4TH\tWORD,ORD\tDETACH",
  c!"LEXENTRY:\tFOUTH\t4TH\tWORD,ORD\tDETACH",
  c!"LEXENTRY:\tFY\tFY\tUNITH\tDETACH",
  c!"LEXENTRY:\tGARDEN\tGARDEN\tTYPE\tDET_SUF",
  c!"LEXENTRY:\tGARDENS\tGARDENS\tTYPE\tDET_SUF",
  c!"LEXENTRY:\tGATE\tGATE\tTYPE\tDET_SUF",
  c!"LEXENTRY:\tGB\tUNITED KINGDOM OF GREAT BRITAIN\tNATION\tDETACH",
  c!"LEXENTRY:\tGBR\tUNITED KINGDOM OF GREAT BRITAIN\tNATION\tDETACH",
  c!"LEXENTRY:\tGLA\tGLAMORGAN\tPROV\tDETACH",
  c!"LEXENTRY:\tGLADE\tGLADE\tTYPE\tDET_SUF",
  c!"LEXENTRY:\tGLAMORGAN\tGLAMORGAN\tPROV\tDETACH",
  c!"LEXENTRY:\tGLOS\tGLOUCESTERSHIRE\tPROV\tDETACH",
  c!"LEXENTRY:\tGLOUC\tGLOUCESTERSHIRE\tPROV\tDETACH",
  c!"LEXENTRY:\tGLOUCESTERSHIRE\tGLOUCESTERSHIRE\tPROV\tDETACH",
  c!"LEXENTRY:\tGLS\tGLOUCESTERSHIRE\tPROV\tDETACH",
  c!"LEXENTRY:\tGMP\tGRAMPIAN\tPROV\tDETACH",
  c!"LEXENTRY:\tGNT\tGWENT\tPROV\tDETACH",
  c!"LEXENTRY:\tGR\tGROVE\tTYPE\tDET_SUF",
  c!"LEXENTRY:\tGRAMP\tGRAMPIAN\tPROV\tDETACH",
  c!"LEXENTRY:\tGRAMPIAN\tGRAMPIAN\tPROV\tDETACH",
  c!"LEXENTRY:\tGRANGE\tGRANGE\tTYPE\tDET_SUF",
  c!"LEXENTRY:\tGREAT BRITAIN\tUNITED KINGDOM OF GREAT BRITAIN\tNATION\tDETACH",
  c!"LEXENTRY:\tGREATER MANCHESTER\tGREATER MANCHESTER\tPROV\tDETACH",
  c!"LEXENTRY:\tGROVE\tGROVE\tTYPE\tDET_SUF",
  c!"LEXENTRY:\tGSY\tGUERNSEY\tPROV\tDETACH",
  c!"LEXENTRY:\tGT MAN\tGREATER MANCHESTER\tPROV\tDETACH",
  c!"LEXENTRY:\tGTM\tGREATER MANCHESTER\tPROV\tDETACH",
  c!"LEXENTRY:\tGUERN\tGUERNSEY\tPROV\tDETACH",
  c!"LEXENTRY:\tGUERNSEY\tGUERNSEY\tPROV\tDETACH"]

/-- data/sample/greatbritain.lex:302-351 -/
def entries6 : List Str := [
  c!"LEXENTRY:\tGWENT\tGWENT\tPROV\tDETACH",
  c!"LEXENTRY:\tGWN\tGWYNEDD\tPROV\tDETACH",
  c!"LEXENTRY:\tGWYNEDD\tGWYNEDD\tPROV\tDETACH",
  c!"LEXENTRY:\tH & W\tHEREFORD AND WORCESTER\tPROV\tDETACH",
  c!"LEXENTRY:\tH&W\tHEREFORD AND WORCESTER\tPROV\tDETACH",
  c!"LEXENTRY:\tHAM\tHAMPSHIRE\tPROV\tDETACH",
  c!"LEXENTRY:\tHAMPSHIRE\tHAMPSHIRE\tPROV\tDETACH",
  c!"LEXENTRY:\tHANTS\tHAMPSHIRE\tPROV\tDETACH",
  c!"LEXENTRY:\tHEATH\tHEATH\tTYPE\tDET_SUF",
  c!"LEXENTRY:\tHEF\tHEREFORDSHIRE\tPROV\tDETACH",
  c!"LEXENTRY:\tHEREFORD AND WORCESTER\tHEREFORD AND WORCESTER\tPROV\tDETACH",
  c!"LEXENTRY:\tHEREFORDSHIRE\tHEREFORDSHIRE\tPROV\tDETACH",
  c!"LEXENTRY:\tHERTFORDSHIRE\tHERTFORDSHIRE\tPROV\tDETACH",
  c!"LEXENTRY:\tHERTS\tHERTFORDSHIRE\tPROV\tDETACH",
  c!"LEXENTRY:\tHIGHLAND\tHIGHLAND\tPROV\tDETACH",
  c!"LEXENTRY:\tHIGHLD\tHIGHLAND\tPROV\tDETACH",
  c!"LEXENTRY:\tHIGHWAY\tHIGHWAY\tTYPE\tDET_SUF",
  c!"LEXENTRY:\tHILL\tHILL\tTYPE\tDET_SUF",
  c!"LEXENTRY:\tHLD\tHIGHLAND\tPROV\tDETACH",
  c!"LEXENTRY:\tHOUSES\tHOUSES\tTYPE\tDET_SUF",
  c!"LEXENTRY:\tHRT\tHERTFORDSHIRE\tPROV\tDETACH",
  c!"LEXENTRY:\tHUM\tHUMBERSIDE\tPROV\tDETACH",
  c!"LEXENTRY:\tHUMB\tHUMBERSIDE\tPROV\tDETACH",
  c!"LEXENTRY:\tHUMBERSIDE\tHUMBERSIDE\tPROV\tDETACH",
  c!"LEXENTRY:\tHUN\tHUNTINGDONSHIRE\tPROV\tDETACH",
  c!"LEXENTRY:\tHUNTINGDONSHIRE\tHUNTINGDONSHIRE\tPROV\tDETACH",
  c!"LEXENTRY:\tHWR\tHEREFORD AND WORCESTER\tPROV\tDETACH",
  c!"LEXENTRY:\tHWY\tHIGHWAY\tTYPE\tDET_SUF",
  c!"LEXENTRY:\tINV\tINVERNESS-SHIRE\tPROV\tDETACH",
  c!"LEXENTRY:\tINVERNESS-SHIRE\tINVERNESS-SHIRE\tPROV\tDETACH",
  c!"LEXENTRY:\tIOM\tISLE OF MAN\tPROV\tDETACH",
  c!"LEXENTRY:\tIOS\tISLES OF SCILLY\tPROV\tDETACH",
  c!"LEXENTRY:\tIOW\tISLE OF WIGHT\tPROV\tDETACH",
  c!"LEXENTRY:\tISLE OF MAN\tISLE OF MAN\tPROV\tDETACH",
  c!"LEXENTRY:\tISLE OF WIGHT\tISLE OF WIGHT\tPROV\tDETACH",
  c!"LEXENTRY:\tISLES OF SCILLY\tISLES OF SCILLY\tPROV\tDETACH",
  c!"LEXENTRY:\tJERSEY\tJERSEY\tPROV\tDETACH",
  c!"LEXENTRY:\tJSY\tJERSEY\tPROV\tDETACH",
  c!"LEXENTRY:\tKCD\tKINCARDINESHIRE\tPROV\tDETACH",
  c!"LEXENTRY:\tKEN\tKENT\tPROV\tDETACH",
  c!"LEXENTRY:\tKENT\tKENT\tPROV\tDETACH",
  c!"LEXENTRY:\tKINCARDINESHIRE\tKINCARDINESHIRE\tPROV\tDETACH",
  c!"LEXENTRY:\tKINROSS-SHIRE\tKINROSS-SHIRE\tPROV\tDETACH",
  c!"LEXENTRY:\tKIRKCUDBRIGHTSHIRE\tKIRKCUDBRIGHTSHIRE\tPROV\tDETACH",
  c!"LEXENTRY:\tKKD\tKIRKCUDBRIGHTSHIRE\tPROV\tDETACH",
  c!"LEXENTRY:\tKRS\tKINROSS-SHIRE\tPROV\tDETACH",
  c!"LEXENTRY:\tL\tL\tUNITH\tDETACH",
  c!"LEXENTRY:\tLAN\tLANCASHIRE\tPROV\tDETACH",
  c!"LEXENTRY:\tLANARKSHIRE\tLANARKSHIRE\tPROV\tDETACH",
  c!"LEXENTRY:\tLANCASHIRE\tLANCASHIRE\tPROV\tDETACH"]

/-- data/sample/greatbritain.lex:352-401 -/
def entries7 : List Str := [
  c!"LEXENTRY:\tLANCS\tLANCASHIRE\tPROV\tDETACH",
  c!"LEXENTRY:\tLANE\tLANE\tTYPE\tDET_SUF",
  c!"LEXENTRY:\tLAWN\tLAWN\tTYPE\tDET_SUF",
  c!"LEXENTRY:\tLDY\tLONDONDERRY\tPROV\tDETACH",
  c!"LEXENTRY:\tLEI\tLEICESTERSHIRE\tPROV\tDETACH",
  c!"LEXENTRY:\tLEICESTERSHIRE\tLEICESTERSHIRE\tPROV\tDETACH",
  c!"LEXENTRY:\tLEICS\tLEICESTERSHIRE\tPROV\tDETACH",
  c!"LEXENTRY:\tLEVEL\tL\tUNITH\tDETACH",
  c!"LEXENTRY:\tLIMITED\tLIMITED\tPLACEN\tDETACH",
  c!"LEXENTRY:\tLIN\tLINCOLNSHIRE\tPROV\tDETACH",
  c!"LEXENTRY:\tLINCOLNSHIRE\tLINCOLNSHIRE\tPROV\tDETACH",
  c!"LEXENTRY:\tLINCS\tLINCOLNSHIRE\tPROV\tDETACH",
  c!"LEXENTRY:\tLKS\tLANARKSHIRE\tPROV\tDETACH",
  c!"LEXENTRY:\tLN\tLANE\tTYPE\tDET_SUF",
  c!"LEXENTRY:\tLONDON\tLONDON\tPROV\tDETACH",
  c!"LEXENTRY:\tLONDONDERRY\tLONDONDERRY\tPROV\tDETACH",
  c!"LEXENTRY:\tLOTH\tLOTHIAN\tPROV\tDETACH",
  c!"LEXENTRY:\tLOTHIAN\tLOTHIAN\tPROV\tDETACH",
  c!"LEXENTRY:\tLTD\tLTD\tPLACEN\tDETACH",
  c!"LEXENTRY:\tLTN\tLOTHIAN\tPROV\tDETACH",
  c!"LEXENTRY:\tM\tM\tUNITH\tDETACH",
  c!"LEXENTRY:\tM GLAM\tMID GLAMORGAN\tPROV\tDETACH",
  c!"LEXENTRY:\tMARINE BERTH\tMB\tUNITH\tDETACH",
  c!"LEXENTRY:\tMARKET\tMARKET\tTYPE\tDET_SUF",
  c!"LEXENTRY:\tMB\tMB\tUNITH\tDETACH",
  c!"LEXENTRY:\tMDX\tMIDDLESEX\tPROV\tDETACH",
  c!"LEXENTRY:\tMEAD\tMEADOW\tTYPE\tDET_SUF",
  c!"LEXENTRY:\tMEADOW\tMEADOW\tTYPE\tDET_SUF",
  c!"LEXENTRY:\tMEADOWS\tMEADOWS\tTYPE\tDET_SUF",
  c!"LEXENTRY:\tMER\tMERIONETHSHIRE\tPROV\tDETACH",
  c!"LEXENTRY:\tMERIONETHSHIRE\tMERIONETHSHIRE\tPROV\tDETACH",
  c!"LEXENTRY:\tMERSEYSIDE\tMERSEYSIDE\tPROV\tDETACH",
  c!"LEXENTRY:\tMERSYD\tMERSEYSIDE\tPROV\tDETACH",
  c!"LEXENTRY:\tMEWS\tMEWS\tTYPE\tDET_SUF",
  c!"LEXENTRY:\tMEZZANINE\tM\tUNITH\tDETACH",
  c!"LEXENTRY:\tMGM\tMID GLAMORGAN\tPROV\tDETACH",
  c!"LEXENTRY:\tMGY\tMONTGOMERYSHIRE\tPROV\tDETACH",
  c!"LEXENTRY:\tMID GLAMORGAN\tMID GLAMORGAN\tPROV\tDETACH",
  c!"LEXENTRY:\tMIDDLESEX\tMIDDLESEX\tPROV\tDETACH",
  c!"LEXENTRY:\tMIDDX\tMIDDLESEX\tPROV\tDETACH",
  c!"LEXENTRY:\tMIDLOTHIAN\tMIDLOTHIAN\tPROV\tDETACH",
  c!"LEXENTRY:\tMLN\tMIDLOTHIAN\tPROV\tDETACH",
  c!"LEXENTRY:\tMON\tMONMOUTHSHIRE\tPROV\tDETACH",
  c!"LEXENTRY:\tMONMOUTHSHIRE\tMONMOUTHSHIRE\tPROV\tDETACH",
  c!"LEXENTRY:\tMONTGOMERYSHIRE\tMONTGOMERYSHIRE\tPROV\tDETACH",
  c!"LEXENTRY:\tMOR\tMORAYSHIRE\tPROV\tDETACH",
  c!"LEXENTRY:\tMORAYSHIRE\tMORAYSHIRE\tPROV\tDETACH",
  c!"LEXENTRY:\tMOUNT\tMOUNT\tTYPE\tDET_SUF",
  c!"LEXENTRY:\tMSY\tMERSEYSIDE\tPROV\tDETACH",
  c!"LEXENTRY:\tN\tN\tDIRECT\tDETACH"]

/-- data/sample/greatbritain.lex:402-451 -/
def entries8 : List Str := [
  c!"LEXENTRY:\tN HUMB\tN HUMBERSIDE\tPROV\tDETACH",
  c!"LEXENTRY:\tN YORK\tNORTH YORKSHIRE\tPROV\tDETACH",
  c!"LEXENTRY:\tN YORKSHIRE\tNORTH YORKSHIRE\tPROV\tDETACH",
  c!"LEXENTRY:\tNAI\tNAIRN\tPROV\tDETACH",
  c!"LEXENTRY:\tNAIRN\tNAIRN\tPROV\tDETACH",
  c!"LEXENTRY:\tNBL\tNORTHUMBERLAND\tPROV\tDETACH",
  c!"LEXENTRY:\tNE\tNE\tDIRECT\tDETACH",
  c!"LEXENTRY:\tNFK\tNORFOLK\tPROV\tDETACH",
  c!"LEXENTRY:\tNHANTS\tNORTHAMPTONSHIRE\tPROV\tDETACH",
  c!"LEXENTRY:\tNINE\t9\tNUMBER\tDETACH",
  c!"LEXENTRY:\tNINETEEN\t19\tNUMBER\tDETACH",
  c!"LEXENTRY:\tNINETEENTH\t19TH\tWORD,ORD\tDETACH",
  c!"LEXENTRY:\tNINETIETH\t90TH\tWORD,ORD\tDETACH",
  c!"LEXENTRY:\tNINETY\t90\tNUMBER\tDETACH",
  c!"LEXENTRY:\tNINTH\t9TH\tWORD,ORD\tDETACH",
  c!"LEXENTRY:\tNORFK\tNORFOLK\tPROV\tDETACH",
  c!"LEXENTRY:\tNORFOLK\tNORFOLK\tPROV\tDETACH",
  c!"LEXENTRY:\tNORTH\tN\tDIRECT\tDETACH",
  c!"LEXENTRY:\tNORTH HUMBERSIDE\tN HUMBERSIDE\tPROV\tDETACH",
  c!"LEXENTRY:\tNORTH IRELAND\tUNITED KINGDOM OF GREAT BRITAIN\tNATION\tDETACH",
  c!"LEXENTRY:\tNORTH RIDING OF YORKSHIRE\tNORTH RIDING OF YORKSHIRE\tPROV\tDETACH",
  c!"LEXENTRY:\tNORTH YORKSHIRE\tNORTH YORKSHIRE\tPROV\tDETACH",
  c!"LEXENTRY:\tNORTHAMPTONSHIRE\tNORTHAMPTONSHIRE\tPROV\tDETACH",
  c!"LEXENTRY:\tNORTHANTS\tNORTHAMPTONSHIRE\tPROV\tDETACH",
  c!"LEXENTRY:\tNORTHD\tNORTHAMPTONSHIRE\tPROV\tDETACH",
  c!"LEXENTRY:\tNORTHEAST\tNE\tDIRECT\tDETACH",
  c!"LEXENTRY:\tNORTHUMBERLAND\tNORTHUMBERLAND\tPROV\tDETACH",
  c!"LEXENTRY:\tNORTHWEST\tNW\tDIRECT\tDETACH",
  c!"LEXENTRY:\tNOTTINGHAMSHIRE\tNOTTINGHAMSHIRE\tPROV\tDETACH",
  c!"LEXENTRY:\tNOTTS\tNOTTINGHAMSHIRE\tPROV\tDETACH",
  c!"LEXENTRY:\tNRY\tNORTH RIDING OF YORKSHIRE\tPROV\tDETACH",
  c!"LEXENTRY:\tNTH\tNORTHAMPTONSHIRE\tPROV\tDETACH",
  c!"LEXENTRY:\tNTHUMB\tNORTHUMBERLAND\tPROV\tDETACH",
  c!"LEXENTRY:\tNTT\tNOTTINGHAMSHIRE\tPROV\tDETACH",
  c!"LEXENTRY:\tNW\tNW\tDIRECT\tDETACH",
  c!"LEXENTRY:\tNYK\tNORTH YORKSHIRE\tPROV\tDETACH",
  c!"LEXENTRY:\tOFF\tOFF\tUNITH\tDETACH",
  c!"LEXENTRY:\tOFFICE\tOFF\tUNITH\tDETACH",
  c!"LEXENTRY:\tOKI\tORKNEY\tPROV\tDETACH",
  c!"LEXENTRY:\tONE\t1\tNUMBER\tDETACH",
  c!"LEXENTRY:\tORCHARD\tORCHARD\tTYPE\tDET_SUF",
  c!"LEXENTRY:\tORK\tORKNEY\tPROV\tDETACH",
  c!"LEXENTRY:\tORKNEY\tORKNEY\tPROV\tDETACH",
  c!"LEXENTRY:\tOVAL\tOVAL\tTYPE\tDET_SUF",
  c!"LEXENTRY:\tOXF\tOXFORDSHIRE\tPROV\tDETACH",
  c!"LEXENTRY:\tOXFORDSHIRE\tOXFORDSHIRE\tPROV\tDETACH",
  c!"LEXENTRY:\tOXON\tOXFORDSHIRE\tPROV\tDETACH",
  c!"LEXENTRY:\tP.O.\tPO BOX\tBOXH\tDETACH",
  c!"LEXENTRY:\tP.O. BOX\tPO BOX\tBOXH\tDETACH",
  c!"LEXENTRY:\tPADDOCK\tPADDOCK\tTYPE\tDET_SUF"]

/-- data/sample/greatbritain.lex:452-501 -/
def entries9 : List Str := [
  c!"LEXENTRY:\tPARADE\tPARADE\tTYPE\tDET_SUF",
  c!"LEXENTRY:\tPARK\tPARK\tTYPE\tDET_SUF",
  c!"LEXENTRY:\tPARKWAY\tPARKWAY\tTYPE\tDET_SUF",
  c!"LEXENTRY:\tPARTNERSHIP\tPARTNERSHIP\tPLACEN\tDETACH",
  c!"LEXENTRY:\tPASSAGE\tPASSAGE\tTYPE\tDET_SUF",
  c!"LEXENTRY:\tPATH\tPATH\tTYPE\tDET_SUF",
  c!"LEXENTRY:\tPDE\tPARADE\tTYPE\tDET_SUF",
  c!"LEXENTRY:\tPEE\tPEEBLES-SHIRE\tPROV\tDETACH",
  c!"LEXENTRY:\tPEEBLES-SHIRE\tPEEBLES-SHIRE\tPROV\tDETACH",
  c!"LEXENTRY:\tPEM\tPEMBROKESHIRE\tPROV\tDETACH",
  c!"LEXENTRY:\tPEMBROKESHIRE\tPEMBROKESHIRE\tPROV\tDETACH",
  c!"LEXENTRY:\tPER\tPERTH\tPROV\tDETACH",
  c!"LEXENTRY:\tPERTH\tPERTH\tPROV\tDETACH",
  c!"LEXENTRY:\tPK\tPARK\tTYPE\tDET_SUF",
  c!"LEXENTRY:\tPKWY\tPARKWAY\tTYPE\tDET_SUF",
  c!"LEXENTRY:\tPL\tPLACE\tTYPE\tDET_SUF",
  c!"LEXENTRY:\tPLACE\tPLACE\tTYPE\tDET_SUF",
  c!"LEXENTRY:\tPLC\tPLC\tPLACEN\tDETACH",
  c!"LEXENTRY:\tPO\tPO BOX\tBOXH\tDETACH",
  c!"LEXENTRY:\tPO BOX\tPO BOX\tBOXH\tDETACH",
  c!"LEXENTRY:\tPOST OFFICE BOX\tPO BOX\tBOXH\tDETACH",
  c!"LEXENTRY:\tPOW\tPOWYS\tPROV\tDETACH",
  c!"LEXENTRY:\tPOWYS\tPOWYS\tPROV\tDETACH",
  c!"LEXENTRY:\tPRECINCT\tPRECINCT\tTYPE\tDET_SUF",
  c!"LEXENTRY:\tPROMENADE\tPROMENADE\tTYPE\tDET_SUF",
  c!"LEXENTRY:\tPROPRIETORSHIP\tPROPRIETORSHIP\tPLACEN\tDETACH",
  c!"LEXENTRY:\tQUAY\tQUAY\tTYPE\tDET_SUF",
  c!"LEXENTRY:\tQUAY \tQUAY\tTYPE\tDET_SUF",
  c!"LEXENTRY:\tRAD\tRADNORSHIRE\tPROV\tDETACH",
  c!"LEXENTRY:\tRADNORSHIRE\tRADNORSHIRE\tPROV\tDETACH",
  c!"LEXENTRY:\tRD\tROAD\tTYPE\tDET_SUF",
  c!"LEXENTRY:\tRENFREWSHIRE\tRENFREWSHIRE\tPROV\tDETACH",
  c!"LEXENTRY:\tRFW\tRENFREWSHIRE\tPROV\tDETACH",
  c!"LEXENTRY:\tRIDE\tRIDE\tTYPE\tDET_SUF",
  c!"LEXENTRY:\tRIDGE\tRIDGE\tTYPE\tDET_SUF",
  c!"LEXENTRY:\tRISE\tRISE\tTYPE\tDET_SUF",
  c!"LEXENTRY:\tRM\tRM\tUNITH\tDETACH",
  c!"LEXENTRY:\tROAD\tROAD\tTYPE\tDET_SUF",
  c!"LEXENTRY:\tROC\tROSS AND CROMARTY\tPROV\tDETACH",
  c!"LEXENTRY:\tROOM\tRM\tUNITH\tDETACH",
  c!"LEXENTRY:\tROSS AND CROMARTY\tROSS AND CROMARTY\tPROV\tDETACH",
  c!"LEXENTRY:\tROW\tROW\tTYPE\tDET_SUF",
  c!"LEXENTRY:\tROX\tROXBURGHSHIRE\tPROV\tDETACH",
  c!"LEXENTRY:\tROXBURGHSHIRE\tROXBURGHSHIRE\tPROV\tDETACH",
  c!"LEXENTRY:\tRUT\tRUTLAND\tPROV\tDETACH",
  c!"LEXENTRY:\tRUTLAND\tRUTLAND\tPROV\tDETACH",
  c!"LEXENTRY:\tS\tS\tDIRECT\tDETACH",
  c!"LEXENTRY:\tS GLAM\tSOUTH GLAMORGAN\tPROV\tDETACH",
  c!"LEXENTRY:\tS HUMB\tS HUMBERSIDE\tPROV\tDETACH",
  c!"LEXENTRY:\tS YORK\tSOUTH YORKSHIRE\tPROV\tDETACH"]

/-- data/sample/greatbritain.lex:502-551 -/
def entries10 : List Str := [
  c!"LEXENTRY:\tS YORKSHIRE\tSOUTH YORKSHIRE\tPROV\tDETACH",
  c!"LEXENTRY:\tSAINT\tST\tWORD\tDETACH",
  c!"LEXENTRY:\tSAL\tSHROPSHIRE\tPROV\tDETACH",
  c!"LEXENTRY:\tSARK\tSARK\tPROV\tDETACH",
  c!"LEXENTRY:\tSCOTLAND\tUNITED KINGDOM OF GREAT BRITAIN\tNATION\tDETACH",
  c!"LEXENTRY:\tSE\tSE\tDIRECT,UNITH\tDETACH",
  c!"LEXENTRY:\tSECOND\t2ND\tWORD,ORD\tDETACH",
  c!"LEXENTRY:\tSEL\tSELKIRKSHIRE\tPROV\tDETACH",
  c!"LEXENTRY:\tSELKIRKSHIRE\tSELKIRKSHIRE\tPROV\tDETACH",
  c!"LEXENTRY:\tSEVEN\t7\tNUMBER\tDETACH",
  c!"LEXENTRY:\tSEVENTEEN\t17\tNUMBER\tDETACH",
  c!"LEXENTRY:\tSEVENTEENTH\t17TH\tWORD,ORD\tDETACH",
  c!"LEXENTRY:\tSEVENTH\t7TH\tWORD,ORD\tDETACH",
  c!"LEXENTRY:\tSEVENTIETH\t70TH\tWORD,ORD\tDETACH",
  c!"LEXENTRY:\tSEVENTY\t70\tNUMBER\tDETACH",
  c!"LEXENTRY:\tSFK\tSUFFOLK\tPROV\tDETACH",
  c!"LEXENTRY:\tSGM\tSOUTH GLAMORGAN\tPROV\tDETACH",
  c!"LEXENTRY:\tSHED\tSHED\tUNITH\tDETACH",
  c!"LEXENTRY:\tSHED \tSHED\tUNITH\tDETACH",
  c!"LEXENTRY:\tSHET\tSHETLAND\tPROV\tDETACH",
  c!"LEXENTRY:\tSHETLAND\tSHETLAND\tPROV\tDETACH",
  c!"LEXENTRY:\tSHI\tSHETLAND\tPROV\tDETACH",
  c!"LEXENTRY:\tSHOP\tSHOP\tUNITH\tDETACH",
  c!"LEXENTRY:\tSHROPS\tSHROPSHIRE\tPROV\tDETACH",
  c!"LEXENTRY:\tSHROPSHIRE\tSHROPSHIRE\tPROV\tDETACH",
  c!"LEXENTRY:\tSITE\tSITE\tUNITH\tDETACH",
  c!"LEXENTRY:\tSITE\tSE\tUNITH\tDETACH",
  c!"LEXENTRY:\tSIX\t6\tNUMBER\tDETACH",
  c!"LEXENTRY:\tSIXTEEN\t16\tNUMBER\tDETACH",
  c!"LEXENTRY:\tSIXTEENTH\t16TH\tWORD,ORD\tDETACH",
  c!"LEXENTRY:\tSIXTH\t6TH\tWORD,ORD\tDETACH",
  c!"LEXENTRY:\tSIXTIETH\t60TH\tWORD,ORD\tDETACH",
  c!"LEXENTRY:\tSIXTY\t60\tNUMBER\tDETACH",
  c!"LEXENTRY:\tSL\tSL\tUNITH\tDETACH",
  c!"LEXENTRY:\tSOCIETY\tSOCIETY\tPLACEN\tDETACH",
  c!"LEXENTRY:\tSOM\tSOMERSETSHIRE\tPROV\tDETACH",
  c!"LEXENTRY:\tSOMERSET\tSOMERSETSHIRE\tPROV\tDETACH",
  c!"LEXENTRY:\tSOMERSETSHIRE\tSOMERSETSHIRE\tPROV\tDETACH",
  c!"LEXENTRY:\tSOMSET\tSOMERSETSHIRE\tPROV\tDETACH",
  c!"LEXENTRY:\tSOUTH\tS\tDIRECT\tDETACH",
  c!"LEXENTRY:\tSOUTH GLAMORGAN\tSOUTH GLAMORGAN\tPROV\tDETACH",
  c!"LEXENTRY:\tSOUTH HUMBERSIDE\tS HUMBERSIDE\tPROV\tDETACH",
  c!"LEXENTRY:\tSOUTH YORKSHIRE\tSOUTH YORKSHIRE\tPROV\tDETACH",
  c!"LEXENTRY:\tSOUTHEAST\tSE\tDIRECT\tDETACH",
  c!"LEXENTRY:\tSOUTHWEST\tSW\tDIRECT\tDETACH",
  c!"LEXENTRY:\tSQ\tSQUARE\tTYPE\tDET_SUF",
  c!"LEXENTRY:\tSQUARE\tSQUARE\tTYPE\tDET_SUF",
  c!"LEXENTRY:\tSRK\tSARK\tPROV\tDETACH",
  c!"LEXENTRY:\tSRY\tSURREY\tPROV\tDETACH",
  c!"LEXENTRY:\tSSX\tSUSSEX\tPROV\tDETACH"]

/-- data/sample/greatbritain.lex:552-601 -/
def entries11 : List Str := [
  c!"LEXENTRY:\tST\tSTREET\tTYPE\tDET_SUF",
  c!"LEXENTRY:\tST\tST\tWORD\tDETACH",
  c!"LEXENTRY:\tST.\tST\tWORD\tDETACH",
  c!"LEXENTRY:\tSTAFFORDSHIRE\tSTAFFORDSHIRE\tPROV\tDETACH",
  c!"LEXENTRY:\tSTAFFS\tSTAFFORDSHIRE\tPROV\tDETACH",
  c!"LEXENTRY:\tSTALL\tSL\tUNITH\tDETACH",
  c!"LEXENTRY:\tSTD\tSTRATHCLYDE\tPROV\tDETACH",
  c!"LEXENTRY:\tSTE\tSTE\tUNITH\tDETACH",
  c!"LEXENTRY:\tSTI\tSTIRLINGSHIRE\tPROV\tDETACH",
  c!"LEXENTRY:\tSTIRLINGSHIRE\tSTIRLINGSHIRE\tPROV\tDETACH",
  c!"LEXENTRY:\tSTR\tSTREET\tTYPE\tDET_SUF",
  c!"LEXENTRY:\tSTRAND\tSTRAND\tTYPE\tDET_SUF",
  c!"LEXENTRY:\tSTRATH\tSTRATHCLYDE\tPROV\tDETACH",
  c!"LEXENTRY:\tSTRATHCLYDE\tSTRATHCLYDE\tPROV\tDETACH",
  c!"LEXENTRY:\tSTREET\tSTREET\tTYPE\tDET_SUF",
  c!"LEXENTRY:\tSTS\tSTAFFORDSHIRE\tPROV\tDETACH",
  c!"LEXENTRY:\tSUFFK\tSUFFOLK\tPROV\tDETACH",
  c!"LEXENTRY:\tSUFFOLK\tSUFFOLK\tPROV\tDETACH",
  c!"LEXENTRY:\tSUITE\tSTE\tUNITH\tDETACH",
  c!"LEXENTRY:\tSURREY\tSURREY\tPROV\tDETACH",
  c!"LEXENTRY:\tSUSSEX\tSUSSEX\tPROV\tDETACH",
  c!"LEXENTRY:\tSUT\tSUTHERLAND\tPROV\tDETACH",
  c!"LEXENTRY:\tSUTHERLAND\tSUTHERLAND\tPROV\tDETACH",
  c!"LEXENTRY:\tSW\tSW\tDIRECT\tDETACH",
  c!"LEXENTRY:\tSXE\tEAST SUSSEX\tPROV\tDETACH",
  c!"LEXENTRY:\tSXW\tWEST SUSSEX\tPROV\tDETACH",
  c!"LEXENTRY:\tSYK\tSOUTH YORKSHIRE\tPROV\tDETACH",
  c!"LEXENTRY:\tT & W\tTYNE AND WEAR\tPROV\tDETACH",
  c!"LEXENTRY:\tT&W\tTYNE AND WEAR\tPROV\tDETACH",
  c!"LEXENTRY:\tTAY\tTAYSIDE\tPROV\tDETACH",
  c!"LEXENTRY:\tTAYS\tTAYSIDE\tPROV\tDETACH",
  c!"LEXENTRY:\tTAYSIDE\tTAYSIDE\tPROV\tDETACH",
  c!"LEXENTRY:\tTCE\tTERRACE\tTYPE\tDET_SUF",
  c!"LEXENTRY:\tTEN\t10\tNUMBER\tDETACH",
  c!"LEXENTRY:\tTENTH\t10TH\tWORD,ORD\tDETACH",
  c!"LEXENTRY:\tTERRACE\tTERRACE\tTYPE\tDET_SUF",
  c!"LEXENTRY:\tTHIRD\t3RD\tWORD,ORD\tDETACH",
  c!"LEXENTRY:\tTHIRTEEN\t13\tNUMBER\tDETACH",
  c!"LEXENTRY:\tTHIRTEENTH\t13TH\tWORD,ORD\tDETACH",
  c!"LEXENTRY:\tTHIRTIETH\t30TH\tWORD,ORD\tDETACH",
  c!"LEXENTRY:\tTHIRTY\t30\tNUMBER\tDETACH",
  c!"LEXENTRY:\tTHREE\t3\tNUMBER\tDETACH",
  c!"LEXENTRY:\tTOWER\tTOWER\tPLACEN,WORD\tDETACH",
  c!"LEXENTRY:\tTUNNEL\tTUNNEL\tTYPE\tDET_SUF",
  c!"LEXENTRY:\tTWELFTH\t12TH\tWORD,ORD\tDETACH",
  c!"LEXENTRY:\tTWELVE\t12\tNUMBER\tDETACH",
  c!"LEXENTRY:\tTWENTIETH\t20TH\tWORD,ORD\tDETACH",
  c!"LEXENTRY:\tTWENTY\t20\tNUMBER\tDETACH",
  c!"LEXENTRY:\tTWO\t2\tNUMBER\tDETACH",
  c!"LEXENTRY:\tTWR\tTYNE AND WEAR\tPROV\tDETACH"]

/-- data/sample/greatbritain.lex:602-651 -/
def entries12 : List Str := [
  c!"LEXENTRY:\tTYNE & WEAR\tTYNE AND WEAR\tPROV\tDETACH",
  c!"LEXENTRY:\tTYNE AND WEAR\tTYNE AND WEAR\tPROV\tDETACH",
  c!"LEXENTRY:\tTYR\tCO. TYRONE\tPROV\tDETACH",
  c!"LEXENTRY:\tU\tU\tUNITH\tDETACH",
  c!"LEXENTRY:\tUK\tUNITED KINGDOM OF GREAT BRITAIN\tNATION\tDETACH",
  c!"LEXENTRY:\tUNIT\tU\tUNITH\tDETACH",
  c!"LEXENTRY:\tUNITED KINGDOM\tUNITED KINGDOM OF GREAT BRITAIN\tNATION\tDETACH",
  c!"LEXENTRY:\tUNITED KINGDOM OF GREAT BRITAIN\tUNITED KINGDOM OF GREAT BRITAIN\tNATION\tDETACH",
  c!"LEXENTRY:\tVALE\tVALE\tTYPE\tDET_SUF",
  c!"LEXENTRY:\tVALLEY\tVALLEY\tTYPE\tDET_SUF",
  c!"LEXENTRY:\tVIEW\tVIEW\tTYPE\tDET_SUF",
  c!"LEXENTRY:\tVILLA\tVLLA\tUNITH\tDETACH",
  c!"LEXENTRY:\tVILLAS\tVILLAS\tTYPE\tDET_SUF",
  c!"LEXENTRY:\tVLLA\tVLLA\tUNITH\tDETACH",
  c!"LEXENTRY:\tW\tW\tDIRECT\tDETACH",
  c!"LEXENTRY:\tW GLAM\tWEST GLAMORGAN\tPROV\tDETACH",
  c!"LEXENTRY:\tW ISLS\tWESTERN ISLES\tPROV\tDETACH",
  c!"LEXENTRY:\tW MIDLANDS\tWEST MIDLANDS\tPROV\tDETACH",
  c!"LEXENTRY:\tW MIDS\tWEST MIDLANDS\tPROV\tDETACH",
  c!"LEXENTRY:\tW SUSSEX\tWEST SUSSEX\tPROV\tDETACH",
  c!"LEXENTRY:\tW SUSX\tWEST SUSSEX\tPROV\tDETACH",
  c!"LEXENTRY:\tW YORK\tWEST YORKSHIRE\tPROV\tDETACH",
  c!"LEXENTRY:\tW YORKSHIRE\tWEST YORKSHIRE\tPROV\tDETACH",
  c!"LEXENTRY:\tWALES\tUNITED KINGDOM OF GREAT BRITAIN\tNATION\tDETACH",
  c!"LEXENTRY:\tWALK\tWALK\tTYPE\tDET_SUF",
  c!"LEXENTRY:\tWALL\tWALL\tTYPE\tDET_SUF",
  c!"LEXENTRY:\tWAR\tWARWICKSHIRE\tPROV\tDETACH",
  c!"LEXENTRY:\tWAREHOUSE\tWE\tUNITH\tDETACH",
  c!"LEXENTRY:\tWARKS\tWARWICKSHIRE\tPROV\tDETACH",
  c!"LEXENTRY:\tWARWICKSHIRE\tWARWICKSHIRE\tPROV\tDETACH",
  c!"LEXENTRY:\tWARWKS\tWARWICKSHIRE\tPROV\tDETACH",
  c!"LEXENTRY:\tWAY\tWAY\tTYPE\tDET_SUF",
  c!"LEXENTRY:\tWE\tWE\tUNITH\tDETACH",
  c!"LEXENTRY:\tWES\tWESTMORLAND\tPROV\tDETACH",
  c!"LEXENTRY:\tWEST\tW\tDIRECT\tDETACH",
  c!"LEXENTRY:\tWEST GLAMORGAN\tWEST GLAMORGAN\tPROV\tDETACH",
  c!"LEXENTRY:\tWEST LOTHIAN\tWEST LOTHIAN\tPROV\tDETACH",
  c!"LEXENTRY:\tWEST MIDLANDS\tWEST MIDLANDS\tPROV\tDETACH",
  c!"LEXENTRY:\tWEST RIDING OF YORKSHIRE\tWEST RIDING OF YORKSHIRE\tPROV\tDETACH",
  c!"LEXENTRY:\tWEST SUSSEX\tWEST SUSSEX\tPROV\tDETACH",
  c!"LEXENTRY:\tWEST YORKSHIRE\tWEST YORKSHIRE\tPROV\tDETACH",
  c!"LEXENTRY:\tWESTERN ISLES\tWESTERN ISLES\tPROV\tDETACH",
  c!"LEXENTRY:\tWESTMORLAND\tWESTMORLAND\tPROV\tDETACH",
  c!"LEXENTRY:\tWGM\tWEST GLAMORGAN\tPROV\tDETACH",
  c!"LEXENTRY:\tWHARF\tWHARF\tTYPE\tDET_SUF",
  c!"LEXENTRY:\tWIG\tWIGTOWNSHIRE\tPROV\tDETACH",
  c!"LEXENTRY:\tWIGTOWNSHIRE\tWIGTOWNSHIRE\tPROV\tDETACH",
  c!"LEXENTRY:\tWIL\tWILTSHIRE\tPROV\tDETACH",
  c!"LEXENTRY:\tWILTS\tWILTSHIRE\tPROV\tDETACH",
  c!"LEXENTRY:\tWILTSHIRE\tWILTSHIRE\tPROV\tDETACH"]

/-- data/sample/greatbritain.lex:652-662 -/
def entries13 : List Str := [
  c!"LEXENTRY:\tWIS\tWESTERN ISLES\tPROV\tDETACH",
  c!"LEXENTRY:\tWLN\tWEST LOTHIAN\tPROV\tDETACH",
  c!"LEXENTRY:\tWMD\tWEST MIDLANDS\tPROV\tDETACH",
  c!"LEXENTRY:\tWOR\tWORCESTERSHIRE\tPROV\tDETACH",
  c!"LEXENTRY:\tWORCESTERSHIRE\tWORCESTERSHIRE\tPROV\tDETACH",
  c!"LEXENTRY:\tWORCS\tWORCESTERSHIRE\tPROV\tDETACH",
  c!"LEXENTRY:\tWRY\tWEST RIDING OF YORKSHIRE\tPROV\tDETACH",
  c!"LEXENTRY:\tWYK\tWEST YORKSHIRE\tPROV\tDETACH",
  c!"LEXENTRY:\tYARD\tYARD\tTYPE\tDET_SUF",
  c!"LEXENTRY:\tYKS\tYORKSHIRE\tPROV\tDETACH",
  c!"LEXENTRY:\tYORKSHIRE\tYORKSHIRE\tPROV\tDETACH"]

/-- The text, and what is claimed of it. -/
def lexicon : LexSample where
  header := c!"LEXICON:\tlex-greatbritain.txt\tENG\ten_UK"
  body := entries0 ++ entries1 ++ entries2 ++ entries3 ++ entries4 ++ entries5 ++ entries6 ++ entries7 ++ entries8
     ++ entries9 ++ entries10 ++ entries11 ++ entries12 ++ entries13
  lang := .ENG
  locale := c!"en_UK"
  classes := [
    .NUMBER, .WORD, .ORD, .PROV, .TYPE, .UNITH, .SINGLE, .NATION, .PLACEN, .DIRECT, .UNITT, .BOXH]

set_option maxRecDepth 1000000 in
theorem lexicon_checked : checkLex lexicon [0, 2, 2, 54, 59, 65, 82, 102, 148, 218, 259, 447] = true := by decide +kernel

/-- What of the grammar cannot match. -/
def pair : Pair where
  sample := sample
  lexicon := lexicon
  idle := [
    c!"BUILDT -> BLDNG -> 0.4",
    c!"@prefix @road @basename @suffix",
    c!"@prefix @road @basename",
    c!"@road @basename @suffix",
    c!"@road @basename",
    c!"QUALIF DIRECT -> QUALIF PREDIR -> 0.8",
    c!"DIRECT QUALIF -> PREDIR QUALIF -> 0.8",
    c!"QUALIF -> QUALIF -> 0.8",
    c!"DIRECT QUALIF -> SUFDIR QUALIF -> 0.8",
    c!"QUALIF DIRECT -> QUALIF SUFDIR -> 0.8",
    c!"[road]",
    c!"PROV ROAD -> EXTRA PRETYP -> 0.8",
    c!"ROAD -> PRETYP -> 0.8",
    c!"DIRECT CITY -> CITY CITY -> 0.6",
    c!"CITY -> CITY -> 0.8"]
  null := [.qual, .ruralroute, .extra]

/-- What shows it. -/
def pairCert : PairCert where
  dead := [.BUILDT, .CITY, .QUALIF, .ROAD]
  barren := [c!"road"]
  reach := [
    c!"ADDRESS", c!"micro", c!"macro", c!"building", c!"housenumber", c!"street", c!"unit", c!"pobox",
    c!"city", c!"prov", c!"postal", c!"country", c!"buildt", c!"buildn", c!"prefixtype", c!"basename",
    c!"suffixtype", c!"prefix", c!"ptype", c!"stype", c!"suffix"]

set_option maxRecDepth 100000 in
theorem pair_checked : checkPair pair pairCert = true := by decide +kernel

end AS.Sample.Greatbritain
