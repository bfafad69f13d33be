import Verif.Lemmas.LexCheck
import Verif.Lemmas.PairCheck
import Verif.Sample.Australia
/-
The lexicon data/sample/australia.lex (all 293 lines), and what of australia.gmr cannot match with it. Written by
tools/lexicons.py.
-/
namespace AS.Sample.Australia

/-- data/sample/australia.lex:2-51 -/
def entries0 : List Str := [
  c!"LEXENTRY:\t1\t1\tNUMBER\tDETACH",
  c!"LEXENTRY:\t10\t10\tNUMBER\tDETACH",
  c!"LEXENTRY:\t10TH\t10TH\tWORD,ORD\tDETACH",
  c!"LEXENTRY:\t11\t11\tNUMBER\tDETACH",
  c!"LEXENTRY:\t11TH\t11TH\tWORD,ORD\tDETACH",
  c!"LEXENTRY:\t12\t12\tNUMBER\tDETACH",
  c!"LEXENTRY:\t12TH\t12TH\tWORD,ORD\tDETACH",
  c!"LEXENTRY:\t13\t13\tNUMBER\tDETACH",
  c!"LEXENTRY:\t13TH\t13TH\tWORD,ORD\tDETACH",
  c!"LEXENTRY:\t14\t14\tNUMBER\tDETACH",
  c!"LEXENTRY:\t14TH\t14TH\tWORD,ORD\tDETACH",
  c!"LEXENTRY:\t15\t15\tNUMBER\tDETACH",
  c!"LEXENTRY:\t15TH\t15TH\tWORD,ORD\tDETACH",
  c!"LEXENTRY:\t16\t16\tNUMBER\tDETACH",
  c!"LEXENTRY:\t16TH\t16TH\tWORD,ORD\tDETACH",
  c!"LEXENTRY:\t17\t17\tNUMBER\tDETACH",
  c!"LEXENTRY:\t17TH\t17TH\tWORD,ORD\tDETACH",
  c!"LEXENTRY:\t18\t18\tNUMBER\tDETACH",
  c!"LEXENTRY:\t18TH\t18TH\tWORD,ORD\tDETACH",
  c!"LEXENTRY:\t19\t19\tNUMBER\tDETACH",
  c!"LEXENTRY:\t19TH\t19TH\tWORD,ORD\tDETACH",
  c!"LEXENTRY:\t1ST\t1ST\tWORD,ORD\tDETACH",
  c!"LEXENTRY:\t2\t2\tNUMBER\tDETACH",
  c!"LEXENTRY:\t20\t20\tNUMBER\tDETACH",
  c!"LEXENTRY:\t20TH\t20TH\tWORD,ORD\tDETACH",
  c!"LEXENTRY:\t2ND\t2ND\tWORD,ORD\tDETACH",
  c!"LEXENTRY:\t3\t3\tNUMBER\tDETACH",
  c!"LEXENTRY:\t30\t30\tNUMBER\tDETACH",
  c!"LEXENTRY:\t30TH\t30TH\tWORD,ORD\tDETACH",
  c!"LEXENTRY:\t3RD\t3RD\tWORD,ORD\tDETACH",
  c!"LEXENTRY:\t4\t4\tNUMBER\tDETACH",
  c!"LEXENTRY:\t40\t40\tNUMBER\tDETACH",
  c!"LEXENTRY:\t40TH\t40TH\tWORD,ORD\tDETACH",
  c!"LEXENTRY:\t4TH\t4TH\tWORD,ORD\tDETACH",
  c!"LEXENTRY:\t5\t5\tNUMBER\tDETACH",
  c!"LEXENTRY:\t50\t50\tNUMBER\tDETACH",
  c!"LEXENTRY:\t50TH\t50TH\tWORD,ORD\tDETACH",
  c!"LEXENTRY:\t5TH\t5TH\tWORD,ORD\tDETACH",
  c!"LEXENTRY:\t6\t6\tNUMBER\tDETACH",
  c!"LEXENTRY:\t60\t60\tNUMBER\tDETACH",
  c!"LEXENTRY:\t60TH\t60TH\tWORD,ORD\tDETACH",
  c!"LEXENTRY:\t6TH\t6TH\tWORD,ORD\tDETACH",
  c!"LEXENTRY:\t7\t7\tNUMBER\tDETACH",
  c!"LEXENTRY:\t70\t70\tNUMBER\tDETACH",
  c!"LEXENTRY:\t70TH\t70TH\tWORD,ORD\tDETACH",
  c!"LEXENTRY:\t7TH\t7TH\tWORD,ORD\tDETACH",
  c!"LEXENTRY:\t8\t8\tNUMBER\tDETACH",
  c!"LEXENTRY:\t80\t80\tNUMBER\tDETACH",
  c!"LEXENTRY:\t80TH\t80TH\tWORD,ORD\tDETACH",
  c!"LEXENTRY:\t8TH\t8TH\tWORD,ORD\tDETACH"]

/-- data/sample/australia.lex:52-101 -/
def entries1 : List Str := [
  c!"LEXENTRY:\t9\t9\tNUMBER\tDETACH",
  c!"LEXENTRY:\t90\t90\tNUMBER\tDETACH",
  c!"LEXENTRY:\t90TH\t90TH\tWORD,ORD\tDETACH",
  c!"LEXENTRY:\t9TH\t9TH\tWORD,ORD\tDETACH",
  c!"LEXENTRY:\tACADEMY\tACADEMY\tPLACEN\tDETACH",
  c!"LEXENTRY:\tACT\tAUSTRALIAN CAPITAL TERRITORY\tPROV\tDETACH",
  c!"LEXENTRY:\tAGENCY\tAGENCY\tPLACEN\tDETACH",
  c!"LEXENTRY:\tAIRPORT\tAIRPORT\tPLACEN\tDETACH",
  c!"LEXENTRY:\tALLEY\tALLY\tTYPE\tDET_SUF",
  c!"LEXENTRY:\tALLY\tALLY\tTYPE\tDET_SUF",
  c!"LEXENTRY:\tAPARTMENT\tAPT\tUNITH\tDETACH",
  c!"LEXENTRY:\tAPT\tAPT\tUNITH\tDETACH",
  c!"LEXENTRY:\tARC\tARC\tTYPE\tDET_SUF",
  c!"LEXENTRY:\tARCADE\tARC\tTYPE\tDET_SUF",
  c!"LEXENTRY:\tAU\tAUSTRALIA\tNATION\tDETACH",
  c!"LEXENTRY:\tAUS\tAUSTRALIA\tNATION\tDETACH",
  c!"LEXENTRY:\tAUSTRALIA\tAUSTRALIA\tNATION\tDETACH",
  c!"LEXENTRY:\tAVE\tAVE\tTYPE\tDET_SUF",
  c!"LEXENTRY:\tAVENUE\tAVE\tTYPE\tDET_SUF",
  c!"LEXENTRY:\tB\tB\tUNITH\tDETACH",
  c!"LEXENTRY:\tBAKERY\tBAKERY\tPLACEN\tDETACH",
  c!"LEXENTRY:\tBANK\tBANK\tPLACEN\tDETACH",
  c!"LEXENTRY:\tBASEMENT\tB\tUNITH\tDETACH",
  c!"LEXENTRY:\tBLDG\tBLDG\tUNITH\tDETACH",
  c!"LEXENTRY:\tBOULEVARD\tBVD\tTYPE\tDET_SUF",
  c!"LEXENTRY:\tBUILDING\tBLDG\tUNITH\tDETACH",
  c!"LEXENTRY:\tBUREAU\tBUREAU\tPLACEN\tDETACH",
  c!"LEXENTRY:\tBVD\tBVD\tTYPE\tDET_SUF",
  c!"LEXENTRY:\tCAFE\tCAFE\tPLACEN\tDETACH",
  c!"LEXENTRY:\tCAFÉ\tCAFÉ\tPLACEN\tDETACH",
  c!"LEXENTRY:\tCARE OF POST OFFICE\tCARE PO\tBOXH\tDETACH",
  c!"LEXENTRY:\tCARE PO\tCARE PO\tBOXH\tDETACH",
  c!"LEXENTRY:\tCENTER\tCENTER\tPLACEN\tDETACH",
  c!"LEXENTRY:\tCENTRE\tCENTRE\tPLACEN\tDETACH",
  c!"LEXENTRY:\tCINEMA\tCINEMA\tPLACEN\tDETACH",
  c!"LEXENTRY:\tCL\tCL\tTYPE\tDET_SUF",
  c!"LEXENTRY:\tCLOSE\tCL\tTYPE\tDET_SUF",
  c!"LEXENTRY:\tCMA\tCMA\tBOXH\tDETACH",
  c!"LEXENTRY:\tCMB\tCMB\tBOXH\tDETACH",
  c!"LEXENTRY:\tCO\tCO\tPLACEN\tDETACH",
  c!"LEXENTRY:\tCOLLEGE\tCOLLEGE\tPLACEN\tDETACH",
  c!"LEXENTRY:\tCOMMUNITY MAIL BAG\tCMB\tBOXH\tDETACH",
  c!"LEXENTRY:\tCOMMUNITY POSTAL AGENT\tCPA\tBOXH\tDETACH",
  c!"LEXENTRY:\tCOMPANY\tCOMPANY\tPLACEN\tDETACH",
  c!"LEXENTRY:\tCOMUNITY MAIL AGENT\tCMA\tBOXH\tDETACH",
  c!"LEXENTRY:\tCONSERVATORY\tCONSERVATORY\tPLACEN\tDETACH",
  c!"LEXENTRY:\tCORP\tCORP\tPLACEN\tDETACH",
  c!"LEXENTRY:\tCORPORATION\tCORPORATION\tPLACEN\tDETACH",
  c!"LEXENTRY:\tCOURT\tCT\tTYPE\tDET_SUF",
  c!"LEXENTRY:\tCPA\tCPA\tBOXH\tDETACH"]

/-- data/sample/australia.lex:102-151 -/
def entries2 : List Str := [
  c!"LEXENTRY:\tCRES\tCRES\tTYPE\tDET_SUF",
  c!"LEXENTRY:\tCRESCENT\tCRES\tTYPE\tDET_SUF",
  c!"LEXENTRY:\tCT\tCT\tTYPE\tDET_SUF",
  c!"LEXENTRY:\tDR\tDR\tTYPE\tDET_SUF",
  c!"LEXENTRY:\tDRIVE\tDR\tTYPE\tDET_SUF",
  c!"LEXENTRY:\tE\tE\tDIRECT\tDETACH",
  c!"LEXENTRY:\tEAST\tE\tDIRECT\tDETACH",
  c!"LEXENTRY:\tEIGHT\t8\tNUMBER\tDETACH",
  c!"LEXENTRY:\tEIGHTEEN\t18\tNUMBER\tDETACH",
  c!"LEXENTRY:\tEIGHTEENTH\t18TH\tWORD,ORD\tDETACH",
  c!"LEXENTRY:\tEIGHTH\t8TH\tWORD,ORD\tDETACH",
  c!"LEXENTRY:\tEIGHTIETH\t80TH\tWORD,ORD\tDETACH",
  c!"LEXENTRY:\tEIGHTY\t80\tNUMBER\tDETACH",
  c!"LEXENTRY:\tELEVEN\t11\tNUMBER\tDETACH",
  c!"LEXENTRY:\tELEVENTH\t11TH\tWORD,ORD\tDETACH",
  c!"LEXENTRY:\tESP\tESP\tTYPE\tDET_SUF",
  c!"LEXENTRY:\tESPLANADE\tESP\tTYPE\tDET_SUF",
  c!"LEXENTRY:\tF\tF\tUNITH\tDETACH",
  c!"LEXENTRY:\tFACTORY\tFY\tUNITH\tDETACH",
  c!"LEXENTRY:\tFIFTEEN\t15\tNUMBER\tDETACH",
  c!"LEXENTRY:\tFIFTEENTH\t15TH\tWORD,ORD\tDETACH",
  c!"LEXENTRY:\tFIFTH\t5TH\tWORD,ORD\tDETACH",
  c!"LEXENTRY:\tFIFTIETH\t50TH\tWORD,ORD\tDETACH",
  c!"LEXENTRY:\tFIFTY\t50\tNUMBER\tDETACH",
  c!"LEXENTRY:\tFIRST\t1ST\tWORD,ORD\tDETACH",
  c!"LEXENTRY:\tFIVE\t5\tNUMBER\tDETACH",
  c!"LEXENTRY:\tFL\tFL\tUNITH\tDETACH",
  c!"LEXENTRY:\tFLAT\tF\tUNITH\tDETACH",
  c!"LEXENTRY:\tFLOOR\tFL\tUNITH\tDETACH",
  c!"LEXENTRY:\tFORTIETH\t40TH\tWORD,ORD\tDETACH",
  c!"LEXENTRY:\tFORTY\t40\tNUMBER\tDETACH",
  c!"LEXENTRY:\tFOUR\t4\tNUMBER\tDETACH",
  c!"LEXENTRY:\tFOURTEEN\t14\tNUMBER\tDETACH",
  c!"LEXENTRY:\tFOURTEENTH\t14TH\tWORD,ORD\tDETACH",
  c!"LEXENTRY:\tFOUTH\t4TH\tWORD,ORD\tDETACH",
  c!"LEXENTRY:\tFUND\tFUND\tPLACEN\tDETACH",
  c!"LEXENTRY:\tFY\tFY\tUNITH\tDETACH",
  c!"LEXENTRY:\tG\tGROUND FLOOR\tUNITH\tDETACH",
  c!"LEXENTRY:\tLG\tLOWER GROUND FLOOR\tUNITH\tDETACH",
  c!"LEXENTRY:\tUG\tUPPER GROUND FLOOR\tUNITH\tDETACH",
  c!"LEXENTRY:\tGROUND FLOOR\tGROUND FLOOR\tUNITH\tDETACH",
  c!"LEXENTRY:\tLOWER GROUND FLOOR\tLOWER GROUND FLOOR\tUNITH\tDETACH",
  c!"LEXENTRY:\tUPPER GROUND FLOOR\tUPPER GROUND FLOOR\tUNITH\tDETACH",
  c!"LEXENTRY:\tGALLERY\tGALLERY\tPLACEN\tDETACH",
  c!"LEXENTRY:\tGARDEN\tGARDEN\tPLACEN\tDETACH",
  c!"LEXENTRY:\tGENERAL POST OFFICE BOX \tGPO BOX\tBOXH\tDETACH",
  c!"LEXENTRY:\tGPO BOX\tGPO BOX\tBOXH\tDETACH",
  c!"LEXENTRY:\tGR\tGR\tTYPE\tDET_SUF",
  c!"LEXENTRY:\tGROUP\tGROUP\tPLACEN\tDETACH",
  c!"LEXENTRY:\tGROVE\tGR\tTYPE\tDET_SUF"]

/-- data/sample/australia.lex:152-201 -/
def entries3 : List Str := [
  c!"LEXENTRY:\tGYMNASIUM\tGYMNASIUM\tPLACEN\tDETACH",
  c!"LEXENTRY:\tHALL\tHALL\tPLACEN\tDETACH",
  c!"LEXENTRY:\tHIGHWAY\tHWY\tTYPE\tDET_SUF",
  c!"LEXENTRY:\tHOSPITAL\tHOSPITAL\tPLACEN\tDETACH",
  c!"LEXENTRY:\tHOTEL\tHOTEL\tPLACEN\tDETACH",
  c!"LEXENTRY:\tHOUSE\tHOUSE\tPLACEN\tDETACH",
  c!"LEXENTRY:\tHWY\tHWY\tTYPE\tDET_SUF",
  c!"LEXENTRY:\tINC\tINC\tPLACEN\tDETACH",
  c!"LEXENTRY:\tINCORPORATED\tINCORPORATED\tPLACEN\tDETACH",
  c!"LEXENTRY:\tINSTITUTE\tINSTITUTE\tPLACEN\tDETACH",
  c!"LEXENTRY:\tL\tL\tUNITH\tDETACH",
  c!"LEXENTRY:\tLAB\tLAB\tPLACEN\tDETACH",
  c!"LEXENTRY:\tLABORATORIES\tLABORATORIES\tPLACEN\tDETACH",
  c!"LEXENTRY:\tLABORATORY\tLABORATORY\tPLACEN\tDETACH",
  c!"LEXENTRY:\tLABS\tLABS\tPLACEN\tDETACH",
  c!"LEXENTRY:\tLANE\tLANE\tTYPE\tDET_SUF",
  c!"LEXENTRY:\tLEVEL\tL\tUNITH\tDETACH",
  c!"LEXENTRY:\tLIABILITY\tLIABILITY\tPLACEN\tDETACH",
  c!"LEXENTRY:\tLIBRARY\tLIBRARY\tPLACEN\tDETACH",
  c!"LEXENTRY:\tLIMITED\tLIMITED\tPLACEN\tDETACH",
  c!"LEXENTRY:\tLOCKED BAG\tLOCKED BAG\tBOXH\tDETACH",
  c!"LEXENTRY:\tLTD\tLTD\tPLACEN\tDETACH",
  c!"LEXENTRY:\tM\tM\tUNITH\tDETACH",
  c!"LEXENTRY:\tMAIL SERVICE\tMS\tBOXH\tDETACH",
  c!"LEXENTRY:\tMALL\tMALL\tPLACEN\tDETACH",
  c!"LEXENTRY:\tMARINE BERTH\tMB\tUNITH\tDETACH",
  c!"LEXENTRY:\tMARKET\tMARKET\tPLACEN\tDETACH",
  c!"LEXENTRY:\tMB\tMB\tUNITH\tDETACH",
  c!"LEXENTRY:\tMEZZANINE\tM\tUNITH\tDETACH",
  c!"LEXENTRY:\tMS\tMS\tBOXH\tDETACH",
  c!"LEXENTRY:\tMUSEUM\tMUSEUM\tPLACEN\tDETACH",
  c!"LEXENTRY:\tN\tN\tDIRECT\tDETACH",
  c!"LEXENTRY:\tNE\tNE\tDIRECT\tDETACH",
  c!"LEXENTRY:\tNINE\t9\tNUMBER\tDETACH",
  c!"LEXENTRY:\tNINETEEN\t19\tNUMBER\tDETACH",
  c!"LEXENTRY:\tNINETEENTH\t19TH\tWORD,ORD\tDETACH",
  c!"LEXENTRY:\tNINETIETH\t90TH\tWORD,ORD\tDETACH",
  c!"LEXENTRY:\tNINETY\t90\tNUMBER\tDETACH",
  c!"LEXENTRY:\tNINTH\t9TH\tWORD,ORD\tDETACH",
  c!"LEXENTRY:\tNL\tNL\tPLACEN\tDETACH",
  c!"LEXENTRY:\tNORTH\tN\tDIRECT\tDETACH",
  c!"LEXENTRY:\tNORTHEAST\tNE\tDIRECT\tDETACH",
  c!"LEXENTRY:\tNORTHWEST\tNW\tDIRECT\tDETACH",
  c!"LEXENTRY:\tNSW\tNEW SOUTH WALES\tPROV\tDETACH",
  c!"LEXENTRY:\tNT\tNORTHERN TERRITORY\tPROV\tDETACH",
  c!"LEXENTRY:\tNW\tNW\tDIRECT\tDETACH",
  c!"LEXENTRY:\tOFF\tOFF\tUNITH\tDETACH",
  c!"LEXENTRY:\tOFFICE\tOFF\tUNITH\tDETACH",
  c!"LEXENTRY:\tONE\t1\tNUMBER\tDETACH",
  c!"LEXENTRY:\tP/L\tP/L\tPLACEN\tDETACH"]

/-- data/sample/australia.lex:202-251 -/
def entries4 : List Str := [
  c!"LEXENTRY:\tPARADE\tPDE\tTYPE\tDET_SUF",
  c!"LEXENTRY:\tPARK\tPARK\tPLACEN\tDETACH",
  c!"LEXENTRY:\tPDE\tPDE\tTYPE\tDET_SUF",
  c!"LEXENTRY:\tPL\tPL\tPLACEN,TYPE\tDETACH,DET_SUF",
  c!"LEXENTRY:\tPLACE\tPL\tTYPE\tDET_SUF",
  c!"LEXENTRY:\tPLC\tPLC\tPLACEN\tDETACH",
  c!"LEXENTRY:\tPO BOX\tPO BOX\tBOXH\tDETACH",
  c!"LEXENTRY:\tPOST OFFICE BOX\tPO BOX\tBOXH\tDETACH",
  c!"LEXENTRY:\tPRIVATE BAG\tPRIVATE BAG\tBOXH\tDETACH",
  c!"LEXENTRY:\tPROPRIETARY\tPROPRIETARY\tPLACEN\tDETACH",
  c!"LEXENTRY:\tPTY\tPTY\tPLACEN\tDETACH",
  c!"LEXENTRY:\tQLD\tQUEENSLAND\tPROV\tDETACH",
  c!"LEXENTRY:\tRD\tRD\tTYPE\tDET_SUF",
  c!"LEXENTRY:\tRESTAURANT\tRESTAURANT\tPLACEN\tDETACH",
  c!"LEXENTRY:\tRM\tRM\tUNITH\tDETACH",
  c!"LEXENTRY:\tRMB\tRMB\tBOXH\tDETACH",
  c!"LEXENTRY:\tRMS\tRMS\tBOXH\tDETACH",
  c!"LEXENTRY:\tROAD\tRD\tTYPE\tDET_SUF",
  c!"LEXENTRY:\tROADSIDE DELIVERY\tRSD\tBOXH\tDETACH",
  c!"LEXENTRY:\tROADSIDE MAIL BAG\tRMB\tBOXH\tDETACH",
  c!"LEXENTRY:\tROADSIDE MAIL BOX\tRMB\tBOXH\tDETACH",
  c!"LEXENTRY:\tROADSIDE MAIL SERVICE\tRMS\tBOXH\tDETACH",
  c!"LEXENTRY:\tROOM\tRM\tUNITH\tDETACH",
  c!"LEXENTRY:\tRSD\tRSD\tBOXH\tDETACH",
  c!"LEXENTRY:\tS\tS\tDIRECT\tDETACH",
  c!"LEXENTRY:\tSA\tSOUTH AUSTRALIA\tPROV\tDETACH",
  c!"LEXENTRY:\tSAINT\tST\tWORD\tDETACH",
  c!"LEXENTRY:\tSCHOOL\tSCHOOL\tPLACEN\tDETACH",
  c!"LEXENTRY:\tSE\tSE\tDIRECT,UNITH\tDETACH",
  c!"LEXENTRY:\tSECOND\t2ND\tWORD,ORD\tDETACH",
  c!"LEXENTRY:\tSEVEN\t7\tNUMBER\tDETACH",
  c!"LEXENTRY:\tSEVENTEEN\t17\tNUMBER\tDETACH",
  c!"LEXENTRY:\tSEVENTEENTH\t17TH\tWORD,ORD\tDETACH",
  c!"LEXENTRY:\tSEVENTH\t7TH\tWORD,ORD\tDETACH",
  c!"LEXENTRY:\tSEVENTIETH\t70TH\tWORD,ORD\tDETACH",
  c!"LEXENTRY:\tSEVENTY\t70\tNUMBER\tDETACH",
  c!"LEXENTRY:\tSHED\tSHED\tUNITH\tDETACH",
  c!"LEXENTRY:\tSHED \tSHED\tUNITH\tDETACH",
  c!"LEXENTRY:\tSHOP\tSHOP\tPLACEN,UNITH\tDETACH",
  c!"LEXENTRY:\tSITE\tSITE\tUNITH\tDETACH",
  c!"LEXENTRY:\tSITE\tSE\tUNITH\tDETACH",
  c!"LEXENTRY:\tSIX\t6\tNUMBER\tDETACH",
  c!"LEXENTRY:\tSIXTEEN\t16\tNUMBER\tDETACH",
  c!"LEXENTRY:\tSIXTEENTH\t16TH\tWORD,ORD\tDETACH",
  c!"LEXENTRY:\tSIXTH\t6TH\tWORD,ORD\tDETACH",
  c!"LEXENTRY:\tSIXTIETH\t60TH\tWORD,ORD\tDETACH",
  c!"LEXENTRY:\tSIXTY\t60\tNUMBER\tDETACH",
  c!"LEXENTRY:\tSL\tSL\tUNITH\tDETACH",
  c!"LEXENTRY:\tSOUTH\tS\tDIRECT\tDETACH",
  c!"LEXENTRY:\tSOUTHEAST\tSE\tDIRECT\tDETACH"]

/-- data/sample/australia.lex:252-293 -/
def entries5 : List Str := [
  c!"LEXENTRY:\tSOUTHWEST\tSW\tDIRECT\tDETACH",
  c!"LEXENTRY:\tSQ\tSQ\tTYPE\tDET_SUF",
  c!"LEXENTRY:\tSQUARE\tSQ\tTYPE\tDET_SUF",
  c!"LEXENTRY:\tST\tST\tTYPE,WORD\tDETACH,DET_SUF",
  c!"LEXENTRY:\tSTADIUM\tSTADIUM\tPLACEN\tDETACH",
  c!"LEXENTRY:\tSTALL\tSL\tUNITH\tDETACH",
  c!"LEXENTRY:\tSTATION\tSTATION\tPLACEN\tDETACH",
  c!"LEXENTRY:\tSTE\tSTE\tUNITH\tDETACH",
  c!"LEXENTRY:\tSTORE\tSTORE\tPLACEN\tDETACH",
  c!"LEXENTRY:\tSTREET\tST\tTYPE\tDET_SUF",
  c!"LEXENTRY:\tSUITE\tSTE\tUNITH\tDETACH",
  c!"LEXENTRY:\tSW\tSW\tDIRECT\tDETACH",
  c!"LEXENTRY:\tTAS\tTASMANIA\tPROV\tDETACH",
  c!"LEXENTRY:\tTCE\tTCE\tTYPE\tDET_SUF",
  c!"LEXENTRY:\tTEN\t10\tNUMBER\tDETACH",
  c!"LEXENTRY:\tTENTH\t10TH\tWORD,ORD\tDETACH",
  c!"LEXENTRY:\tTERRACE\tTCE\tTYPE\tDET_SUF",
  c!"LEXENTRY:\tTHEATER\tTHEATER\tPLACEN\tDETACH",
  c!"LEXENTRY:\tTHEATRE\tTHEATRE\tPLACEN\tDETACH",
  c!"LEXENTRY:\tTHIRD\t3RD\tWORD,ORD\tDETACH",
  c!"LEXENTRY:\tTHIRTEEN\t13\tNUMBER\tDETACH",
  c!"LEXENTRY:\tTHIRTEENTH\t13TH\tWORD,ORD\tDETACH",
  c!"LEXENTRY:\tTHIRTIETH\t30TH\tWORD,ORD\tDETACH",
  c!"LEXENTRY:\tTHIRTY\t30\tNUMBER\tDETACH",
  c!"LEXENTRY:\tTHREE\t3\tNUMBER\tDETACH",
  c!"LEXENTRY:\tTRUST\tTRUST\tPLACEN\tDETACH",
  c!"LEXENTRY:\tTWELFTH\t12TH\tWORD,ORD\tDETACH",
  c!"LEXENTRY:\tTWELVE\t12\tNUMBER\tDETACH",
  c!"LEXENTRY:\tTWENTIETH\t20TH\tWORD,ORD\tDETACH",
  c!"LEXENTRY:\tTWENTY\t20\tNUMBER\tDETACH",
  c!"LEXENTRY:\tTWO\t2\tNUMBER\tDETACH",
  c!"LEXENTRY:\tU\tU\tUNITH\tDETACH",
  c!"LEXENTRY:\tUNIT\tU\tUNITH\tDETACH",
  c!"LEXENTRY:\tUNIVERSITY\tUNIVERSITY\tPLACEN\tDETACH",
  c!"LEXENTRY:\tVIC\tVICTORIA\tPROV\tDETACH",
  c!"LEXENTRY:\tVILLA\tVLLA\tUNITH\tDETACH",
  c!"LEXENTRY:\tVLLA\tVLLA\tUNITH\tDETACH",
  c!"LEXENTRY:\tW\tW\tDIRECT\tDETACH",
  c!"LEXENTRY:\tWA\tWESTERN AUSTRALIA\tPROV\tDETACH",
  c!"LEXENTRY:\tWAREHOUSE\tWE\tUNITH\tDETACH",
  c!"LEXENTRY:\tWE\tWE\tUNITH\tDETACH",
  c!"LEXENTRY:\tWEST\tW\tDIRECT\tDETACH"]

/-- The text, and what is claimed of it. -/
def lexicon : LexSample where
  header := c!"LEXICON:\tlex-australia.txt\tENG\ten_AU"
  body := entries0 ++ entries1 ++ entries2 ++ entries3 ++ entries4 ++ entries5
  lang := .ENG
  locale := c!"en_AU"
  classes := [
    .NUMBER, .WORD, .ORD, .PLACEN, .PROV, .TYPE, .UNITH, .NATION, .BOXH, .DIRECT]

set_option maxRecDepth 1000000 in
theorem lexicon_checked : checkLex lexicon [0, 2, 2, 54, 55, 58, 60, 64, 80, 105] = true := by decide +kernel

/-- What of the grammar cannot match. -/
def pair : Pair where
  sample := sample
  lexicon := lexicon
  idle := [
    c!"BUILDT -> BLDNG -> 0.7",
    c!"BUILDT WORD -> BLDNG BLDNG -> 0.6",
    c!"BUILDT WORD WORD -> BLDNG BLDNG BLDNG -> 0.5",
    c!"BUILDT WORD WORD WORD -> BLDNG BLDNG BLDNG BLDNG -> 0.4",
    c!"QUALIF DIRECT -> QUALIF PREDIR -> 0.8",
    c!"DIRECT QUALIF -> PREDIR QUALIF -> 0.8",
    c!"QUALIF -> QUALIF -> 0.8",
    c!"DIRECT QUALIF -> SUFDIR QUALIF -> 0.8",
    c!"QUALIF DIRECT -> QUALIF SUFDIR -> 0.8",
    c!"DIRECT CITY -> CITY CITY -> 0.6",
    c!"CITY -> CITY -> 0.8"]
  null := [.building, .qual, .ruralroute, .extra]

/-- What shows it. -/
def pairCert : PairCert where
  dead := [.BUILDT, .CITY, .QUALIF]
  barren := []
  reach := [
    c!"ADDRESS", c!"micro", c!"macro", c!"housenumber", c!"streetname", c!"unit", c!"pobox", c!"city",
    c!"prov", c!"postal", c!"nation", c!"prefixtype", c!"basename", c!"suffixtype", c!"prefix", c!"ptype",
    c!"stype", c!"suffix"]

set_option maxRecDepth 100000 in
theorem pair_checked : checkPair pair pairCert = true := by decide +kernel

end AS.Sample.Australia
