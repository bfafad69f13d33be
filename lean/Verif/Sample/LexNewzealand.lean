import Verif.Lemmas.LexCheck
import Verif.Lemmas.PairCheck
import Verif.Sample.Newzealand
/-
The lexicon data/sample/newzealand.lex (all 396 lines), and what of newzealand.gmr cannot match with it. Written by
tools/lexicons.py.
-/
namespace AS.Sample.Newzealand

/-- data/sample/newzealand.lex:2-51 -/
def entries0 : List Str := [
  c!"LEXENTRY:\t1\t1\tNUMBER\tDETACH",
  c!"LEXENTRY:\t10\t10\tNUMBER\tDETACH",
  c!"LEXENTRY:\t10TH\t10TH\tWORD,ORD\tDETACH",
  c!"LEXENTRY:\t11\t11\tNUMBER\tDETACH",
  c!"LEXENTRY:\t11TH\t11TH\tWORD,ORD\tDETACH",
  c!"LEXENTRY:\t12\t12\tNUMBER\tDETACH",
  c!"LEXENTRY:\t12TH\t12TH\tWORD,ORD\tDETACH",
  c!"LEXENTRY:\t13\t13\tNUMBER\tDETACH",
  c!"LEXENTRY:\t13TH\t13TH\tWORD,ORD\tDETACH",
  c!"LEXENTRY:\t14\t14\tNUMBER\tDETACH",
  c!"LEXENTRY:\t14TH\t14TH\tWORD,ORD\tDETACH",
  c!"LEXENTRY:\t15\t15\tNUMBER\tDETACH",
  c!"LEXENTRY:\t15TH\t15TH\tWORD,ORD\tDETACH",
  c!"LEXENTRY:\t16\t16\tNUMBER\tDETACH",
  c!"LEXENTRY:\t16TH\t16TH\tWORD,ORD\tDETACH",
  c!"LEXENTRY:\t17\t17\tNUMBER\tDETACH",
  c!"LEXENTRY:\t17TH\t17TH\tWORD,ORD\tDETACH",
  c!"LEXENTRY:\t18\t18\tNUMBER\tDETACH",
  c!"LEXENTRY:\t18TH\t18TH\tWORD,ORD\tDETACH",
  c!"LEXENTRY:\t19\t19\tNUMBER\tDETACH",
  c!"LEXENTRY:\t19TH\t19TH\tWORD,ORD\tDETACH",
  c!"LEXENTRY:\t1ST\t1ST\tWORD,ORD\tDETACH",
  c!"LEXENTRY:\t2\t2\tNUMBER\tDETACH",
  c!"LEXENTRY:\t20\t20\tNUMBER\tDETACH",
  c!"LEXENTRY:\t20TH\t20TH\tWORD,ORD\tDETACH",
  c!"LEXENTRY:\t2ND\t2ND\tWORD,ORD\tDETACH",
  c!"LEXENTRY:\t3\t3\tNUMBER\tDETACH",
  c!"LEXENTRY:\t30\t30\tNUMBER\tDETACH",
  c!"LEXENTRY:\t30TH\t30TH\tWORD,ORD\tDETACH",
  c!"LEXENTRY:\t3RD\t3RD\tWORD,ORD\tDETACH",
  c!"LEXENTRY:\t4\t4\tNUMBER\tDETACH",
  c!"LEXENTRY:\t40\t40\tNUMBER\tDETACH",
  c!"LEXENTRY:\t40TH\t40TH\tWORD,ORD\tDETACH",
  c!"LEXENTRY:\t4TH\t4TH\tWORD,ORD\tDETACH",
  c!"LEXENTRY:\t5\t5\tNUMBER\tDETACH",
  c!"LEXENTRY:\t50\t50\tNUMBER\tDETACH",
  c!"LEXENTRY:\t50TH\t50TH\tWORD,ORD\tDETACH",
  c!"LEXENTRY:\t5TH\t5TH\tWORD,ORD\tDETACH",
  c!"LEXENTRY:\t6\t6\tNUMBER\tDETACH",
  c!"LEXENTRY:\t60\t60\tNUMBER\tDETACH",
  c!"LEXENTRY:\t60TH\t60TH\tWORD,ORD\tDETACH",
  c!"LEXENTRY:\t6TH\t6TH\tWORD,ORD\tDETACH",
  c!"LEXENTRY:\t7\t7\tNUMBER\tDETACH",
  c!"LEXENTRY:\t70\t70\tNUMBER\tDETACH",
  c!"LEXENTRY:\t70TH\t70TH\tWORD,ORD\tDETACH",
  c!"LEXENTRY:\t7TH\t7TH\tWORD,ORD\tDETACH",
  c!"LEXENTRY:\t8\t8\tNUMBER\tDETACH",
  c!"LEXENTRY:\t80\t80\tNUMBER\tDETACH",
  c!"LEXENTRY:\t80TH\t80TH\tWORD,ORD\tDETACH",
  c!"LEXENTRY:\t8TH\t8TH\tWORD,ORD\tDETACH"]

/-- data/sample/newzealand.lex:52-101 -/
def entries1 : List Str := [
  c!"LEXENTRY:\t9\t9\tNUMBER\tDETACH",
  c!"LEXENTRY:\t90\t90\tNUMBER\tDETACH",
  c!"LEXENTRY:\t90TH\t90TH\tWORD,ORD\tDETACH",
  c!"LEXENTRY:\t9TH\t9TH\tWORD,ORD\tDETACH",
  c!"LEXENTRY:\tALLEY\tALY\tTYPE\tDET_SUF",
  c!"LEXENTRY:\tALY\tALY\tTYPE\tDET_SUF",
  c!"LEXENTRY:\tANNEX\tANX\tTYPE\tDET_SUF",
  c!"LEXENTRY:\tANX\tANX\tTYPE\tDET_SUF",
  c!"LEXENTRY:\tAPARTMENT\tAPT\tUNITH\tDETACH",
  c!"LEXENTRY:\tAPT\tAPT\tUNITH\tDETACH",
  c!"LEXENTRY:\tARC\tARC\tTYPE\tDET_SUF",
  c!"LEXENTRY:\tARCADE\tARC\tTYPE\tDET_SUF",
  c!"LEXENTRY:\tASHBURTON\tASHBURTON\tCITY\tDETACH",
  c!"LEXENTRY:\tAUCKLAND\tAUCKLAND\tPROV,CITY\tDETACH",
  c!"LEXENTRY:\tAVE\tAVE\tTYPE\tDET_SUF",
  c!"LEXENTRY:\tAVENUE\tAVE\tTYPE\tDET_SUF",
  c!"LEXENTRY:\tBASEMENT\tBSMT\tUNITH\tDETACH",
  c!"LEXENTRY:\tBAY OF PLENTY\tBAY OF PLENTY\tPROV\tDETACH",
  c!"LEXENTRY:\tBCH\tBCH\tTYPE\tDET_SUF",
  c!"LEXENTRY:\tBEACH\tBCH\tTYPE\tDET_SUF",
  c!"LEXENTRY:\tBEND\tBND\tTYPE\tDET_SUF",
  c!"LEXENTRY:\tBLDG\tBLDG\tUNITH\tDETACH",
  c!"LEXENTRY:\tBLENHEIM\tBLENHEIM\tCITY\tDETACH",
  c!"LEXENTRY:\tBLF\tBLF\tTYPE\tDET_SUF",
  c!"LEXENTRY:\tBLUFF\tBLF\tTYPE\tDET_SUF",
  c!"LEXENTRY:\tBLVD\tBLVD\tTYPE\tDET_SUF",
  c!"LEXENTRY:\tBND\tBND\tTYPE\tDET_SUF",
  c!"LEXENTRY:\tBOTTOM\tBTM\tTYPE\tDET_SUF",
  c!"LEXENTRY:\tBOULEVARD\tBLVD\tTYPE\tDET_SUF",
  c!"LEXENTRY:\tBR\tBR\tTYPE\tDET_SUF",
  c!"LEXENTRY:\tBRANCH\tBR\tTYPE\tDET_SUF",
  c!"LEXENTRY:\tBRG\tBRG\tTYPE\tDET_SUF",
  c!"LEXENTRY:\tBRIDGE\tBRG\tTYPE\tDET_SUF",
  c!"LEXENTRY:\tBRK\tBRK\tTYPE\tDET_SUF",
  c!"LEXENTRY:\tBROOK\tBRK\tTYPE\tDET_SUF",
  c!"LEXENTRY:\tBSMT\tBSMT\tUNITH\tDETACH",
  c!"LEXENTRY:\tBTM\tBTM\tTYPE\tDET_SUF",
  c!"LEXENTRY:\tBUILDING\tBLDG\tUNITH\tDETACH",
  c!"LEXENTRY:\tBYP\tBYP\tTYPE\tDET_SUF",
  c!"LEXENTRY:\tBYPASS\tBYP\tTYPE\tDET_SUF",
  c!"LEXENTRY:\tC/O\tC/O\tUNITH\tDETACH",
  c!"LEXENTRY:\tCANTERBURY\tCANTERBURY\tPROV\tDETACH",
  c!"LEXENTRY:\tCAPE\tCPE\tTYPE\tDET_SUF",
  c!"LEXENTRY:\tCAUSEWAY\tCSWY\tTYPE\tDET_SUF",
  c!"LEXENTRY:\tCENTRE\tCTR\tTYPE\tDET_SUF",
  c!"LEXENTRY:\tCHRISTCHURCH\tCHRISTCHURCH\tCITY\tDETACH",
  c!"LEXENTRY:\tCIR\tCIR\tTYPE\tDET_SUF",
  c!"LEXENTRY:\tCIRCLE\tCIR\tTYPE\tDET_SUF",
  c!"LEXENTRY:\tCLFS\tCLFS\tTYPE\tDET_SUF",
  c!"LEXENTRY:\tCLIFFS\tCLFS\tTYPE\tDET_SUF"]

/-- data/sample/newzealand.lex:102-151 -/
def entries2 : List Str := [
  c!"LEXENTRY:\tCOK\tCOK\tNATION\tDETACH",
  c!"LEXENTRY:\tCOOK ISLANDS\tCOK\tNATION\tDETACH",
  c!"LEXENTRY:\tCOR\tCOR\tTYPE\tDET_SUF",
  c!"LEXENTRY:\tCORNER\tCOR\tTYPE\tDET_SUF",
  c!"LEXENTRY:\tCORNERS\tCORS\tTYPE\tDET_SUF",
  c!"LEXENTRY:\tCORS\tCORS\tTYPE\tDET_SUF",
  c!"LEXENTRY:\tCOURSE\tCRSE\tTYPE\tDET_SUF",
  c!"LEXENTRY:\tCOURT\tCT\tTYPE\tDET_SUF",
  c!"LEXENTRY:\tCOURTS\tCTS\tTYPE\tDET_SUF",
  c!"LEXENTRY:\tCOVE\tCV\tTYPE\tDET_SUF",
  c!"LEXENTRY:\tCPE\tCPE\tTYPE\tDET_SUF",
  c!"LEXENTRY:\tCREEK\tCRK\tTYPE\tDET_SUF",
  c!"LEXENTRY:\tCRES\tCRES\tTYPE\tDET_SUF",
  c!"LEXENTRY:\tCRESCENT\tCRES\tTYPE\tDET_SUF",
  c!"LEXENTRY:\tCRK\tCRK\tTYPE\tDET_SUF",
  c!"LEXENTRY:\tCRSE\tCRSE\tTYPE\tDET_SUF",
  c!"LEXENTRY:\tCSWY\tCSWY\tTYPE\tDET_SUF",
  c!"LEXENTRY:\tCT\tCT\tTYPE\tDET_SUF",
  c!"LEXENTRY:\tCTR\tCTR\tTYPE\tDET_SUF",
  c!"LEXENTRY:\tCTS\tCTS\tTYPE\tDET_SUF",
  c!"LEXENTRY:\tCV\tCV\tTYPE\tDET_SUF",
  c!"LEXENTRY:\tDEPARTMENT\tDEPT\tUNITH\tDETACH",
  c!"LEXENTRY:\tDEPT\tDEPT\tUNITH\tDETACH",
  c!"LEXENTRY:\tDIVIDE\tDV\tTYPE\tDET_SUF",
  c!"LEXENTRY:\tDR\tDR\tTYPE\tDET_SUF",
  c!"LEXENTRY:\tDRIVE\tDR\tTYPE\tDET_SUF",
  c!"LEXENTRY:\tDUNEDIN\tDUNEDIN\tCITY\tDETACH",
  c!"LEXENTRY:\tDV\tDV\tTYPE\tDET_SUF",
  c!"LEXENTRY:\tE\tE\tDIRECT\tDETACH",
  c!"LEXENTRY:\tEAST\tE\tDIRECT\tDETACH",
  c!"LEXENTRY:\tEAST CAPE\tEAST CAPE\tPROV\tDETACH",
  c!"LEXENTRY:\tEAST COAST\tEAST COAST\tPROV\tDETACH",
  c!"LEXENTRY:\tEIGHT\t8\tNUMBER\tDETACH",
  c!"LEXENTRY:\tEIGHTEEN\t18\tNUMBER\tDETACH",
  c!"LEXENTRY:\tEIGHTEENTH\t18TH\tWORD,ORD\tDETACH",
  c!"LEXENTRY:\tEIGHTH\t8TH\tWORD,ORD\tDETACH",
  c!"LEXENTRY:\tEIGHTIETH\t80TH\tWORD,ORD\tDETACH",
  c!"LEXENTRY:\tEIGHTY\t80\tNUMBER\tDETACH",
  c!"LEXENTRY:\tELEVEN\t11\tNUMBER\tDETACH",
  c!"LEXENTRY:\tELEVENTH\t11TH\tWORD,ORD\tDETACH",
  c!"LEXENTRY:\tEST\tEST\tTYPE\tDET_SUF",
  c!"LEXENTRY:\tESTATES\tEST\tTYPE\tDET_SUF",
  c!"LEXENTRY:\tF\tF\tUNITH\tDETACH",
  c!"LEXENTRY:\tFALLS\tFLS\tTYPE\tDET_SUF",
  c!"LEXENTRY:\tFEILDING\tFEILDING\tCITY\tDETACH",
  c!"LEXENTRY:\tFERRY\tFRY\tTYPE\tDET_SUF",
  c!"LEXENTRY:\tFIELD\tFLD\tTYPE\tDET_SUF",
  c!"LEXENTRY:\tFIELDS\tFLDS\tTYPE\tDET_SUF",
  c!"LEXENTRY:\tFIFTEEN\t15\tNUMBER\tDETACH",
  c!"LEXENTRY:\tFIFTEENTH\t15TH\tWORD,ORD\tDETACH"]

/-- data/sample/newzealand.lex:152-201 -/
def entries3 : List Str := [
  c!"LEXENTRY:\tFIFTH\t5TH\tWORD,ORD\tDETACH",
  c!"LEXENTRY:\tFIFTIETH\t50TH\tWORD,ORD\tDETACH",
  c!"LEXENTRY:\tFIFTY\t50\tNUMBER\tDETACH",
  c!"LEXENTRY:\tFIRST\t1ST\tWORD,ORD\tDETACH",
  c!"LEXENTRY:\tFIVE\t5\tNUMBER\tDETACH",
  c!"LEXENTRY:\tFL\tFL\tUNITH\tDETACH",
  c!"LEXENTRY:\tFLAT\tF\tUNITH\tDETACH",
  c!"LEXENTRY:\tFLATS\tFLT\tTYPE\tDET_SUF",
  c!"LEXENTRY:\tFLD\tFLD\tTYPE\tDET_SUF",
  c!"LEXENTRY:\tFLDS\tFLDS\tTYPE\tDET_SUF",
  c!"LEXENTRY:\tFLOOR\tFL\tUNITH\tDETACH",
  c!"LEXENTRY:\tFLS\tFLS\tTYPE\tDET_SUF",
  c!"LEXENTRY:\tFLT\tFLT\tTYPE\tDET_SUF",
  c!"LEXENTRY:\tFORD\tFRD\tTYPE\tDET_SUF",
  c!"LEXENTRY:\tFOREST\tFRST\tTYPE\tDET_SUF",
  c!"LEXENTRY:\tFORKS\tFRKS\tTYPE\tDET_SUF",
  c!"LEXENTRY:\tFORT\tFT\tTYPE\tDET_SUF",
  c!"LEXENTRY:\tFORTIETH\t40TH\tWORD,ORD\tDETACH",
  c!"LEXENTRY:\tFORTY\t40\tNUMBER\tDETACH",
  c!"LEXENTRY:\tFOUR\t4\tNUMBER\tDETACH",
  c!"LEXENTRY:\tFOURTEEN\t14\tNUMBER\tDETACH",
  c!"LEXENTRY:\tFOURTEENTH\t14TH\tWORD,ORD\tDETACH",
  c!"LEXENTRY:\tFOUTH\t4TH\tWORD,ORD\tDETACH",
  c!"LEXENTRY:\tFRD\tFRD\tTYPE\tDET_SUF",
  c!"LEXENTRY:\tFRKS\tFRKS\tTYPE\tDET_SUF",
  c!"LEXENTRY:\tFRST\tFRST\tTYPE\tDET_SUF",
  c!"LEXENTRY:\tFRY\tFRY\tTYPE\tDET_SUF",
  c!"LEXENTRY:\tFT\tFT\tTYPE\tDET_SUF",
  c!"LEXENTRY:\tGARDENS\tGDNS\tTYPE\tDET_SUF",
  c!"LEXENTRY:\tGDNS\tGDNS\tTYPE\tDET_SUF",
  c!"LEXENTRY:\tGISBORNE\tGISBORNE\tPROV,CITY\tDETACH",
  c!"LEXENTRY:\tGLEN\tGLN\tTYPE\tDET_SUF",
  c!"LEXENTRY:\tGLN\tGLN\tTYPE\tDET_SUF",
  c!"LEXENTRY:\tGREEN\tGRN\tTYPE\tDET_SUF",
  c!"LEXENTRY:\tGREYMOUTH\tGREYMOUTH\tCITY\tDETACH",
  c!"LEXENTRY:\tGRN\tGRN\tTYPE\tDET_SUF",
  c!"LEXENTRY:\tGROUP\tGROUP\tPLACEN\tDETACH",
  c!"LEXENTRY:\tGROVE\tGRV\tTYPE\tDET_SUF",
  c!"LEXENTRY:\tGRV\tGRV\tTYPE\tDET_SUF",
  c!"LEXENTRY:\tHAMILTON\tHAMILTON\tCITY\tDETACH",
  c!"LEXENTRY:\tHARBOUR\tHBR\tTYPE\tDET_SUF",
  c!"LEXENTRY:\tHASTINGS\tHASTINGS\tCITY\tDETACH",
  c!"LEXENTRY:\tHAVEN\tHVN\tTYPE\tDET_SUF",
  c!"LEXENTRY:\tHAWERA\tHAWERA\tCITY\tDETACH",
  c!"LEXENTRY:\tHAWKE'S BAY\tHAWKE'S BAY\tPROV\tDETACH",
  c!"LEXENTRY:\tHAWKES BAY\tHAWKES BAY\tPROV\tDETACH",
  c!"LEXENTRY:\tHBR\tHBR\tTYPE\tDET_SUF",
  c!"LEXENTRY:\tHEIGHTS\tHTS\tTYPE\tDET_SUF",
  c!"LEXENTRY:\tHIGHWAY\tHWY\tTYPE\tDET_SUF",
  c!"LEXENTRY:\tHILL\tHL\tTYPE\tDET_SUF"]

/-- data/sample/newzealand.lex:202-251 -/
def entries4 : List Str := [
  c!"LEXENTRY:\tHILLS\tHLS\tTYPE\tDET_SUF",
  c!"LEXENTRY:\tHL\tHL\tTYPE\tDET_SUF",
  c!"LEXENTRY:\tHLS\tHLS\tTYPE\tDET_SUF",
  c!"LEXENTRY:\tHTS\tHTS\tTYPE\tDET_SUF",
  c!"LEXENTRY:\tHVN\tHVN\tTYPE\tDET_SUF",
  c!"LEXENTRY:\tHWY\tHWY\tTYPE\tDET_SUF",
  c!"LEXENTRY:\tINVERCARGILL\tINVERCARGILL\tCITY\tDETACH",
  c!"LEXENTRY:\tIS\tIS\tTYPE\tDET_SUF",
  c!"LEXENTRY:\tISLAND\tIS\tTYPE\tDET_SUF",
  c!"LEXENTRY:\tJCT\tJCT\tTYPE\tDET_SUF",
  c!"LEXENTRY:\tJUNCTION\tJCT\tTYPE\tDET_SUF",
  c!"LEXENTRY:\tKAPITI\tKAPITI\tCITY\tDETACH",
  c!"LEXENTRY:\tKEY\tKEY\tUNITH\tDETACH",
  c!"LEXENTRY:\tL\tL\tUNITH\tDETACH",
  c!"LEXENTRY:\tLANE\tLN\tTYPE\tDET_SUF",
  c!"LEXENTRY:\tLBBY\tLBBY\tUNITH\tDETACH",
  c!"LEXENTRY:\tLDG\tLDG\tTYPE\tDET_SUF",
  c!"LEXENTRY:\tLEVEL\tL\tUNITH\tDETACH",
  c!"LEXENTRY:\tLEVIN\tLEVIN\tCITY\tDETACH",
  c!"LEXENTRY:\tLIMITED\tLIMITED\tPLACEN\tDETACH",
  c!"LEXENTRY:\tLN\tLN\tTYPE\tDET_SUF",
  c!"LEXENTRY:\tLOBBY\tLBBY\tUNITH\tDETACH",
  c!"LEXENTRY:\tLODGE\tLDG\tTYPE\tDET_SUF",
  c!"LEXENTRY:\tLOT\tLOT\tUNITH\tDETACH",
  c!"LEXENTRY:\tLOWER\tLOWR\tUNITH\tDETACH",
  c!"LEXENTRY:\tLOWR\tLOWR\tUNITH\tDETACH",
  c!"LEXENTRY:\tLTD\tLTD\tPLACEN\tDETACH",
  c!"LEXENTRY:\tMANAWATU WANGANUI\tMANAWATU WANGANUI\tPROV\tDETACH",
  c!"LEXENTRY:\tMANAWATU-WANGANUI\tMANAWATU-WANGANUI\tPROV\tDETACH",
  c!"LEXENTRY:\tMARLBOROUGH\tMARLBOROUGH\tPROV\tDETACH",
  c!"LEXENTRY:\tMASTERTON\tMASTERTON\tCITY\tDETACH",
  c!"LEXENTRY:\tMDWS\tMDWS\tTYPE\tDET_SUF",
  c!"LEXENTRY:\tMEADOWS\tMDWS\tTYPE\tDET_SUF",
  c!"LEXENTRY:\tMILL\tML\tTYPE\tDET_SUF",
  c!"LEXENTRY:\tMILLS\tMLS\tTYPE\tDET_SUF",
  c!"LEXENTRY:\tMISSION\tMSN\tTYPE\tDET_SUF",
  c!"LEXENTRY:\tML\tML\tTYPE\tDET_SUF",
  c!"LEXENTRY:\tMLS\tMLS\tTYPE\tDET_SUF",
  c!"LEXENTRY:\tMOUNT\tMT\tWORD,TYPE\tDET_SUF",
  c!"LEXENTRY:\tMOUNTAIN\tMTN\tWORD,TYPE\tDET_SUF",
  c!"LEXENTRY:\tMSN\tMSN\tTYPE\tDET_SUF",
  c!"LEXENTRY:\tMT\tMT\tWORD,TYPE\tDET_SUF",
  c!"LEXENTRY:\tMTN\tMTN\tWORD,TYPE\tDET_SUF",
  c!"LEXENTRY:\tN\tN\tDIRECT\tDETACH",
  c!"LEXENTRY:\tNAPIER\tNAPIER\tCITY\tDETACH",
  c!"LEXENTRY:\tNAPIER-HASTINGS\tNAPIER-HASTINGS\tCITY\tDETACH",
  c!"LEXENTRY:\tNE\tNE\tDIRECT\tDETACH",
  c!"LEXENTRY:\tNELSON\tNELSON\tPROV,CITY\tDETACH",
  c!"LEXENTRY:\tNEW PLYMOUTH\tNEW PLYMOUTH\tCITY\tDETACH",
  c!"LEXENTRY:\tNEW ZEALAND\tNEW ZEALAND\tNATION\tDETACH"]

/-- data/sample/newzealand.lex:252-301 -/
def entries5 : List Str := [
  c!"LEXENTRY:\tNINE\t9\tNUMBER\tDETACH",
  c!"LEXENTRY:\tNINETEEN\t19\tNUMBER\tDETACH",
  c!"LEXENTRY:\tNINETEENTH\t19TH\tWORD,ORD\tDETACH",
  c!"LEXENTRY:\tNINETIETH\t90TH\tWORD,ORD\tDETACH",
  c!"LEXENTRY:\tNINETY\t90\tNUMBER\tDETACH",
  c!"LEXENTRY:\tNINTH\t9TH\tWORD,ORD\tDETACH",
  c!"LEXENTRY:\tNIU\tNIU\tNATION\tDETACH",
  c!"LEXENTRY:\tNIUE\tNIU\tNATION\tDETACH",
  c!"LEXENTRY:\tNORTH\tN\tDIRECT\tDETACH",
  c!"LEXENTRY:\tNORTHEAST\tNE\tDIRECT\tDETACH",
  c!"LEXENTRY:\tNORTHLAND\tNORTHLAND\tPROV\tDETACH",
  c!"LEXENTRY:\tNORTHWEST\tNW\tDIRECT\tDETACH",
  c!"LEXENTRY:\tNTH\tN\tDIRECT\tDETACH",
  c!"LEXENTRY:\tNW\tNW\tDIRECT\tDETACH",
  c!"LEXENTRY:\tNZ\tNEW ZEALAND\tNATION\tDETACH",
  c!"LEXENTRY:\tNZL\tNEW ZEALAND\tNATION\tDETACH",
  c!"LEXENTRY:\tOAMARU\tOAMARU\tCITY\tDETACH",
  c!"LEXENTRY:\tOFC\tOFC\tUNITH\tDETACH",
  c!"LEXENTRY:\tOFF\tOFC\tUNITH\tDETACH",
  c!"LEXENTRY:\tOFFICE\tOFC\tUNITH\tDETACH",
  c!"LEXENTRY:\tONE\t1\tNUMBER\tDETACH",
  c!"LEXENTRY:\tORCH\tORCH\tTYPE\tDET_SUF",
  c!"LEXENTRY:\tORCHARD\tORCH\tTYPE\tDET_SUF",
  c!"LEXENTRY:\tOTAGO\tOTAGO\tPROV\tDETACH",
  c!"LEXENTRY:\tP O BOX\tP O BOX\tBOXH\tDETACH",
  c!"LEXENTRY:\tPALMERSTON NORTH\tPALMERSTON NORTH\tCITY\tDETACH",
  c!"LEXENTRY:\tPARKWAY\tPKY\tTYPE\tDET_SUF",
  c!"LEXENTRY:\tPKY\tPKY\tTYPE\tDET_SUF",
  c!"LEXENTRY:\tPL\tPL\tTYPE\tDET_SUF",
  c!"LEXENTRY:\tPLACE\tPL\tTYPE\tDET_SUF",
  c!"LEXENTRY:\tPO BOX\tP O BOX\tBOXH\tDETACH",
  c!"LEXENTRY:\tPOINT\tPT\tTYPE\tDET_SUF",
  c!"LEXENTRY:\tPOST OFFICE BOX\tP O BOX\tBOXH\tDETACH",
  c!"LEXENTRY:\tPRIVATE BAG\tPRIVATE BAG\tBOXH\tDETACH",
  c!"LEXENTRY:\tPT\tPT\tTYPE\tDET_SUF",
  c!"LEXENTRY:\tPUKEKOHE\tPUKEKOHE\tCITY\tDETACH",
  c!"LEXENTRY:\tQUEENSTOWN\tQUEENSTOWN\tCITY\tDETACH",
  c!"LEXENTRY:\tR D\tRD\tBOXH\tDETACH",
  c!"LEXENTRY:\tRANGIORA\tRANGIORA\tCITY\tDETACH",
  c!"LEXENTRY:\tRAPIDS\tRPDS\tTYPE\tDET_SUF",
  c!"LEXENTRY:\tRD\tRD\tTYPE,BOXH\tDETACH",
  c!"LEXENTRY:\tREAR\tREAR\tUNITH\tDETACH",
  c!"LEXENTRY:\tRIV\tRIV\tTYPE\tDET_SUF",
  c!"LEXENTRY:\tRIVER\tRIV\tTYPE\tDET_SUF",
  c!"LEXENTRY:\tRM\tRM\tUNITH\tDETACH",
  c!"LEXENTRY:\tROAD\tRD\tTYPE\tDET_SUF",
  c!"LEXENTRY:\tROOM\tRM\tUNITH\tDETACH",
  c!"LEXENTRY:\tROSS DEPENDENCY\tXRD\tNATION\tDETACH",
  c!"LEXENTRY:\tROTORUA\tROTORUA\tCITY\tDETACH",
  c!"LEXENTRY:\tRPDS\tRPDS\tTYPE\tDET_SUF"]

/-- data/sample/newzealand.lex:302-351 -/
def entries6 : List Str := [
  c!"LEXENTRY:\tRURAL DELIVERY\tRD\tBOXH\tDETACH",
  c!"LEXENTRY:\tS\tS\tDIRECT\tDETACH",
  c!"LEXENTRY:\tSAINT\tST\tWORD\tDETACH",
  c!"LEXENTRY:\tSE\tSE\tDIRECT\tDETACH",
  c!"LEXENTRY:\tSECOND\t2ND\tWORD,ORD\tDETACH",
  c!"LEXENTRY:\tSEVEN\t7\tNUMBER\tDETACH",
  c!"LEXENTRY:\tSEVENTEEN\t17\tNUMBER\tDETACH",
  c!"LEXENTRY:\tSEVENTEENTH\t17TH\tWORD,ORD\tDETACH",
  c!"LEXENTRY:\tSEVENTH\t7TH\tWORD,ORD\tDETACH",
  c!"LEXENTRY:\tSEVENTIETH\t70TH\tWORD,ORD\tDETACH",
  c!"LEXENTRY:\tSEVENTY\t70\tNUMBER\tDETACH",
  c!"LEXENTRY:\tSH\tSH\tTYPE\tDET_SUF",
  c!"LEXENTRY:\tSHORE\tSHR\tTYPE\tDET_SUF",
  c!"LEXENTRY:\tSHR\tSHR\tTYPE\tDET_SUF",
  c!"LEXENTRY:\tSIX\t6\tNUMBER\tDETACH",
  c!"LEXENTRY:\tSIXTEEN\t16\tNUMBER\tDETACH",
  c!"LEXENTRY:\tSIXTEENTH\t16TH\tWORD,ORD\tDETACH",
  c!"LEXENTRY:\tSIXTH\t6TH\tWORD,ORD\tDETACH",
  c!"LEXENTRY:\tSIXTIETH\t60TH\tWORD,ORD\tDETACH",
  c!"LEXENTRY:\tSIXTY\t60\tNUMBER\tDETACH",
  c!"LEXENTRY:\tSMT\tSMT\tTYPE\tDET_SUF",
  c!"LEXENTRY:\tSOUTH\tS\tDIRECT\tDETACH",
  c!"LEXENTRY:\tSOUTHEAST\tSE\tDIRECT\tDETACH",
  c!"LEXENTRY:\tSOUTHLAND\tSOUTHLAND\tPROV\tDETACH",
  c!"LEXENTRY:\tSOUTHWEST\tSW\tDIRECT\tDETACH",
  c!"LEXENTRY:\tSPACE\tSPC\tUNITH\tDETACH",
  c!"LEXENTRY:\tSPC\tSPC\tUNITH\tDETACH",
  c!"LEXENTRY:\tSPG\tSPG\tTYPE\tDET_SUF",
  c!"LEXENTRY:\tSPGS\tSPGS\tTYPE\tDET_SUF",
  c!"LEXENTRY:\tSPRING\tSPG\tTYPE\tDET_SUF",
  c!"LEXENTRY:\tSPRINGS\tSPGS\tTYPE\tDET_SUF",
  c!"LEXENTRY:\tSQ\tSQ\tTYPE\tDET_SUF",
  c!"LEXENTRY:\tSQUARE\tSQ\tTYPE\tDET_SUF",
  c!"LEXENTRY:\tST\tST\tTYPE,WORD\tDETACH,DET_SUF",
  c!"LEXENTRY:\tSTA\tSTA\tTYPE\tDET_SUF",
  c!"LEXENTRY:\tSTATE HIGHWAY\tSH\tTYPE\tDET_SUF",
  c!"LEXENTRY:\tSTATION\tSTA\tTYPE\tDET_SUF",
  c!"LEXENTRY:\tSTE\tSTE\tUNITH\tDETACH",
  c!"LEXENTRY:\tSTH\tS\tDIRECT\tDETACH",
  c!"LEXENTRY:\tSTREAM\tSTRM\tTYPE\tDET_SUF",
  c!"LEXENTRY:\tSTREET\tST\tTYPE\tDET_SUF",
  c!"LEXENTRY:\tSTRM\tSTRM\tTYPE\tDET_SUF",
  c!"LEXENTRY:\tSUITE\tSTE\tUNITH\tDETACH",
  c!"LEXENTRY:\tSUMMIT\tSMT\tTYPE\tDET_SUF",
  c!"LEXENTRY:\tSW\tSW\tDIRECT\tDETACH",
  c!"LEXENTRY:\tTARANAKI\tTARANAKI\tPROV\tDETACH",
  c!"LEXENTRY:\tTASMAN\tTASMAN\tPROV\tDETACH",
  c!"LEXENTRY:\tTAUPO\tTAUPO\tCITY\tDETACH",
  c!"LEXENTRY:\tTAURANGA\tTAURANGA\tCITY\tDETACH",
  c!"LEXENTRY:\tTEN\t10\tNUMBER\tDETACH"]

/-- data/sample/newzealand.lex:352-396 -/
def entries7 : List Str := [
  c!"LEXENTRY:\tTENTH\t10TH\tWORD,ORD\tDETACH",
  c!"LEXENTRY:\tTER\tTER\tTYPE\tDET_SUF",
  c!"LEXENTRY:\tTERRACE\tTER\tTYPE\tDET_SUF",
  c!"LEXENTRY:\tTHIRD\t3RD\tWORD,ORD\tDETACH",
  c!"LEXENTRY:\tTHIRTEEN\t13\tNUMBER\tDETACH",
  c!"LEXENTRY:\tTHIRTEENTH\t13TH\tWORD,ORD\tDETACH",
  c!"LEXENTRY:\tTHIRTIETH\t30TH\tWORD,ORD\tDETACH",
  c!"LEXENTRY:\tTHIRTY\t30\tNUMBER\tDETACH",
  c!"LEXENTRY:\tTHREE\t3\tNUMBER\tDETACH",
  c!"LEXENTRY:\tTIMARU\tTIMARU\tCITY\tDETACH",
  c!"LEXENTRY:\tTKL\tTKL\tNATION\tDETACH",
  c!"LEXENTRY:\tTOKELAU\tTKL\tNATION\tDETACH",
  c!"LEXENTRY:\tTOKOROA\tTOKOROA\tCITY\tDETACH",
  c!"LEXENTRY:\tTRUST\tTRUST\tPLACEN\tDETACH",
  c!"LEXENTRY:\tTUNL\tTUNL\tTYPE\tDET_SUF",
  c!"LEXENTRY:\tTUNNEL\tTUNL\tTYPE\tDET_SUF",
  c!"LEXENTRY:\tTWELFTH\t12TH\tWORD,ORD\tDETACH",
  c!"LEXENTRY:\tTWELVE\t12\tNUMBER\tDETACH",
  c!"LEXENTRY:\tTWENTIETH\t20TH\tWORD,ORD\tDETACH",
  c!"LEXENTRY:\tTWENTY\t20\tNUMBER\tDETACH",
  c!"LEXENTRY:\tTWO\t2\tNUMBER\tDETACH",
  c!"LEXENTRY:\tU\tUNIT\tUNITH\tDETACH",
  c!"LEXENTRY:\tUNIT\tUNIT\tUNITH\tDETACH",
  c!"LEXENTRY:\tUPPER\tUPPR\tUNITH\tDETACH",
  c!"LEXENTRY:\tUPPR\tUPPR\tUNITH\tDETACH",
  c!"LEXENTRY:\tVALLEY\tVLY\tTYPE\tDET_SUF",
  c!"LEXENTRY:\tVIA\tVIA\tTYPE\tDET_SUF",
  c!"LEXENTRY:\tVIADUCT\tVIA\tTYPE\tDET_SUF",
  c!"LEXENTRY:\tVIEW\tVW\tTYPE\tDET_SUF",
  c!"LEXENTRY:\tVILLAGE\tVLG\tTYPE\tDET_SUF",
  c!"LEXENTRY:\tVIS\tVIS\tTYPE\tDET_SUF",
  c!"LEXENTRY:\tVISTA\tVIS\tTYPE\tDET_SUF",
  c!"LEXENTRY:\tVLG\tVLG\tTYPE\tDET_SUF",
  c!"LEXENTRY:\tVLY\tVLY\tTYPE\tDET_SUF",
  c!"LEXENTRY:\tVW\tVW\tTYPE\tDET_SUF",
  c!"LEXENTRY:\tW\tW\tDIRECT\tDETACH",
  c!"LEXENTRY:\tWAIKATO\tWAIKATO\tPROV\tDETACH",
  c!"LEXENTRY:\tWANGANUI\tWANGANUI\tCITY\tDETACH",
  c!"LEXENTRY:\tWELLINGTON\tWELLINGTON\tPROV,CITY\tDETACH",
  c!"LEXENTRY:\tWEST\tW\tDIRECT\tDETACH",
  c!"LEXENTRY:\tWEST COAST\tWEST COAST\tPROV\tDETACH",
  c!"LEXENTRY:\tWHAKATANE\tWHAKATANE\tCITY\tDETACH",
  c!"LEXENTRY:\tWHANGANUI\tWHANGANUI\tCITY\tDETACH",
  c!"LEXENTRY:\tWHANGAREI\tWHANGAREI\tCITY\tDETACH",
  c!"LEXENTRY:\tXRD\tXRD\tNATION\tDETACH"]

/-- The text, and what is claimed of it. -/
def lexicon : LexSample where
  header := c!"LEXICON:\tlex-newzealand.txt\tENG\ten_NZ"
  body := entries0 ++ entries1 ++ entries2 ++ entries3 ++ entries4 ++ entries5 ++ entries6 ++ entries7
  lang := .ENG
  locale := c!"en_NZ"
  classes := [
    .NUMBER, .WORD, .ORD, .TYPE, .UNITH, .CITY, .PROV, .NATION, .DIRECT, .PLACEN, .BOXH]

set_option maxRecDepth 1000000 in
theorem lexicon_checked : checkLex lexicon [0, 2, 2, 54, 58, 62, 63, 100, 128, 186, 274] = true := by decide +kernel

/-- What of the grammar cannot match. -/
def pair : Pair where
  sample := sample
  lexicon := lexicon
  idle := [
    c!"BUILDT -> BLDNG -> 0.7",
    c!"BUILDT WORD -> BLDNG BLDNG -> 0.6",
    c!"BUILDT WORD WORD -> BLDNG BLDNG BLDNG -> 0.5",
    c!"BUILDT WORD WORD WORD -> BLDNG BLDNG BLDNG BLDNG -> 0.4",
    c!"QUALIF DIRECT -> QUALIF PREDIR -> 0.8",
    c!"DIRECT QUALIF -> PREDIR QUALIF -> 0.8",
    c!"QUALIF -> QUALIF -> 0.8",
    c!"DIRECT QUALIF -> SUFDIR QUALIF -> 0.8",
    c!"QUALIF DIRECT -> QUALIF SUFDIR -> 0.8"]
  null := [.building, .qual, .ruralroute, .extra]

/-- What shows it. -/
def pairCert : PairCert where
  dead := [.BUILDT, .QUALIF]
  barren := []
  reach := [
    c!"ADDRESS", c!"micro", c!"macro", c!"housenumber", c!"streetname", c!"unit", c!"pobox", c!"citywords",
    c!"prov", c!"postal", c!"nation", c!"prefixtype", c!"basename", c!"suffixtype", c!"city", c!"prefix",
    c!"ptype", c!"stype", c!"suffix"]

set_option maxRecDepth 100000 in
theorem pair_checked : checkPair pair pairCert = true := by decide +kernel

end AS.Sample.Newzealand
