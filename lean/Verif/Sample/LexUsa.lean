import Verif.Lemmas.LexCheck
import Verif.Lemmas.PairCheck
import Verif.Sample.Usa
/-
The lexicon data/sample/usa.lex (all 2986 lines), and what of usa.gmr cannot match with it. Written by
tools/lexicons.py.
-/
namespace AS.Sample.Usa

/-- data/sample/usa.lex:2-51 -/
def entries0 : List Str := [
  c!"LEXENTRY:\t#\t#\tUNITH,STOPWORD\t",
  c!"LEXENTRY:\t&\tAND\tAMPERS,WORD,STOPWORD\t",
  c!"LEXENTRY:\t-\t-\tDASH\t",
  c!"LEXENTRY:\t1 / 2\t1/2\tFRACT\t",
  c!"LEXENTRY:\t1 / 2 MILE\t1/2 MI\tWORD\t",
  c!"LEXENTRY:\t1 / 3\t1/3\tFRACT\t",
  c!"LEXENTRY:\t1 / 4\t1/4\tFRACT\t",
  c!"LEXENTRY:\t1 MI\tONE MILE\tWORD\t",
  c!"LEXENTRY:\t1 MILE\tONE MILE\tWORD\t",
  c!"LEXENTRY:\t1/2\t1/2\tFRACT\t",
  c!"LEXENTRY:\t1/2 MILE\t1/2 MI\tWORD\t",
  c!"LEXENTRY:\t1/3\t1/3\tFRACT\t",
  c!"LEXENTRY:\t1/4\t1/4\tFRACT\t",
  c!"LEXENTRY:\t10 MI\tTEN MILE\tWORD\t",
  c!"LEXENTRY:\t10 MILE\tTEN MILE\tWORD\t",
  c!"LEXENTRY:\t100 MILE\tONE HUNDRED MILE\tWORD\t",
  c!"LEXENTRY:\t10MI\tTEN MILE\tWORD\t",
  c!"LEXENTRY:\t11 MI\tELEVEN MILE\tWORD\t",
  c!"LEXENTRY:\t11 MILE\tELEVEN MILE\tWORD\t",
  c!"LEXENTRY:\t11MI\tELEVEN MILE\tWORD\t",
  c!"LEXENTRY:\t12 MI\tTWELVE MILE\tWORD\t",
  c!"LEXENTRY:\t12 MILE\tTWELVE MILE\tWORD\t",
  c!"LEXENTRY:\t12MI\tTWELVE MILE\tWORD\t",
  c!"LEXENTRY:\t13 MI\tTHIRTEEN MILE\tWORD\t",
  c!"LEXENTRY:\t13 MILE\tTHIRTEEN MILE\tWORD\t",
  c!"LEXENTRY:\t13MI\tTHIRTEEN MILE\tWORD\t",
  c!"LEXENTRY:\t14 MI\tFOURTEEN MILE\tWORD\t",
  c!"LEXENTRY:\t14 MILE\tFOURTEEN MILE\tWORD\t",
  c!"LEXENTRY:\t14MI\tFOURTEEN MILE\tWORD\t",
  c!"LEXENTRY:\t15 MI\tFIFTEEN MI\tWORD\t",
  c!"LEXENTRY:\t15 MILE\tFIFTEEN MI\tWORD\t",
  c!"LEXENTRY:\t15MI\tFIFTEEN MI\tWORD\t",
  c!"LEXENTRY:\t16 MI\tSIXTEEN MILE\tWORD\t",
  c!"LEXENTRY:\t16 MILE\tSIXTEEN MILE\tWORD\t",
  c!"LEXENTRY:\t16MI\tSIXTEEN MILE\tWORD\t",
  c!"LEXENTRY:\t17 MI\tSEVENTEEN MILE\tWORD\t",
  c!"LEXENTRY:\t17 MILE\tSEVENTEEN MILE\tWORD\t",
  c!"LEXENTRY:\t17MI\tSEVENTEEN MILE\tWORD\t",
  c!"LEXENTRY:\t18 MI\tEIGHTEEEN MILE\tWORD\t",
  c!"LEXENTRY:\t18 MILE\tEIGHTEEEN MILE\tWORD\t",
  c!"LEXENTRY:\t18MI\tEIGHTEEEN MILE\tWORD\t",
  c!"LEXENTRY:\t19 MI\tNINETEEN MILE\tWORD\t",
  c!"LEXENTRY:\t19 MILE\tNINETEEN MILE\tWORD\t",
  c!"LEXENTRY:\t19MI\tNINETEEN MILE\tWORD\t",
  c!"LEXENTRY:\t1ER\t1\tORD\t",
  c!"LEXENTRY:\t1ER\tPREMIERE\tWORD\t",
  c!"LEXENTRY:\t1MI\tONE MILE\tWORD\t",
  c!"LEXENTRY:\t1RE\t1\tORD\t",
  c!"LEXENTRY:\t1RE\tPREMIERE\tWORD\t",
  c!"LEXENTRY:\t1ST\t1\tWORD,ORD\t"]

/-- data/sample/usa.lex:52-101 -/
def entries1 : List Str := [
  c!"LEXENTRY:\t2 MI\tTWO MILE\tWORD\t",
  c!"LEXENTRY:\t2 MILE\tTWO MILE\tWORD\t",
  c!"LEXENTRY:\t20 MI\tTWENTY MILE\tWORD\t",
  c!"LEXENTRY:\t20 MILE\tTWENTY MILE\tWORD\t",
  c!"LEXENTRY:\t20MI\tTWENTY MILE\tWORD\t",
  c!"LEXENTRY:\t21ST\t21\tWORD,ORD\t",
  c!"LEXENTRY:\t22ND\t22\tWORD,ORD\t",
  c!"LEXENTRY:\t23 MI\tTWENTY THREE MILE\tWORD\t",
  c!"LEXENTRY:\t23 MILE\tTWENTY THREE MILE\tWORD\t",
  c!"LEXENTRY:\t23MI\tTWENTY THREE MILE\tWORD\t",
  c!"LEXENTRY:\t23RD\t23\tWORD,ORD\t",
  c!"LEXENTRY:\t2MI\tTWO MILE\tWORD\t",
  c!"LEXENTRY:\t3 / 4\t3/4\tFRACT\t",
  c!"LEXENTRY:\t3 / 8\t3/8\tFRACT\t",
  c!"LEXENTRY:\t3 MI\tTHREE MILE\tWORD\t",
  c!"LEXENTRY:\t3 MILE\tTHREE MILE\tWORD\t",
  c!"LEXENTRY:\t3/4\t3/4\tFRACT\t",
  c!"LEXENTRY:\t3/8\t3/8\tFRACT\t",
  c!"LEXENTRY:\t31ST\t31\tWORD,ORD\t",
  c!"LEXENTRY:\t33RD\t33\tWORD,ORD\t",
  c!"LEXENTRY:\t3MI\tTHREE MILE\tWORD\t",
  c!"LEXENTRY:\t3RD\t3\tWORD,ORD\t",
  c!"LEXENTRY:\t4 CORNERS\tFOUR CORNERS\tWORD\t",
  c!"LEXENTRY:\t4 FG\tFOUR FLAGS\tWORD\t",
  c!"LEXENTRY:\t4 FLAGS\tFOUR FLAGS\tWORD\t",
  c!"LEXENTRY:\t4 MI\tFOUR MILE\tWORD\t",
  c!"LEXENTRY:\t4 MILE\tFOUR MILE\tWORD\t",
  c!"LEXENTRY:\t4 SEASONS\tFOUR SEASONS\tWORD\t",
  c!"LEXENTRY:\t4 SN\tFOUR SEASONS\tWORD\t",
  c!"LEXENTRY:\t41ST\t41\tWORD,ORD\t",
  c!"LEXENTRY:\t43RD\t43\tWORD,ORD\t",
  c!"LEXENTRY:\t4MI\tFOUR MILE\tWORD\t",
  c!"LEXENTRY:\t4WD\tFOUR WHEEL DRIVE TRAIL\tTYPE\t",
  c!"LEXENTRY:\t4WD TRAIL\tFOUR WHEEL DRIVE TRAIL\tTYPE\t",
  c!"LEXENTRY:\t4WD TRL\tFOUR WHEEL DRIVE TRAIL\tTYPE\t",
  c!"LEXENTRY:\t5 CEDARS\tFIVE CEDARS\tWORD\t",
  c!"LEXENTRY:\t5 CORNERS\tFIVE CORNERS\tWORD\t",
  c!"LEXENTRY:\t5 MI\tFIVE MILE\tWORD\t",
  c!"LEXENTRY:\t5 MILE\tFIVE MILE\tWORD\t",
  c!"LEXENTRY:\t5 POINTS\tFIVE POINTS\tWORD\t",
  c!"LEXENTRY:\t5 PT\tFIVE POINTS\tWORD\t",
  c!"LEXENTRY:\t5 TO\tFIVE TOWN\tWORD\t",
  c!"LEXENTRY:\t51ST\t51\tWORD,ORD\t",
  c!"LEXENTRY:\t53RD\t53\tWORD,ORD\t",
  c!"LEXENTRY:\t5MI\tFIVE MILE\tWORD\t",
  c!"LEXENTRY:\t6 FG\tSIX FLAGS\tWORD\t",
  c!"LEXENTRY:\t6 FLAGS\tSIX FLAGS\tWORD\t",
  c!"LEXENTRY:\t6 MI\tSIX MILE\tWORD\t",
  c!"LEXENTRY:\t6 MILE\tSIX MILE\tWORD\t",
  c!"LEXENTRY:\t61ST\t61\tWORD,ORD\t"]

/-- data/sample/usa.lex:102-151 -/
def entries2 : List Str := [
  c!"LEXENTRY:\t63RD\t63\tWORD,ORD\t",
  c!"LEXENTRY:\t6MI\tSIX MILE\tWORD\t",
  c!"LEXENTRY:\t7 CORNERS\tSEVEN CORNERS\tWORD,BUILDT\t",
  c!"LEXENTRY:\t7 MI\tSEVEN MILE\tWORD\t",
  c!"LEXENTRY:\t7 MILE\tSEVEN MILE\tWORD\t",
  c!"LEXENTRY:\t71ST\t71\tWORD,ORD\t",
  c!"LEXENTRY:\t73RD\t73\tWORD,ORD\t",
  c!"LEXENTRY:\t7MI\tSEVEN MILE\tWORD\t",
  c!"LEXENTRY:\t8 MI\tEIGHT MILE\tWORD\t",
  c!"LEXENTRY:\t8 MILE\tEIGHT MILE\tWORD\t",
  c!"LEXENTRY:\t81ST\t81\tWORD,ORD\t",
  c!"LEXENTRY:\t83RD\t83\tWORD,ORD\t",
  c!"LEXENTRY:\t8MI\tEIGHT MILE\tWORD\t",
  c!"LEXENTRY:\t9 MI\tNINE MILE\tWORD\t",
  c!"LEXENTRY:\t9 MILE\tNINE MILE\tWORD\t",
  c!"LEXENTRY:\t91ST\t91\tWORD,ORD\t",
  c!"LEXENTRY:\t93RD\t93\tWORD,ORD\t",
  c!"LEXENTRY:\t9MI\tNINE MILE\tWORD\t",
  c!"LEXENTRY:\tA\tA\tSINGLE,STOPWORD\t",
  c!"LEXENTRY:\tA\tALTERNATE\tQUALIF\t",
  c!"LEXENTRY:\tA F B\tAIR FORCE BASE\tWORD,BUILDT,WORD\t",
  c!"LEXENTRY:\tA F S\tAIR FORCE BASE\tWORD,BUILDT\t",
  c!"LEXENTRY:\tA LA DERECHA\tA LA DERECHA\tUNITH\t",
  c!"LEXENTRY:\tAB\tABBEY\tTYPE\t",
  c!"LEXENTRY:\tAB\tALBERTA\tPROV,WORD,ROAD\t",
  c!"LEXENTRY:\tABBEY\tABBEY\tWORD,TYPE\t",
  c!"LEXENTRY:\tAC\tACRES\tTYPE\t",
  c!"LEXENTRY:\tACAD\tACADEMY\tWORD\t",
  c!"LEXENTRY:\tACADE\tACADEMIA\tWORD\t",
  c!"LEXENTRY:\tACADEMIA\tACADEMIA\tWORD\t",
  c!"LEXENTRY:\tACADEMY\tACADEMY\tWORD\t",
  c!"LEXENTRY:\tACCESS\tACCESS\tTYPE\t",
  c!"LEXENTRY:\tACR\tACRES\tWORD,TYPE,BUILDT\t",
  c!"LEXENTRY:\tACRES\tACRES\tWORD,TYPE,BUILDT\t",
  c!"LEXENTRY:\tACRS\tACRES\tWORD,TYPE,BUILDT\t",
  c!"LEXENTRY:\tACUE\tACUEDUCTO\tTYPE,WORD\t",
  c!"LEXENTRY:\tACUED\tACUEDUCTO\tTYPE,WORD\t",
  c!"LEXENTRY:\tACUEDUCTO\tACUEDUCTO\tTYPE,WORD\t",
  c!"LEXENTRY:\tAEROPUERTO\tAEROPUERTO\tWORD,BUILDT\t",
  c!"LEXENTRY:\tAFB\tAIR FORCE BASE\tWORD,BUILDT,WORD\t",
  c!"LEXENTRY:\tAFLD\tAIRPORT\tBUILDT\t",
  c!"LEXENTRY:\tAFS\tAIR FORCE BASE\tWORD,BUILDT\t",
  c!"LEXENTRY:\tAIR FORCE BASE\tAIR FORCE BASE\tWORD,BUILDT,WORD\t",
  c!"LEXENTRY:\tAIR FORCE STATION\tAIR FORCE BASE\tWORD,BUILDT\t",
  c!"LEXENTRY:\tAIRFIELD\tAIRPORT\tWORD,BUILDT\t",
  c!"LEXENTRY:\tAIRPARK\tAIRPORT\tWORD,BUILDT\t",
  c!"LEXENTRY:\tAIRPORT\tAIRPORT\tWORD,BUILDT\t",
  c!"LEXENTRY:\tAIRSTRIP\tAIRPORT\tWORD,BUILDT\t",
  c!"LEXENTRY:\tAIRSTRP\tAIRPORT\tWORD,BUILDT\t",
  c!"LEXENTRY:\tAK\tALASKA\tPROV,WORD,ROAD\t"]

/-- data/sample/usa.lex:152-201 -/
def entries3 : List Str := [
  c!"LEXENTRY:\tAL\tALABAMA\tPROV,WORD,ROAD\t",
  c!"LEXENTRY:\tAL\tALLEY\tTYPE,PROV,ROAD\t",
  c!"LEXENTRY:\tALA\tALABAMA\tPROV,WORD,ROAD\t",
  c!"LEXENTRY:\tALABAMA\tALABAMA\tPROV,WORD\t",
  c!"LEXENTRY:\tALASKA\tALASKA\tPROV,WORD\t",
  c!"LEXENTRY:\tALBERTA\tALBERTA\tPROV,WORD\t",
  c!"LEXENTRY:\tALC\tALCOVE\tTYPE\t",
  c!"LEXENTRY:\tALD\tA LA DERECHA\tUNITH\t",
  c!"LEXENTRY:\tALLEE\tALLEE\tTYPE\t",
  c!"LEXENTRY:\tALLEY\tALLEY\tTYPE,WORD\t",
  c!"LEXENTRY:\tALLY\tALLEY\tTYPE\t",
  c!"LEXENTRY:\tALT\tALTERNATE\tQUALIF\t",
  c!"LEXENTRY:\tALTERNATE\tALTERNATE\tQUALIF\t",
  c!"LEXENTRY:\tALTO\tALTO\tWORD\t",
  c!"LEXENTRY:\tALTO\tALTOS\tUNITH\t",
  c!"LEXENTRY:\tALTOS\tALTOS\tUNITH,WORD\t",
  c!"LEXENTRY:\tALY\tALLEY\tTYPE\t",
  c!"LEXENTRY:\tAND\tAND\tAMPERS,WORD\t",
  c!"LEXENTRY:\tANEX\tANNEX\tWORD,BUILDT\t",
  c!"LEXENTRY:\tANNEX\tANNEX\tWORD,BUILDT\t",
  c!"LEXENTRY:\tANNX\tANNEX\tWORD,BUILDT\t",
  c!"LEXENTRY:\tANX\tANNEX\tWORD,BUILDT\t",
  c!"LEXENTRY:\tAP\tAPARTMENT\tUNITH\t",
  c!"LEXENTRY:\tAPART\tAPARTMENT\tUNITH\t",
  c!"LEXENTRY:\tAPARTADO\tBOX\tBOXH\t",
  c!"LEXENTRY:\tAPARTEMENT\tAPARTEMENT\tUNITH\t",
  c!"LEXENTRY:\tAPARTMENT\tAPARTMENT\tUNITH\t",
  c!"LEXENTRY:\tAPARTMENTS\tAPARTMENTS\tBUILDT\t",
  c!"LEXENTRY:\tAPO\tAPO\tBOXH\t",
  c!"LEXENTRY:\tAPP\tAPARTEMENT\tUNITH\t",
  c!"LEXENTRY:\tAPPART\tAPARTEMENT\tUNITH\t",
  c!"LEXENTRY:\tAPPT\tAPARTEMENT\tUNITH\t",
  c!"LEXENTRY:\tAPRK\tAIRPORT\tBUILDT\t",
  c!"LEXENTRY:\tAPS\tAPARTMENTS\tBUILDT\t",
  c!"LEXENTRY:\tAPT\tAPARTMENT\tUNITH\t",
  c!"LEXENTRY:\tAPT NO\tAPARTMENT\tUNITH\t",
  c!"LEXENTRY:\tAPTMT\tAPARTMENT\tUNITH\t",
  c!"LEXENTRY:\tAPTS\tAPARTMENTS\tBUILDT\t",
  c!"LEXENTRY:\tAR\tARKANSAS\tPROV,WORD,ROAD\t",
  c!"LEXENTRY:\tAR\tARRIERE\tUNITT\t",
  c!"LEXENTRY:\tARC\tARCADE\tTYPE,BUILDT\t",
  c!"LEXENTRY:\tARCADE\tARCADE\tTYPE,BUILDT\t",
  c!"LEXENTRY:\tARIZ\tARIZONA\tPROV,WORD,ROAD\t",
  c!"LEXENTRY:\tARIZONA\tARIZONA\tPROV,WORD\t",
  c!"LEXENTRY:\tARK\tARKANSAS\tPROV,WORD,ROAD\t",
  c!"LEXENTRY:\tARKANSAS\tARKANSAS\tPROV,WORD\t",
  c!"LEXENTRY:\tARPT\tAIRPORT\tWORD,BUILDT\t",
  c!"LEXENTRY:\tARPTO\tAIRPORT\tWORD,BUILDT\t",
  c!"LEXENTRY:\tARRIERE\tARRIERE\tUNITT\t",
  c!"LEXENTRY:\tARROYO\tARROYO\tTYPE\t"]

/-- data/sample/usa.lex:202-251 -/
def entries4 : List Str := [
  c!"LEXENTRY:\tARRYO\tARROYO\tTYPE\t",
  c!"LEXENTRY:\tAT\tAT\tSTOPWORD\t",
  c!"LEXENTRY:\tATPS\tAUTOPISTA\tTYPE\t",
  c!"LEXENTRY:\tATPTA\tAUTOPISTA\tTYPE\t",
  c!"LEXENTRY:\tATTN\tATTENTION\tWORD\t",
  c!"LEXENTRY:\tAU\tAU\tSTOPWORD\t",
  c!"LEXENTRY:\tAU\tAUTOROUTE\tTYPE\t",
  c!"LEXENTRY:\tAU GRES\tAU GRES\tCITY\t",
  c!"LEXENTRY:\tAU SABLE FORKS\tAU SABLE FORKS\tCITY\t",
  c!"LEXENTRY:\tAU SABLE FRKS\tAU SABLE FORKS\tCITY\t",
  c!"LEXENTRY:\tAU TRAIN\tAU TRAIN\tCITY\t",
  c!"LEXENTRY:\tAUT\tAUTOROUTE\tTYPE\t",
  c!"LEXENTRY:\tAUTO\tAUTO\tWORD\t",
  c!"LEXENTRY:\tAUTO\tAUTOPISTA\tTYPE\t",
  c!"LEXENTRY:\tAUTOPISTA\tAUTOPISTA\tTYPE\t",
  c!"LEXENTRY:\tAUTOROUTE\tAUTOROUTE\tTYPE\t",
  c!"LEXENTRY:\tAV\tAVANT\tUNITT\t",
  c!"LEXENTRY:\tAV\tAVENUE\tTYPE\t",
  c!"LEXENTRY:\tAVA\tAVENIDA\tTYPE\t",
  c!"LEXENTRY:\tAVANT\tAVANT\tUNITT,WORD\t",
  c!"LEXENTRY:\tAVE\tAVENUE\tTYPE\t",
  c!"LEXENTRY:\tAVEN\tAVENUE\tTYPE\t",
  c!"LEXENTRY:\tAVENIDA\tAVENIDA\tTYPE\t",
  c!"LEXENTRY:\tAVENU\tAVENUE\tTYPE\t",
  c!"LEXENTRY:\tAVENUE\tAVENUE\tTYPE\t",
  c!"LEXENTRY:\tAVENUES\tAVENUES\tWORD\t",
  c!"LEXENTRY:\tAVES\tAVENUES\tWORD\t",
  c!"LEXENTRY:\tAVN\tAVENUE\tTYPE\t",
  c!"LEXENTRY:\tAVNUE\tAVENUE\tTYPE\t",
  c!"LEXENTRY:\tAVON BY SEA\tAVON BY THE SEA\tCITY\t",
  c!"LEXENTRY:\tAVON BY THE SEA\tAVON BY THE SEA\tCITY\t",
  c!"LEXENTRY:\tAVS\tAVENUES\tWORD\t",
  c!"LEXENTRY:\tAZ\tARIZONA\tPROV,WORD,ROAD\t",
  c!"LEXENTRY:\tB C\tBRITISH COLUMBIA\tPROV,WORD,ROAD\t",
  c!"LEXENTRY:\tBA\tBAY\tTYPE\t",
  c!"LEXENTRY:\tBAJO\tBAJOS\tUNITH\t",
  c!"LEXENTRY:\tBAJOS\tBAJOS\tUNITH\t",
  c!"LEXENTRY:\tBANK\tBANK\tWORD\t",
  c!"LEXENTRY:\tBARRIO\tBOROUGH\tWORD\t",
  c!"LEXENTRY:\tBASEMENT\tBASEMENT\tUNITT\t",
  c!"LEXENTRY:\tBASIN\tBASIN\tWORD\t",
  c!"LEXENTRY:\tBASN\tBASIN\tWORD\t",
  c!"LEXENTRY:\tBAY\tBAY\tUNITH,WORD,TYPE\t",
  c!"LEXENTRY:\tBAY STATE\tBAY STATE\tWORD\t",
  c!"LEXENTRY:\tBAYOU\tBAYOU\tWORD\t",
  c!"LEXENTRY:\tBAYOU LA BATRE\tBAYOU LA BATRE\tCITY\t",
  c!"LEXENTRY:\tBAZAAR\tBAZAAR\tBUILDT\t",
  c!"LEXENTRY:\tBAZR\tBAZAAR\tBUILDT\t",
  c!"LEXENTRY:\tBC\tBRITISH COLUMBIA\tPROV,WORD,ROAD\t",
  c!"LEXENTRY:\tBCH\tBEACH\tWORD,TYPE\t"]

/-- data/sample/usa.lex:252-301 -/
def entries5 : List Str := [
  c!"LEXENTRY:\tBD\tBOULEVARD\tTYPE\t",
  c!"LEXENTRY:\tBDG\tBUILDING\tBUILDT,BUILDH\t",
  c!"LEXENTRY:\tBDNG\tBUILDING\tBUILDT,BUILDH\t",
  c!"LEXENTRY:\tBDWY\tBROADWAY\tWORD\t",
  c!"LEXENTRY:\tBE\tBEND\tTYPE\t",
  c!"LEXENTRY:\tBEACH\tBEACH\tWORD,TYPE\t",
  c!"LEXENTRY:\tBEND\tBEND\tWORD,TYPE\t",
  c!"LEXENTRY:\tBETWEEN\tBETWEEN\tWORD\t",
  c!"LEXENTRY:\tBG\tBURG\tWORD\t",
  c!"LEXENTRY:\tBH\tBEACH\tTYPE\t",
  c!"LEXENTRY:\tBIRD IN HAND\tBIRD IN HAND\tCITY\t",
  c!"LEXENTRY:\tBL\tBOULEVARD\tTYPE\t",
  c!"LEXENTRY:\tBLD\tBUILDING\tBUILDT,BUILDH\t",
  c!"LEXENTRY:\tBLDG\tBUILDING\tBUILDT,BUILDH\t",
  c!"LEXENTRY:\tBLDING\tBUILDING\tBUILDT,BUILDH\t",
  c!"LEXENTRY:\tBLDNG\tBUILDING\tBUILDT,BUILDH\t",
  c!"LEXENTRY:\tBLF\tBLUFF\tWORD,TYPE\t",
  c!"LEXENTRY:\tBLG\tBUILDING\tBUILDT,BUILDH\t",
  c!"LEXENTRY:\tBLOQUE\tBLQ\tUNITH\t",
  c!"LEXENTRY:\tBLQ\tBLQ\tUNITH\t",
  c!"LEXENTRY:\tBLUF\tBLUFF\tWORD\t",
  c!"LEXENTRY:\tBLUFF\tBLUFF\tWORD,TYPE\t",
  c!"LEXENTRY:\tBLV\tBOULEVARD\tTYPE\t",
  c!"LEXENTRY:\tBLVD\tBOULEVARD\tTYPE\t",
  c!"LEXENTRY:\tBLVR\tBULEVAR\tTYPE\t",
  c!"LEXENTRY:\tBND\tBEND\tWORD,TYPE\t",
  c!"LEXENTRY:\tBNK\tBANK\tWORD\t",
  c!"LEXENTRY:\tBO\tBOROUGH\tWORD\t",
  c!"LEXENTRY:\tBO\tBOURG\tTYPE\t",
  c!"LEXENTRY:\tBOIS D ARC\tBOIS D ARC\tCITY\t",
  c!"LEXENTRY:\tBOIS D'ARC\tBOIS D ARC\tCITY\t",
  c!"LEXENTRY:\tBOITE\tBOITE\tBOXH\t",
  c!"LEXENTRY:\tBOITE POSTALE\tBOITE POSTALE\tBOXH\t",
  c!"LEXENTRY:\tBORO\tBOROUGH\tWORD\t",
  c!"LEXENTRY:\tBOROUGH\tBOROUGH\tWORD\t",
  c!"LEXENTRY:\tBOT\tBOTTOM\tUNITT,WORD\t",
  c!"LEXENTRY:\tBOTTM\tBOTTOM\tUNITT,WORD\t",
  c!"LEXENTRY:\tBOTTOM\tBOTTOM\tUNITT,WORD\t",
  c!"LEXENTRY:\tBOUL\tBOULEVARD\tTYPE\t",
  c!"LEXENTRY:\tBOULEVARD\tBOULEVARD\tTYPE\t",
  c!"LEXENTRY:\tBOULV\tBOULEVARD\tTYPE\t",
  c!"LEXENTRY:\tBOURG\tBOURG\tTYPE\t",
  c!"LEXENTRY:\tBOX\tBOX\tBOXH,WORD\t",
  c!"LEXENTRY:\tBOX NO\tBOX\tBOXH\t",
  c!"LEXENTRY:\tBP\tBOITE POSTALE\tBOXH\t",
  c!"LEXENTRY:\tBP\tBYPASS\tTYPE,QUALIF\t",
  c!"LEXENTRY:\tBR\tBRANCH\tWORD\t",
  c!"LEXENTRY:\tBRANCH\tBRANCH\tWORD\t",
  c!"LEXENTRY:\tBRDG\tBRIDGE\tWORD\t",
  c!"LEXENTRY:\tBRDGE\tBRIDGE\tWORD\t"]

/-- data/sample/usa.lex:302-351 -/
def entries6 : List Str := [
  c!"LEXENTRY:\tBRDWY\tBROADWAY\tWORD\t",
  c!"LEXENTRY:\tBRG\tBRIDGE\tWORD,TYPE\t",
  c!"LEXENTRY:\tBRIDGE\tBRIDGE\tWORD\t",
  c!"LEXENTRY:\tBRIDGES\tBRIDGE\tWORD\t",
  c!"LEXENTRY:\tBRITISH COLUMBIA\tBRITISH COLUMBIA\tPROV,WORD\t",
  c!"LEXENTRY:\tBRK\tBROOK\tWORD\t",
  c!"LEXENTRY:\tBROADWAY\tBROADWAY\tWORD\t",
  c!"LEXENTRY:\tBROOK\tBROOK\tWORD\t",
  c!"LEXENTRY:\tBRWY\tBROADWAY\tWORD\t",
  c!"LEXENTRY:\tBSMNT\tBASEMENT\tUNITT\t",
  c!"LEXENTRY:\tBSMT\tBASEMENT\tUNITT\t",
  c!"LEXENTRY:\tBSPK\tBUSINESS PARK\tBUILDT\t",
  c!"LEXENTRY:\tBSRT\tBUSINESS ROUTE\tROAD\t",
  c!"LEXENTRY:\tBSRTE\tBUSINESS ROUTE\tROAD\t",
  c!"LEXENTRY:\tBST\tBASEMENT\tUNITT\t",
  c!"LEXENTRY:\tBTM\tBOTTOM\tWORD\t",
  c!"LEXENTRY:\tBTWN\tBETWEEN\tWORD\t",
  c!"LEXENTRY:\tBUENA VISTA\tBUENA VISTA\tWORD\t",
  c!"LEXENTRY:\tBUILD\tBUILDING\tBUILDT,BUILDH\t",
  c!"LEXENTRY:\tBUILDING\tBUILDING\tBUILDT,BUILDH\t",
  c!"LEXENTRY:\tBUILDING NUMBER\t#\tBUILDH\t",
  c!"LEXENTRY:\tBUILDNG\tBUILDING\tBUILDT,BUILDH\t",
  c!"LEXENTRY:\tBULDNG\tBUILDING\tBUILDT,BUILDH\t",
  c!"LEXENTRY:\tBULEVAR\tBULEVAR\tTYPE\t",
  c!"LEXENTRY:\tBUR\tBUREAU\tUNITT\t",
  c!"LEXENTRY:\tBUREAU\tBUREAU\tUNITH,WORD,UNITT\t",
  c!"LEXENTRY:\tBURG\tBURG\tWORD\t",
  c!"LEXENTRY:\tBUS\tBUSINESS\tQUALIF\t",
  c!"LEXENTRY:\tBUS CENTER\tBUSINESS PARK\tBUILDT\t",
  c!"LEXENTRY:\tBUS CENTR\tBUSINESS PARK\tBUILDT\t",
  c!"LEXENTRY:\tBUS CTR\tBUSINESS PARK\tBUILDT\t",
  c!"LEXENTRY:\tBUS PARK\tBUSINESS PARK\tBUILDT\t",
  c!"LEXENTRY:\tBUS PK\tBUSINESS PARK\tBUILDT\t",
  c!"LEXENTRY:\tBUSCENTER\tBUSINESS PARK\tBUILDT\t",
  c!"LEXENTRY:\tBUSCENTR\tBUSINESS PARK\tBUILDT\t",
  c!"LEXENTRY:\tBUSCTR\tBUSINESS PARK\tBUILDT\t",
  c!"LEXENTRY:\tBUSINESS\tBUSINESS\tQUALIF,WORD\t",
  c!"LEXENTRY:\tBUSINESS CENTER\tBUSINESS PARK\tBUILDT\t",
  c!"LEXENTRY:\tBUSINESS CENTR\tBUSINESS PARK\tBUILDT\t",
  c!"LEXENTRY:\tBUSINESS CTR\tBUSINESS PARK\tBUILDT\t",
  c!"LEXENTRY:\tBUSINESS PARK\tBUSINESS PARK\tBUILDT\t",
  c!"LEXENTRY:\tBUSINESS PK\tBUSINESS PARK\tBUILDT\t",
  c!"LEXENTRY:\tBUSPARK\tBUSINESS PARK\tBUILDT\t",
  c!"LEXENTRY:\tBUSPK\tBUSINESS PARK\tBUILDT\t",
  c!"LEXENTRY:\tBUSROUTE\tBUSINESS ROUTE\tROAD\t",
  c!"LEXENTRY:\tBUSRT\tBUSINESS ROUTE\tROAD\t",
  c!"LEXENTRY:\tBUSRTE\tBUSINESS ROUTE\tROAD\t",
  c!"LEXENTRY:\tBV\tBOULEVARD\tTYPE\t",
  c!"LEXENTRY:\tBX\tBOX\tBOXH\t",
  c!"LEXENTRY:\tBY\tBY\tWORD\t"]

/-- data/sample/usa.lex:352-401 -/
def entries7 : List Str := [
  c!"LEXENTRY:\tBY\tBYWAY\tTYPE\t",
  c!"LEXENTRY:\tBY PASS\tBYPASS\tQUALIF,TYPE\t",
  c!"LEXENTRY:\tBY WAY\tBYWAY\tTYPE\t",
  c!"LEXENTRY:\tBYP\tBYPASS\tQUALIF,TYPE\t",
  c!"LEXENTRY:\tBYPA\tBYPASS\tQUALIF,TYPE\t",
  c!"LEXENTRY:\tBYPAS\tBYPASS\tQUALIF,TYPE\t",
  c!"LEXENTRY:\tBYPASS\tBYPASS\tQUALIF,TYPE\t",
  c!"LEXENTRY:\tBYPS\tBYPASS\tQUALIF,TYPE\t",
  c!"LEXENTRY:\tBYU\tBAYOU\tWORD\t",
  c!"LEXENTRY:\tBYWAY\tBYWAY\tTYPE\t",
  c!"LEXENTRY:\tC\tC\tSINGLE\t",
  c!"LEXENTRY:\tC / O\tCARE OF\tDASH\t",
  c!"LEXENTRY:\tC D O\tCOMMERCIAL DEALERSHIP\tBUILDT\t",
  c!"LEXENTRY:\tC F B\tCANADIAN FORCES BASE\tBUILDT\t",
  c!"LEXENTRY:\tC M C\tCOMMUNITY MAIL CENTRE\tBUILDT\t",
  c!"LEXENTRY:\tC R\tCOUNTY ROAD\tROAD,TYPE\t",
  c!"LEXENTRY:\tC/O\tCARE OF\tDASH\t",
  c!"LEXENTRY:\tCA\tCALIFORNIA\tPROV,WORD,ROAD\t",
  c!"LEXENTRY:\tCA\tCANADA\tNATION\t",
  c!"LEXENTRY:\tCA\tCARRE\tTYPE\t",
  c!"LEXENTRY:\tCALIF\tCALIFORNIA\tPROV,WORD,ROAD\t",
  c!"LEXENTRY:\tCALIFORNIA\tCALIFORNIA\tPROV,WORD\t",
  c!"LEXENTRY:\tCALLE\tCALLE\tTYPE\t",
  c!"LEXENTRY:\tCALLEJ\tCALLEJON\tTYPE\t",
  c!"LEXENTRY:\tCALLEJA\tCALLEJA\tTYPE\t",
  c!"LEXENTRY:\tCALLEJO\tCALLEJON\tTYPE\t",
  c!"LEXENTRY:\tCALLEJON\tCALLEJON\tTYPE\t",
  c!"LEXENTRY:\tCALLEJÓN\tCALLEJON\tTYPE\t",
  c!"LEXENTRY:\tCALLER\tPOST OFFICE BOX\tBOXH\t",
  c!"LEXENTRY:\tCAM\tCAMINO\tTYPE\t",
  c!"LEXENTRY:\tCAMPO\tCAMPO\tTYPE\t",
  c!"LEXENTRY:\tCAMDEN ON GAULEY\tCAMDEN ON GAULEY\tCITY\t",
  c!"LEXENTRY:\tCAMINITO\tCAMINITO\tTYPE\t",
  c!"LEXENTRY:\tCAMINO\tCAMINO\tTYPE\t",
  c!"LEXENTRY:\tCAMP\tCAMP\tWORD\t",
  c!"LEXENTRY:\tCAMP H M SMITH\tCAMP H M SMITH\tCITY\t",
  c!"LEXENTRY:\tCAMP HM SMITH\tCAMP H M SMITH\tCITY\t",
  c!"LEXENTRY:\tCAMPER PARK\tTRAILER PARK\tBUILDT\t",
  c!"LEXENTRY:\tCAMPER PK\tTRAILER PARK\tBUILDT\t",
  c!"LEXENTRY:\tCAMPUS\tCAMPUS\tWORD,TYPE\t",
  c!"LEXENTRY:\tCANADA\tCANADA\tNATION,WORD\t",
  c!"LEXENTRY:\tCANADIAN FORCES BASE\tCANADIAN FORCES BASE\tBUILDT\t",
  c!"LEXENTRY:\tCANYN\tCANYON\tWORD\t",
  c!"LEXENTRY:\tCANYON\tCANYON\tWORD\t",
  c!"LEXENTRY:\tCAPE\tCAPE\tWORD,TYPE\t",
  c!"LEXENTRY:\tCARDIFF BY SEA\tCARDIFF BY THE SEA\tCITY\t",
  c!"LEXENTRY:\tCARDIFF BY THE SEA\tCARDIFF BY THE SEA\tCITY\t",
  c!"LEXENTRY:\tCARE OF\tCARE OF\tDASH\t",
  c!"LEXENTRY:\tCARR\tCARRETERA\tTYPE\t",
  c!"LEXENTRY:\tCARRE\tCARRE\tWORD,TYPE\t"]

/-- data/sample/usa.lex:402-451 -/
def entries8 : List Str := [
  c!"LEXENTRY:\tCARREF\tCARREFOUR\tTYPE\t",
  c!"LEXENTRY:\tCARREFOUR\tCARREFOUR\tTYPE\t",
  c!"LEXENTRY:\tCARRETERA\tCARRETERA\tTYPE\t",
  c!"LEXENTRY:\tCARRT\tCARRETERA\tTYPE\t",
  c!"LEXENTRY:\tCASTLETON ON HUDSON\tCASTLETON ON HUDSON\tCITY\t",
  c!"LEXENTRY:\tCAUSEWAY\tCAUSEWAY\tTYPE\t",
  c!"LEXENTRY:\tCAVE IN ROCK\tCAVE IN ROCK\tCITY\t",
  c!"LEXENTRY:\tCC\tCIRCUIT\tTYPE\t",
  c!"LEXENTRY:\tCDN\tCANADIAN\tWORD\t",
  c!"LEXENTRY:\tCDO\tCOMMERCIAL DEALERSHIP\tBUILDT\t",
  c!"LEXENTRY:\tCDS\tCUL DE SAC\tTYPE\t",
  c!"LEXENTRY:\tCE\tCENTRE\tTYPE\t",
  c!"LEXENTRY:\tCEN\tCENTER\tBUILDT,TYPE\t",
  c!"LEXENTRY:\tCENT\tCENTER\tBUILDT,TYPE\t",
  c!"LEXENTRY:\tCENTE\tCENTER\tBUILDT,TYPE\t",
  c!"LEXENTRY:\tCENTER\tCENTER\tBUILDT,TYPE,WORD\t",
  c!"LEXENTRY:\tCENTERS\tCENTER\tBUILDT\t",
  c!"LEXENTRY:\tCENTR\tCENTER\tBUILDT,TYPE\t",
  c!"LEXENTRY:\tCENTRAL\tCENTRAL\tWORD\t",
  c!"LEXENTRY:\tCENTRE\tCENTER\tBUILDT,TYPE,WORD\t",
  c!"LEXENTRY:\tCENTRES\tCENTER\tBUILDT\t",
  c!"LEXENTRY:\tCENTRO\tCENTER\tBUILDT,TYPE\t",
  c!"LEXENTRY:\tCERCLE\tCERCLE\tTYPE,WORD\t",
  c!"LEXENTRY:\tCFB\tCANADIAN FORCES BASE\tBUILDT\t",
  c!"LEXENTRY:\tCG\tCROSSING\tTYPE\t",
  c!"LEXENTRY:\tCH\tCHEMIN\tTYPE\t",
  c!"LEXENTRY:\tCH\tCHURCH\tBUILDT\t",
  c!"LEXENTRY:\tCHASE\tCHASE\tTYPE,WORD\t",
  c!"LEXENTRY:\tCHEMIN\tCHEMIN\tTYPE\t",
  c!"LEXENTRY:\tCHURCH\tCHURCH\tWORD,BUILDT\t",
  c!"LEXENTRY:\tCIR\tCIRCLE\tTYPE\t",
  c!"LEXENTRY:\tCIRC\tCIRCULO\tTYPE\t",
  c!"LEXENTRY:\tCIRCL\tCIRCLE\tTYPE\t",
  c!"LEXENTRY:\tCIRCLE\tCIRCLE\tTYPE,WORD\t",
  c!"LEXENTRY:\tCIRCT\tCIRCUIT\tTYPE,WORD\t",
  c!"LEXENTRY:\tCIRCUIT\tCIRCUIT\tTYPE,WORD\t",
  c!"LEXENTRY:\tCIRCULO\tCIRCULO\tTYPE\t",
  c!"LEXENTRY:\tCJA\tCALLEJA\tTYPE\t",
  c!"LEXENTRY:\tCJON\tCALLEJON\tTYPE\t",
  c!"LEXENTRY:\tCK\tCREEK\tWORD\t",
  c!"LEXENTRY:\tCL\tCIRCLE\tTYPE,WORD\t",
  c!"LEXENTRY:\tCLB\tCLUB\tTYPE,BUILDT,WORD\t",
  c!"LEXENTRY:\tCLF\tCLIFF\tWORD\t",
  c!"LEXENTRY:\tCLFS\tCLIFFS\tWORD\t",
  c!"LEXENTRY:\tCLG\tCOLLEGE\tBUILDT\t",
  c!"LEXENTRY:\tCLIFF\tCLIFF\tWORD\t",
  c!"LEXENTRY:\tCLIFFS\tCLIFFS\tWORD\t",
  c!"LEXENTRY:\tCLLE\tCALLE\tTYPE\t",
  c!"LEXENTRY:\tCLLJ\tCALLEJON\tTYPE\t",
  c!"LEXENTRY:\tCLOS\tCLOSE\tTYPE,WORD\t"]

/-- data/sample/usa.lex:452-501 -/
def entries9 : List Str := [
  c!"LEXENTRY:\tCLOSE\tCLOSE\tTYPE,WORD\t",
  c!"LEXENTRY:\tCLTN\tCOLLECTION\tBUILDT\t",
  c!"LEXENTRY:\tCLUB\tCLUB\tTYPE,BUILDT,WORD\t",
  c!"LEXENTRY:\tCMC\tCOMMUNITY MAIL CENTRE\tBUILDT\t",
  c!"LEXENTRY:\tCMNS\tCOMMONS\tTYPE,BUILDT\t",
  c!"LEXENTRY:\tCMP\tCAMP\tWORD\t",
  c!"LEXENTRY:\tCN\tCONCESSION\tTYPE,WORD\t",
  c!"LEXENTRY:\tCNCN\tCONNECTION\tBUILDT\t",
  c!"LEXENTRY:\tCNR\tCORNER\tBUILDT,TYPE\t",
  c!"LEXENTRY:\tCNT\tCENTER\tBUILDT,TYPE\t",
  c!"LEXENTRY:\tCNTER\tCENTER\tBUILDT,TYPE\t",
  c!"LEXENTRY:\tCNTR\tCENTER\tBUILDT,TYPE\t",
  c!"LEXENTRY:\tCNTRE\tCENTER\tBUILDT,TYPE\t",
  c!"LEXENTRY:\tCNTRL\tCENTRAL\tWORD\t",
  c!"LEXENTRY:\tCNTY HIGHWAY\tCOUNTY HIGHWAY\tROAD\t",
  c!"LEXENTRY:\tCNTY HIWAY\tCOUNTY HIGHWAY\tROAD\t",
  c!"LEXENTRY:\tCNTY HWY\tCOUNTY HIGHWAY\tROAD\t",
  c!"LEXENTRY:\tCNTY RD\tCOUNTY ROAD\tROAD,TYPE\t",
  c!"LEXENTRY:\tCNTY ROAD\tCOUNTY ROAD\tROAD,TYPE\t",
  c!"LEXENTRY:\tCNTY ROUTE\tCOUNTY ROUTE\tROAD\t",
  c!"LEXENTRY:\tCNTY RT\tCOUNTY ROUTE\tROAD\t",
  c!"LEXENTRY:\tCNTY RTE\tCOUNTY ROUTE\tROAD\t",
  c!"LEXENTRY:\tCNYN\tCANYON\tWORD\t",
  c!"LEXENTRY:\tCO\tCOLORADO\tPROV,WORD,ROAD\t",
  c!"LEXENTRY:\tCO\tCOTE\tTYPE\t",
  c!"LEXENTRY:\tCO HIGHWAY\tCOUNTY HIGHWAY\tROAD\t",
  c!"LEXENTRY:\tCO HIWAY\tCOUNTY HIGHWAY\tROAD\t",
  c!"LEXENTRY:\tCO HWY\tCOUNTY HIGHWAY\tROAD\t",
  c!"LEXENTRY:\tCO RD\tCOUNTY ROAD\tROAD,TYPE\t",
  c!"LEXENTRY:\tCO ROAD\tCOUNTY ROAD\tROAD,TYPE\t",
  c!"LEXENTRY:\tCO ROUTE\tCOUNTY ROUTE\tROAD\t",
  c!"LEXENTRY:\tCO RT\tCOUNTY ROUTE\tROAD\t",
  c!"LEXENTRY:\tCO RTE\tCOUNTY ROUTE\tROAD\t",
  c!"LEXENTRY:\tCOEUR D ALENE\tCOEUR D ALENE\tCITY\t",
  c!"LEXENTRY:\tCOEUR D'ALENE\tCOEUR D ALENE\tCITY\t",
  c!"LEXENTRY:\tCOHWY\tCOUNTY HIGHWAY\tROAD\t",
  c!"LEXENTRY:\tCOL\tCOLONEL\tWORD\t",
  c!"LEXENTRY:\tCOLL\tCOLLEGE\tBUILDT,WORD\t",
  c!"LEXENTRY:\tCOLLECTION\tCOLLECTION\tBUILDT\t",
  c!"LEXENTRY:\tCOLLEGE\tCOLLEGE\tBUILDT,BUILDH,WORD\t",
  c!"LEXENTRY:\tCOLOMBIE BRITANNIQUE\tBRITISH COLUMBIA\tPROV,WORD\t",
  c!"LEXENTRY:\tCOLONEL\tCOLONEL\tWORD\t",
  c!"LEXENTRY:\tCOLONIA\tCOLONIA\tTYPE,WORD\t",
  c!"LEXENTRY:\tCOLORADO\tCOLORADO\tPROV,WORD\t",
  c!"LEXENTRY:\tCOMMERCIAL DEALERSHIP OU\tCOMMERCIAL DEALERSHIP\tBUILDT\t",
  c!"LEXENTRY:\tCOMMON\tCOMMON\tTYPE\t",
  c!"LEXENTRY:\tCOMMON\tCOMMONS\tBUILDT\t",
  c!"LEXENTRY:\tCOMMONS\tCOMMONS\tTYPE,BUILDT\t",
  c!"LEXENTRY:\tCOMMUNITY MAIL CENTRE\tCOMMUNITY MAIL CENTRE\tBUILDT\t",
  c!"LEXENTRY:\tCOMN\tCOMMON\tTYPE\t"]

/-- data/sample/usa.lex:502-551 -/
def entries10 : List Str := [
  c!"LEXENTRY:\tCOMN\tCOMMONS\tBUILDT\t",
  c!"LEXENTRY:\tCOMP\tCOMPLEX\tBUILDT\t",
  c!"LEXENTRY:\tCOMPLEX\tCOMPLEX\tBUILDT\t",
  c!"LEXENTRY:\tCONC\tCONCESSION\tTYPE,WORD\t",
  c!"LEXENTRY:\tCONCESSION\tCONCESSION\tTYPE,WORD\t",
  c!"LEXENTRY:\tCOND\tCONDOMINIUMS\tBUILDT\t",
  c!"LEXENTRY:\tCONDO\tCONDOMINIUMS\tBUILDT\t",
  c!"LEXENTRY:\tCONDOMINIO\tCONDOMINIUMS\tBUILDT\t",
  c!"LEXENTRY:\tCONDOMINIUM\tCONDOMINIUMS\tBUILDT\t",
  c!"LEXENTRY:\tCONDOMINIUMS\tCONDOMINIUMS\tBUILDT\t",
  c!"LEXENTRY:\tCONDOS\tCONDOMINIUMS\tBUILDT\t",
  c!"LEXENTRY:\tCONN\tCONNECTICUT\tPROV,WORD,ROAD\t",
  c!"LEXENTRY:\tCONN\tCONNECTOR\tTYPE,QUALIF\t",
  c!"LEXENTRY:\tCONNECTICUT\tCONNECTICUT\tPROV,WORD\t",
  c!"LEXENTRY:\tCONNECTION\tCONNECTION\tBUILDT\t",
  c!"LEXENTRY:\tCONNECTOR\tCONNECTOR\tTYPE,QUALIF,WORD\t",
  c!"LEXENTRY:\tCONTRACT\tCONTRACT\tWORD\t",
  c!"LEXENTRY:\tCONTRACT\tHIGHWAY CONTRACT ROUTE\tRR\t",
  c!"LEXENTRY:\tCOOP\tCOOPERATIVE\tBUILDT,WORD\t",
  c!"LEXENTRY:\tCOOPERATIVE\tCOOPERATIVE\tBUILDT,WORD\t",
  c!"LEXENTRY:\tCOR\tCORNER\tWORD\t",
  c!"LEXENTRY:\tCOR\tCORNERS\tBUILDT\t",
  c!"LEXENTRY:\tCORD\tCOUNTY ROAD\tTYPE\t",
  c!"LEXENTRY:\tCORD\tCOUNTY ROUTE\tROAD\t",
  c!"LEXENTRY:\tCORNER\tCORNER\tBUILDT,WORD,TYPE\t",
  c!"LEXENTRY:\tCORNERS\tCORNERS\tTYPE,BUILDT,WORD\t",
  c!"LEXENTRY:\tCORNWALL ON HUDSON\tCORNWALL ON HUDSON\tCITY\t",
  c!"LEXENTRY:\tCORS\tCORNERS\tTYPE,BUILDT,WORD\t",
  c!"LEXENTRY:\tCORSO\tCORSO\tTYPE,WORD\t",
  c!"LEXENTRY:\tCORT\tCOUNTY ROUTE\tROAD\t",
  c!"LEXENTRY:\tCORTE\tCOUNTY ROUTE\tROAD\t",
  c!"LEXENTRY:\tCORTE\tCOURT\tTYPE\t",
  c!"LEXENTRY:\tCOTE\tCOTE\tTYPE,WORD\t",
  c!"LEXENTRY:\tCOTTAGE\tCOTTAGE\tBUILDT,BUILDH,WORD\t",
  c!"LEXENTRY:\tCOUNTY\tCOUNTY\tWORD\t",
  c!"LEXENTRY:\tCOUNTY\tCOUNTY ROAD\tROAD\t",
  c!"LEXENTRY:\tCOUNTY HIGHWAY\tCOUNTY HIGHWAY\tROAD\t",
  c!"LEXENTRY:\tCOUNTY HIWAY\tCOUNTY HIGHWAY\tROAD\t",
  c!"LEXENTRY:\tCOUNTY HWY\tCOUNTY HIGHWAY\tROAD\t",
  c!"LEXENTRY:\tCOUNTY RD\tCOUNTY ROAD\tROAD,TYPE\t",
  c!"LEXENTRY:\tCOUNTY ROAD\tCOUNTY ROAD\tROAD,TYPE\t",
  c!"LEXENTRY:\tCOUNTY ROUTE\tCOUNTY ROUTE\tROAD\t",
  c!"LEXENTRY:\tCOUNTY RT\tCOUNTY ROUTE\tROAD\t",
  c!"LEXENTRY:\tCOUNTY RTE\tCOUNTY ROUTE\tROAD\t",
  c!"LEXENTRY:\tCOUNTY TRUNK\tCOUNTY ROAD\tROAD\t",
  c!"LEXENTRY:\tCOUR\tCOUR\tTYPE\t",
  c!"LEXENTRY:\tCOURSE\tCOURSE\tWORD\t",
  c!"LEXENTRY:\tCOURT\tCOURT\tTYPE,WORD\t",
  c!"LEXENTRY:\tCOURT HOUSE\tCOURTHOUSE\tBUILDT\t",
  c!"LEXENTRY:\tCOURT HSE\tCOURTHOUSE\tBUILDT\t"]

/-- data/sample/usa.lex:552-601 -/
def entries11 : List Str := [
  c!"LEXENTRY:\tCOURT YARD\tCOURTYARD\tBUILDT\t",
  c!"LEXENTRY:\tCOURTHOUSE\tCOURTHOUSE\tBUILDT,WORD\t",
  c!"LEXENTRY:\tCOURTHSE\tCOURTHOUSE\tBUILDT\t",
  c!"LEXENTRY:\tCOURTS\tCOURTS\tTYPE,BUILDT,WORD\t",
  c!"LEXENTRY:\tCOURTYARD\tCOURTYARD\tBUILDT\t",
  c!"LEXENTRY:\tCOURTYARDS\tCOURTYARD\tBUILDT\t",
  c!"LEXENTRY:\tCOV\tCOVE\tTYPE\t",
  c!"LEXENTRY:\tCOVE\tCOVE\tTYPE\t",
  c!"LEXENTRY:\tCP\tCAMP\tWORD\t",
  c!"LEXENTRY:\tCPE\tCAPE\tWORD\t",
  c!"LEXENTRY:\tCPLX\tCOMPLEX\tBUILDT\t",
  c!"LEXENTRY:\tCPO\tPOST OFFICE BOX\tBOXH\t",
  c!"LEXENTRY:\tCPO BOX\tPOST OFFICE BOX\tBOXH\t",
  c!"LEXENTRY:\tCR\tCOUNTY ROAD\tROAD\t",
  c!"LEXENTRY:\tCR\tCRESCENT\tTYPE\t",
  c!"LEXENTRY:\tCRCL\tCIRCLE\tTYPE\t",
  c!"LEXENTRY:\tCRCLE\tCIRCLE\tTYPE\t",
  c!"LEXENTRY:\tCRDS\tCROSSROADS\tBUILDT\t",
  c!"LEXENTRY:\tCREEK\tCREEK\tWORD\t",
  c!"LEXENTRY:\tCRES\tCRESCENT\tTYPE\t",
  c!"LEXENTRY:\tCRESCENT\tCRESCENT\tTYPE,WORD\t",
  c!"LEXENTRY:\tCRESENT\tCRESCENT\tTYPE\t",
  c!"LEXENTRY:\tCRK\tCREEK\tWORD,TYPE\t",
  c!"LEXENTRY:\tCRNR\tCORNER\tBUILDT,TYPE\t",
  c!"LEXENTRY:\tCRNRS\tCORNERS\tTYPE\t",
  c!"LEXENTRY:\tCROISSANT\tCROISSANT\tTYPE,WORD\t",
  c!"LEXENTRY:\tCROSS\tCROSS\tTYPE,BUILDT\t",
  c!"LEXENTRY:\tCROSS ROAD\tCROSSROAD\tBUILDT\t",
  c!"LEXENTRY:\tCROSS ROADS\tCROSSROADS\tBUILDT\t",
  c!"LEXENTRY:\tCROSSING\tCROSSING\tTYPE,BUILDT\t",
  c!"LEXENTRY:\tCROSSINGS\tCROSSING\tBUILDT\t",
  c!"LEXENTRY:\tCROSSROAD\tCROSSROAD\tTYPE,WORD\t",
  c!"LEXENTRY:\tCROSSROADS\tCROSSROADS\tBUILDT\t",
  c!"LEXENTRY:\tCROTON ON HUDSON\tCROTON ON HUDSON\tCITY\t",
  c!"LEXENTRY:\tCRSCNT\tCRESCENT\tTYPE\t",
  c!"LEXENTRY:\tCRSE\tCOURSE\tWORD\t",
  c!"LEXENTRY:\tCRSENT\tCRESCENT\tTYPE\t",
  c!"LEXENTRY:\tCRSG\tCROSSING\tTYPE,BUILDT\t",
  c!"LEXENTRY:\tCRSGS\tCROSSING\tBUILDT\t",
  c!"LEXENTRY:\tCRSNT\tCRESCENT\tTYPE\t",
  c!"LEXENTRY:\tCRSSNG\tCROSSING\tTYPE,BUILDT\t",
  c!"LEXENTRY:\tCRST\tCRESCENT\tTYPE\t",
  c!"LEXENTRY:\tCRT\tCOURT\tTYPE\t",
  c!"LEXENTRY:\tCRT HSE\tCOURTHOUSE\tBUILDT\t",
  c!"LEXENTRY:\tCRTHSE\tCOURTHOUSE\tBUILDT\t",
  c!"LEXENTRY:\tCRU\tCRUCE\tTYPE\t",
  c!"LEXENTRY:\tCRUC\tCRUCE\tTYPE\t",
  c!"LEXENTRY:\tCRUCE\tCRUCE\tTYPE\t",
  c!"LEXENTRY:\tCRV\tCURVE\tTYPE\t",
  c!"LEXENTRY:\tCS\tCLOSE\tTYPE\t"]

/-- data/sample/usa.lex:602-651 -/
def entries12 : List Str := [
  c!"LEXENTRY:\tCSWY\tCAUSEWAY\tTYPE\t",
  c!"LEXENTRY:\tCT\tCONNECTICUT\tPROV,PROV,WORD,ROAD\t",
  c!"LEXENTRY:\tCT\tCOURT\tTYPE\t",
  c!"LEXENTRY:\tCT HSE\tCOURTHOUSE\tBUILDT\t",
  c!"LEXENTRY:\tCT YARD\tCOURTYARD\tBUILDT\t",
  c!"LEXENTRY:\tCT YD\tCOURTYARD\tBUILDT\t",
  c!"LEXENTRY:\tCTER\tCENTER\tBUILDT,TYPE\t",
  c!"LEXENTRY:\tCTHS\tCOURTHOUSE\tBUILDT\t",
  c!"LEXENTRY:\tCTHSE\tCOURTHOUSE\tBUILDT\t",
  c!"LEXENTRY:\tCTR\tCENTER\tBUILDT,TYPE\t",
  c!"LEXENTRY:\tCTRO\tCENTER\tBUILDT\t",
  c!"LEXENTRY:\tCTS\tCOURTS\tTYPE,BUILDT,WORD\t",
  c!"LEXENTRY:\tCTY HIGHWAY\tCOUNTY HIGHWAY\tROAD\t",
  c!"LEXENTRY:\tCTY HIWAY\tCOUNTY HIGHWAY\tROAD\t",
  c!"LEXENTRY:\tCTY HWY\tCOUNTY HIGHWAY\tROAD\t",
  c!"LEXENTRY:\tCTY RD\tCOUNTY ROAD\tROAD,TYPE\t",
  c!"LEXENTRY:\tCTY ROAD\tCOUNTY ROAD\tROAD,TYPE\t",
  c!"LEXENTRY:\tCTY ROUTE\tCOUNTY ROUTE\tROAD\t",
  c!"LEXENTRY:\tCTY RT\tCOUNTY ROUTE\tROAD\t",
  c!"LEXENTRY:\tCTY RTE\tCOUNTY ROUTE\tROAD\t",
  c!"LEXENTRY:\tCTYD\tCOURTYARD\tBUILDT\t",
  c!"LEXENTRY:\tCU\tCOUR\tTYPE\t",
  c!"LEXENTRY:\tCUESTA\tCUESTA\tTYPE\t",
  c!"LEXENTRY:\tCUL DE SAC\tCUL DE SAC\tTYPE\t",
  c!"LEXENTRY:\tCULDESAC\tCUL DE SAC\tTYPE\t",
  c!"LEXENTRY:\tCURRY RD\tCURRY ROAD\tROAD\t",
  c!"LEXENTRY:\tCURRY ROAD\tCURRY ROAD\tROAD\t",
  c!"LEXENTRY:\tCURV\tCURVE\tWORD,TYPE\t",
  c!"LEXENTRY:\tCURVE\tCURVE\tWORD,TYPE\t",
  c!"LEXENTRY:\tCUSHING\tHARVEY L CUSHING\tWORD\t",
  c!"LEXENTRY:\tCV\tCOVE\tTYPE\t",
  c!"LEXENTRY:\tCX\tCHASE\tTYPE\t",
  c!"LEXENTRY:\tCYN\tCANYON\tWORD\t",
  c!"LEXENTRY:\tCZ\tCORNERS\tTYPE\t",
  c!"LEXENTRY:\tD\tD\tSINGLE,STOPWORD\t",
  c!"LEXENTRY:\tD B A\tDBA\tWORD\t",
  c!"LEXENTRY:\tD HANIS\tD HANIS\tCITY\t",
  c!"LEXENTRY:\tD OR\tD OR\tWORD\t",
  c!"LEXENTRY:\tD'HANIS\tD HANIS\tCITY\t",
  c!"LEXENTRY:\tDALE\tDALE\tWORD,TYPE\t",
  c!"LEXENTRY:\tDAM\tDAM\tWORD\t",
  c!"LEXENTRY:\tDBA\tDBA\tWORD\t",
  c!"LEXENTRY:\tDC\tDISTRICT OF COLUMBIA\tPROV,WORD,ROAD\t",
  c!"LEXENTRY:\tDE\tDE\tSTOPWORD,ROAD\t",
  c!"LEXENTRY:\tDE\tDELAWARE\tPROV,WORD\t",
  c!"LEXENTRY:\tDE BEQUE\tDE BEQUE\tCITY\t",
  c!"LEXENTRY:\tDE BERRY\tDE BERRY\tCITY\t",
  c!"LEXENTRY:\tDE FOREST\tDE FOREST\tCITY\t",
  c!"LEXENTRY:\tDE GRAFF\tDE GRAFF\tCITY\t",
  c!"LEXENTRY:\tDE KALB\tDE KALB\tCITY\t"]

/-- data/sample/usa.lex:652-701 -/
def entries13 : List Str := [
  c!"LEXENTRY:\tDE KALB JUNCTION\tDE KALB JUNCTION\tCITY\t",
  c!"LEXENTRY:\tDE LA\tDE LA\tSTOPWORD\t",
  c!"LEXENTRY:\tDE LAND\tDE LAND\tCITY\t",
  c!"LEXENTRY:\tDE LAS\tDE LAS\tSTOPWORD\t",
  c!"LEXENTRY:\tDE LEON\tDE LEON\tCITY\t",
  c!"LEXENTRY:\tDE LEON SPRINGS\tDE LEON SPRINGS\tCITY\t",
  c!"LEXENTRY:\tDE LOS\tDE LOS\tSTOPWORD\t",
  c!"LEXENTRY:\tDE MOSSVILLE\tDE MOSSVILLE\tCITY\t",
  c!"LEXENTRY:\tDE PERE\tDE PERE\tCITY\t",
  c!"LEXENTRY:\tDE PEYSTER\tDE PEYSTER\tCITY\t",
  c!"LEXENTRY:\tDE QUEEN\tDE QUEEN\tCITY\t",
  c!"LEXENTRY:\tDE RUYTER\tDE RUYTER\tCITY\t",
  c!"LEXENTRY:\tDE SMET\tDE SMET\tCITY\t",
  c!"LEXENTRY:\tDE SOTO\tDE SOTO\tCITY\t",
  c!"LEXENTRY:\tDE TOUR VILLAGE\tDE TOUR VILLAGE\tCITY\t",
  c!"LEXENTRY:\tDE VALLS BLUFF\tDE VALLS BLUFF\tCITY\t",
  c!"LEXENTRY:\tDE WITT\tDE WITT\tCITY\t",
  c!"LEXENTRY:\tDE YOUNG\tDE YOUNG\tCITY\t",
  c!"LEXENTRY:\tDEL\tDE\tSTOPWORD\t",
  c!"LEXENTRY:\tDEL\tDELAWARE\tPROV,WORD,ROAD\t",
  c!"LEXENTRY:\tDELAWARE\tDELAWARE\tPROV,WORD\t",
  c!"LEXENTRY:\tDELL\tDELL\tWORD,TYPE\t",
  c!"LEXENTRY:\tDEPARTMENT\tDEPARTMENT\tUNITH,WORD\t",
  c!"LEXENTRY:\tDEPT\tDEPARTMENT\tUNITH,WORD\t",
  c!"LEXENTRY:\tDERE\tDERECHO\tUNITH\t",
  c!"LEXENTRY:\tDERECHO\tDERECHO\tUNITH\t",
  c!"LEXENTRY:\tDES\tDES\tSTOPWORD\t",
  c!"LEXENTRY:\tDEUX\t2\tWORD,NUMBER\t",
  c!"LEXENTRY:\tDEUXIEME\tDEUXIEME\tWORD\t",
  c!"LEXENTRY:\tDI\tDI\tSTOPWORD\t",
  c!"LEXENTRY:\tDI\tDIVERSION\tTYPE,WORD\t",
  c!"LEXENTRY:\tDISTRICT OF COLUMBIA\tDISTRICT OF COLUMBIA\tPROV,WORD\t",
  c!"LEXENTRY:\tDIV\tDIVIDE\tWORD\t",
  c!"LEXENTRY:\tDIVERS\tDIVERSION\tTYPE,WORD\t",
  c!"LEXENTRY:\tDIVERSION\tDIVERSION\tTYPE,WORD\t",
  c!"LEXENTRY:\tDIVIDE\tDIVIDE\tWORD\t",
  c!"LEXENTRY:\tDL\tDALE\tWORD\t",
  c!"LEXENTRY:\tDL\tDELL\tTYPE\t",
  c!"LEXENTRY:\tDM\tDAM\tWORD\t",
  c!"LEXENTRY:\tDNS\tDOWNS\tTYPE,WORD\t",
  c!"LEXENTRY:\tDO\tDOWNS\tTYPE\t",
  c!"LEXENTRY:\tDORM\tDORMITORY\tBUILDT\t",
  c!"LEXENTRY:\tDORMITORY\tDORMITORY\tBUILDT\t",
  c!"LEXENTRY:\tDOWN\tDOWN\tUNITT,WORD\t",
  c!"LEXENTRY:\tDOWNS\tDOWNS\tTYPE,WORD\t",
  c!"LEXENTRY:\tDOWNSTAIRS\tDOWNSTAIRS\tUNITT\t",
  c!"LEXENTRY:\tDR\tDOCTOR\tWORD\t",
  c!"LEXENTRY:\tDR\tDRIVE\tTYPE\t",
  c!"LEXENTRY:\tDRAW\tDRAW\tWORD,TYPE\t",
  c!"LEXENTRY:\tDRAWER\tPOST OFFICE BOX\tBOXH\t"]

/-- data/sample/usa.lex:702-751 -/
def entries14 : List Str := [
  c!"LEXENTRY:\tDRI\tDRIVE\tTYPE\t",
  c!"LEXENTRY:\tDRIVE\tDRIVE\tTYPE\t",
  c!"LEXENTRY:\tDRIVEWAY\tDRIVEWAY\tTYPE\t",
  c!"LEXENTRY:\tDRV\tDRIVE\tTYPE\t",
  c!"LEXENTRY:\tDRWY\tDRIVEWAY\tTYPE\t",
  c!"LEXENTRY:\tDU\tDU\tSTOPWORD\t",
  c!"LEXENTRY:\tDU BOIS\tDU BOIS\tCITY\t",
  c!"LEXENTRY:\tDU PONT\tDU PONT\tCITY\t",
  c!"LEXENTRY:\tDU QUOIN\tDU QUOIN\tCITY\t",
  c!"LEXENTRY:\tDV\tDIVIDE\tWORD\t",
  c!"LEXENTRY:\tE\tE\tSINGLE\t",
  c!"LEXENTRY:\tE\tEAST\tDIRECT\t",
  c!"LEXENTRY:\tE MC KEESPORT\tEAST MC KEESPORT\tCITY\t",
  c!"LEXENTRY:\tE MCKEESPORT\tEAST MC KEESPORT\tCITY\t",
  c!"LEXENTRY:\tEAST\tEAST\tDIRECT\t",
  c!"LEXENTRY:\tEAST & WEST\tEAST & WEST\tWORD\t",
  c!"LEXENTRY:\tEAST MC KEESPORT\tEAST MC KEESPORT\tCITY\t",
  c!"LEXENTRY:\tEAST MCKEESPORT\tEAST MC KEESPORT\tCITY\t",
  c!"LEXENTRY:\tEAST WEST\tEAST WEST\tWORD\t",
  c!"LEXENTRY:\tEASTBOUND\tEASTBOUND\tWORD,QUALIF\t",
  c!"LEXENTRY:\tECH\tECHANGEUR\tTYPE\t",
  c!"LEXENTRY:\tECHANGEUR\tECHANGEUR\tTYPE\t",
  c!"LEXENTRY:\tECHO\tECHO\tTYPE,WORD\t",
  c!"LEXENTRY:\tEDF\tEDIFICIO\tBUILDT\t",
  c!"LEXENTRY:\tEDIF\tEDIFICIO\tBUILDT\t",
  c!"LEXENTRY:\tEDIFICIO\tEDIFICIO\tBUILDT\t",
  c!"LEXENTRY:\tEIGHT\t8\tWORD,NUMBER\t",
  c!"LEXENTRY:\tEIGHT MILE\tEIGHT MILE\tWORD\t",
  c!"LEXENTRY:\tEIGHTEEEN MILE\tEIGHTEEEN MILE\tWORD\t",
  c!"LEXENTRY:\tEIGHTEEN\t18\tNUMBER,WORD\t",
  c!"LEXENTRY:\tEIGHTEENTH\t18\tWORD,ORD\t",
  c!"LEXENTRY:\tEIGHTH\t8\tWORD,ORD\t",
  c!"LEXENTRY:\tEIGHTIETH\t80\tWORD,ORD\t",
  c!"LEXENTRY:\tEIGHTY\t80\tNUMBER,WORD\t",
  c!"LEXENTRY:\tEIGHTY EIGHT\t88\tNUMBER,WORD\t",
  c!"LEXENTRY:\tEIGHTY EIGHTH\t88\tWORD,ORD\t",
  c!"LEXENTRY:\tEIGHTY FIFTH\t85\tWORD,ORD\t",
  c!"LEXENTRY:\tEIGHTY FIRST\t81\tWORD,ORD\t",
  c!"LEXENTRY:\tEIGHTY FIVE\t85\tNUMBER,WORD\t",
  c!"LEXENTRY:\tEIGHTY FOUR\t84\tNUMBER,WORD\t",
  c!"LEXENTRY:\tEIGHTY FOURTH\t84\tWORD,ORD\t",
  c!"LEXENTRY:\tEIGHTY NINE\t89\tNUMBER,WORD\t",
  c!"LEXENTRY:\tEIGHTY NINTH\t89\tWORD,ORD\t",
  c!"LEXENTRY:\tEIGHTY ONE\t81\tNUMBER,WORD\t",
  c!"LEXENTRY:\tEIGHTY SECOND\t82\tWORD,ORD\t",
  c!"LEXENTRY:\tEIGHTY SEVEN\t87\tNUMBER,WORD\t",
  c!"LEXENTRY:\tEIGHTY SEVENTH\t87\tWORD,ORD\t",
  c!"LEXENTRY:\tEIGHTY SIX\t86\tNUMBER,WORD\t",
  c!"LEXENTRY:\tEIGHTY SIXTH\t86\tWORD,ORD\t",
  c!"LEXENTRY:\tEIGHTY THIRD\t83\tWORD,ORD\t"]

/-- data/sample/usa.lex:752-801 -/
def entries15 : List Str := [
  c!"LEXENTRY:\tEIGHTY THREE\t83\tNUMBER,WORD\t",
  c!"LEXENTRY:\tEIGHTY TWO\t82\tNUMBER,WORD\t",
  c!"LEXENTRY:\tEL\tEL\tSTOPWORD\t",
  c!"LEXENTRY:\tEL CAJON\tEL CAJON\tCITY\t",
  c!"LEXENTRY:\tEL CAMINO\tCAMINO\tTYPE\t",
  c!"LEXENTRY:\tEL CAMPO\tEL CAMPO\tCITY\t",
  c!"LEXENTRY:\tEL CENTRO\tEL CENTRO\tCITY\t",
  c!"LEXENTRY:\tEL CERRITO\tEL CERRITO\tCITY\t",
  c!"LEXENTRY:\tEL DORADO\tEL DORADO\tCITY\t",
  c!"LEXENTRY:\tEL DORADO HILLS\tEL DORADO HILLS\tCITY\t",
  c!"LEXENTRY:\tEL DORADO SPRINGS\tEL DORADO SPRINGS\tCITY\t",
  c!"LEXENTRY:\tEL MIRAGE\tEL MIRAGE\tCITY\t",
  c!"LEXENTRY:\tEL MONTE\tEL MONTE\tCITY\t",
  c!"LEXENTRY:\tEL NIDO\tEL NIDO\tCITY\t",
  c!"LEXENTRY:\tEL PASO\tEL PASO\tCITY,WORD\t",
  c!"LEXENTRY:\tEL PRADO\tEL PRADO\tCITY\t",
  c!"LEXENTRY:\tEL RENO\tEL RENO\tCITY\t",
  c!"LEXENTRY:\tEL RITO\tEL RITO\tCITY\t",
  c!"LEXENTRY:\tEL SEGUNDO\tEL SEGUNDO\tCITY\t",
  c!"LEXENTRY:\tEL SOBRANTE\tEL SOBRANTE\tCITY\t",
  c!"LEXENTRY:\tELEVEN\t11\tNUMBER,WORD\t",
  c!"LEXENTRY:\tELEVEN MILE\tELEVEN MILE\tWORD\t",
  c!"LEXENTRY:\tELEVENTH\t11\tWORD,ORD\t",
  c!"LEXENTRY:\tEMS\tEMS\tROAD\t",
  c!"LEXENTRY:\tEN\tEND\tTYPE\t",
  c!"LEXENTRY:\tEND\tEND\tWORD,TYPE\t",
  c!"LEXENTRY:\tENT\tENTRY\tUNITT,TYPE\t",
  c!"LEXENTRY:\tENTREE\tENTREE\tUNITT,WORD\t",
  c!"LEXENTRY:\tENTRY\tENTRY\tUNITT,WORD\t",
  c!"LEXENTRY:\tES\tESPLANADE\tTYPE\t",
  c!"LEXENTRY:\tESP\tESPLANADE\tBUILDT\t",
  c!"LEXENTRY:\tESPL\tESPLANADE\tBUILDT,TYPE,WORD\t",
  c!"LEXENTRY:\tESPLANADE\tESPLANADE\tBUILDT,WORD,TYPE\t",
  c!"LEXENTRY:\tEST\tEST\tDIRECT\t",
  c!"LEXENTRY:\tEST\tESTATES\tWORD,BUILDT,TYPE\t",
  c!"LEXENTRY:\tESTATE\tESTATES\tWORD,BUILDT,TYPE\t",
  c!"LEXENTRY:\tESTATES\tESTATES\tWORD,BUILDT,TYPE\t",
  c!"LEXENTRY:\tESTE\tESTE\tDIRECT,WORD\t",
  c!"LEXENTRY:\tESTS\tESTATES\tWORD,BUILDT,TYPE\t",
  c!"LEXENTRY:\tET\tESTATES\tTYPE\t",
  c!"LEXENTRY:\tET\tET\tSTOPWORD\t",
  c!"LEXENTRY:\tET\tETAGE\tUNITT\t",
  c!"LEXENTRY:\tETAGE\tETAGE\tWORD,UNITT\t",
  c!"LEXENTRY:\tEX\tEXTENDED\tQUALIF\t",
  c!"LEXENTRY:\tEX\tEXTENSION\tTYPE\t",
  c!"LEXENTRY:\tEXCH\tEXCHANGE\tBUILDT,TYPE\t",
  c!"LEXENTRY:\tEXCHANGE\tEXCHANGE\tBUILDT,TYPE,WORD\t",
  c!"LEXENTRY:\tEXEC\tEXECUTIVE\tWORD\t",
  c!"LEXENTRY:\tEXECUTIVE\tEXECUTIVE\tWORD\t",
  c!"LEXENTRY:\tEXP\tEXPRESSWAY\tTYPE\t"]

/-- data/sample/usa.lex:802-851 -/
def entries16 : List Str := [
  c!"LEXENTRY:\tEXPR\tEXPRESSWAY\tTYPE\t",
  c!"LEXENTRY:\tEXPRESO\tEXPRESO\tTYPE\t",
  c!"LEXENTRY:\tEXPRESS\tEXPRESSWAY\tTYPE\t",
  c!"LEXENTRY:\tEXPRESSWAY\tEXPRESSWAY\tTYPE\t",
  c!"LEXENTRY:\tEXPW\tEXPRESSWAY\tTYPE\t",
  c!"LEXENTRY:\tEXPWAY\tEXPRESSWAY\tTYPE\t",
  c!"LEXENTRY:\tEXPWY\tEXPRESSWAY\tTYPE\t",
  c!"LEXENTRY:\tEXPY\tEXPRESSWAY\tTYPE\t",
  c!"LEXENTRY:\tEXT\tEXTENSION\tQUALIF,TYPE\t",
  c!"LEXENTRY:\tEXTD\tEXTENDED\tQUALIF\t",
  c!"LEXENTRY:\tEXTEN\tEXTENSION\tQUALIF,TYPE\t",
  c!"LEXENTRY:\tEXTENDED\tEXTENDED\tQUALIF\t",
  c!"LEXENTRY:\tEXTENSION\tEXTENSION\tQUALIF,TYPE\t",
  c!"LEXENTRY:\tEXTN\tEXTENSION\tQUALIF,TYPE\t",
  c!"LEXENTRY:\tEXTSN\tEXTENSION\tQUALIF,TYPE\t",
  c!"LEXENTRY:\tEXWY\tEXPRESSWAY\tTYPE\t",
  c!"LEXENTRY:\tF M\tFARM TO MARKET ROAD\tROAD\t",
  c!"LEXENTRY:\tF M RD\tFARM TO MARKET ROAD\tROAD,TYPE\t",
  c!"LEXENTRY:\tF M ROAD\tFARM TO MARKET ROAD\tROAD,TYPE\t",
  c!"LEXENTRY:\tFACTORY OUTLET\tOUTLET\tBUILDT\t",
  c!"LEXENTRY:\tFALL\tFALL\tWORD\t",
  c!"LEXENTRY:\tFALLS\tFALLS\tWORD\t",
  c!"LEXENTRY:\tFALLS OF ROUGH\tFALLS OF ROUGH\tCITY\t",
  c!"LEXENTRY:\tFARM\tFARM\tWORD,TYPE\t",
  c!"LEXENTRY:\tFARM MAINTENANCE RD\tFARM MAINTENANCE ROAD\tROAD,TYPE\t",
  c!"LEXENTRY:\tFARM MARKET ROAD\tFARM TO MARKET ROAD\tROAD,TYPE\t",
  c!"LEXENTRY:\tFARM TO MARKET ROAD\tFARM TO MARKET ROAD\tROAD,TYPE\t",
  c!"LEXENTRY:\tFEDERATED STATES OF MICRONESIA\tFM\tPROV\t",
  c!"LEXENTRY:\tFERRY\tFERRY\tWORD\t",
  c!"LEXENTRY:\tFERRY CROSSING\tFERRY\tWORD\t",
  c!"LEXENTRY:\tFEST\tFESTIVAL\tBUILDT\t",
  c!"LEXENTRY:\tFESTIVAL\tFESTIVAL\tBUILDT\t",
  c!"LEXENTRY:\tFIELD\tFIELD\tWORD,TYPE\t",
  c!"LEXENTRY:\tFIELDS\tFIELDS\tWORD\t",
  c!"LEXENTRY:\tFIFTEEN\t15\tNUMBER,WORD\t",
  c!"LEXENTRY:\tFIFTEEN MILE\tFIFTEEN MI\tWORD\t",
  c!"LEXENTRY:\tFIFTEENTH\t15\tWORD,ORD\t",
  c!"LEXENTRY:\tFIFTH\t5\tWORD,ORD\t",
  c!"LEXENTRY:\tFIFTIETH\t50\tWORD,ORD\t",
  c!"LEXENTRY:\tFIFTY\t50\tNUMBER,WORD\t",
  c!"LEXENTRY:\tFIFTY EIGHT\t58\tNUMBER,WORD\t",
  c!"LEXENTRY:\tFIFTY EIGHTH\t58\tWORD,ORD\t",
  c!"LEXENTRY:\tFIFTY FIFTH\t55\tWORD,ORD\t",
  c!"LEXENTRY:\tFIFTY FIRST\t51\tWORD,ORD\t",
  c!"LEXENTRY:\tFIFTY FIVE\t55\tNUMBER,WORD\t",
  c!"LEXENTRY:\tFIFTY FOUR\t54\tNUMBER,WORD\t",
  c!"LEXENTRY:\tFIFTY FOURTH\t54\tWORD,ORD\t",
  c!"LEXENTRY:\tFIFTY NINE\t59\tNUMBER,WORD\t",
  c!"LEXENTRY:\tFIFTY NINTH\t59\tWORD,ORD\t",
  c!"LEXENTRY:\tFIFTY ONE\t51\tNUMBER,WORD\t"]

/-- data/sample/usa.lex:852-901 -/
def entries17 : List Str := [
  c!"LEXENTRY:\tFIFTY SECOND\t52\tWORD,ORD\t",
  c!"LEXENTRY:\tFIFTY SEVEN\t57\tNUMBER,WORD\t",
  c!"LEXENTRY:\tFIFTY SEVENTH\t57\tWORD,ORD\t",
  c!"LEXENTRY:\tFIFTY SIX\t56\tNUMBER,WORD\t",
  c!"LEXENTRY:\tFIFTY SIXTH\t56\tWORD,ORD\t",
  c!"LEXENTRY:\tFIFTY THIRD\t53\tWORD,ORD\t",
  c!"LEXENTRY:\tFIFTY THREE\t53\tNUMBER,WORD\t",
  c!"LEXENTRY:\tFIFTY TWO\t52\tNUMBER,WORD\t",
  c!"LEXENTRY:\tFIRST\t1\tWORD,ORD\t",
  c!"LEXENTRY:\tFITCHBURG STATE\tFITCHBURG STATE\tWORD\t",
  c!"LEXENTRY:\tFIVE\t5\tNUMBER,WORD\t",
  c!"LEXENTRY:\tFIVE CEDARS\tFIVE CEDARS\tWORD\t",
  c!"LEXENTRY:\tFIVE CORNERS\tFIVE CORNERS\tWORD\t",
  c!"LEXENTRY:\tFIVE MILE\tFIVE MILE\tWORD\t",
  c!"LEXENTRY:\tFIVE POINTS\tFIVE POINTS\tWORD\t",
  c!"LEXENTRY:\tFIVE TOWN\tFIVE TOWN\tWORD\t",
  c!"LEXENTRY:\tFL\tFLOOR\tUNITT\t",
  c!"LEXENTRY:\tFL\tFLORIDA\tPROV,WORD,ROAD\t",
  c!"LEXENTRY:\tFLA\tFLORIDA\tPROV,WORD,ROAD\t",
  c!"LEXENTRY:\tFLAT\tFLAT\tWORD\t",
  c!"LEXENTRY:\tFLD\tFIELD\tWORD\t",
  c!"LEXENTRY:\tFLDS\tFIELDS\tWORD\t",
  c!"LEXENTRY:\tFLLS\tFALLS\tWORD\t",
  c!"LEXENTRY:\tFLOOR\tFLOOR\tUNITT,WORD\t",
  c!"LEXENTRY:\tFLORIDA\tFLORIDA\tPROV,WORD\t",
  c!"LEXENTRY:\tFLR\tFLOOR\tUNITT\t",
  c!"LEXENTRY:\tFLS\tFALLS\tWORD\t",
  c!"LEXENTRY:\tFLT\tFLAT\tWORD\t",
  c!"LEXENTRY:\tFLTS\tFLATS\tWORD\t",
  c!"LEXENTRY:\tFM\tFARM TO MARKET ROAD\tROAD\t",
  c!"LEXENTRY:\tFM\tFM\tPROV\t",
  c!"LEXENTRY:\tFM RD\tFARM TO MARKET ROAD\tROAD,TYPE\t",
  c!"LEXENTRY:\tFM ROAD\tFARM TO MARKET ROAD\tROAD,TYPE\t",
  c!"LEXENTRY:\tFMRD\tFARM TO MARKET ROAD\tROAD,TYPE\t",
  c!"LEXENTRY:\tFOND DU LAC\tFOND DU LAC\tCITY\t",
  c!"LEXENTRY:\tFORD\tFORD\tWORD\t",
  c!"LEXENTRY:\tFOREST\tFOREST\tWORD\t",
  c!"LEXENTRY:\tFORGE\tFORGE\tWORD\t",
  c!"LEXENTRY:\tFORK\tFORK\tWORD\t",
  c!"LEXENTRY:\tFORKS\tFORKS\tWORD\t",
  c!"LEXENTRY:\tFORKS OF SALMON\tFORKS OF SALMON\tCITY\t",
  c!"LEXENTRY:\tFORT\tFORT\tWORD\t",
  c!"LEXENTRY:\tFORT GEORGE G MEADE\tFORT GEORGE G MEADE\tCITY\t",
  c!"LEXENTRY:\tFORT GEORGE MEADE\tFORT GEORGE G MEADE\tCITY\t",
  c!"LEXENTRY:\tFORT MC COY\tFORT MC COY\tCITY\t",
  c!"LEXENTRY:\tFORT MC KAVETT\tFORT MC KAVETT\tCITY\t",
  c!"LEXENTRY:\tFORT MCCOY\tFORT MC COY\tCITY\t",
  c!"LEXENTRY:\tFORT MCKAVETT\tFORT MC KAVETT\tCITY\t",
  c!"LEXENTRY:\tFORT MEADE\tFORT GEORGE G MEADE\tCITY\t",
  c!"LEXENTRY:\tFORT MITCHELL\tFORT MITCHELL\tCITY\t"]

/-- data/sample/usa.lex:902-951 -/
def entries18 : List Str := [
  c!"LEXENTRY:\tFORT MYER\tFORT MYER\tCITY\t",
  c!"LEXENTRY:\tFORT WARREN AFB\tFORT WARREN AFB\tCITY\t",
  c!"LEXENTRY:\tFORTIETH\t40\tWORD,ORD\t",
  c!"LEXENTRY:\tFORTS\tFORT\tWORD\t",
  c!"LEXENTRY:\tFORTY\t40\tNUMBER,WORD\t",
  c!"LEXENTRY:\tFORTY EIGHT\t48\tNUMBER,WORD\t",
  c!"LEXENTRY:\tFORTY EIGHTH\t48\tWORD,ORD\t",
  c!"LEXENTRY:\tFORTY FIFTH\t45\tWORD,ORD\t",
  c!"LEXENTRY:\tFORTY FIRST\t41\tWORD,ORD\t",
  c!"LEXENTRY:\tFORTY FIVE\t45\tNUMBER,WORD\t",
  c!"LEXENTRY:\tFORTY FOUR\t44\tNUMBER,WORD\t",
  c!"LEXENTRY:\tFORTY FOURTH\t44\tWORD,ORD\t",
  c!"LEXENTRY:\tFORTY NINE\t49\tNUMBER,WORD\t",
  c!"LEXENTRY:\tFORTY NINTH\t49\tWORD,ORD\t",
  c!"LEXENTRY:\tFORTY ONE\t41\tNUMBER,WORD\t",
  c!"LEXENTRY:\tFORTY SECOND\t42\tWORD,ORD\t",
  c!"LEXENTRY:\tFORTY SEVEN\t47\tNUMBER,WORD\t",
  c!"LEXENTRY:\tFORTY SEVENTH\t47\tWORD,ORD\t",
  c!"LEXENTRY:\tFORTY SIX\t46\tNUMBER,WORD\t",
  c!"LEXENTRY:\tFORTY SIXTH\t46\tWORD,ORD\t",
  c!"LEXENTRY:\tFORTY THIRD\t43\tWORD,ORD\t",
  c!"LEXENTRY:\tFORTY THREE\t43\tNUMBER,WORD\t",
  c!"LEXENTRY:\tFORTY TWO\t42\tNUMBER,WORD\t",
  c!"LEXENTRY:\tFOUR\t4\tNUMBER,WORD\t",
  c!"LEXENTRY:\tFOUR CORNERS\tFOUR CORNERS\tWORD\t",
  c!"LEXENTRY:\tFOUR FLAGS\tFOUR FLAGS\tWORD\t",
  c!"LEXENTRY:\tFOUR MILE\tFOUR MILE\tWORD\t",
  c!"LEXENTRY:\tFOURTEEN\t14\tNUMBER,WORD\t",
  c!"LEXENTRY:\tFOURTEEN MILE\tFOURTEEN MILE\tWORD\t",
  c!"LEXENTRY:\tFOURTEENTH\t14\tWORD,ORD\t",
  c!"LEXENTRY:\tFOURTH\t4\tWORD,ORD\t",
  c!"LEXENTRY:\tFPO\tFPO\tBOXH\t",
  c!"LEXENTRY:\tFRD\tFORD\tWORD\t",
  c!"LEXENTRY:\tFREEWAY\tFREEWAY\tTYPE\t",
  c!"LEXENTRY:\tFREEWY\tFREEWAY\tTYPE\t",
  c!"LEXENTRY:\tFRG\tFORGE\tWORD\t",
  c!"LEXENTRY:\tFRK\tFORK\tWORD\t",
  c!"LEXENTRY:\tFRKS\tFORKS\tWORD,WORD\t",
  c!"LEXENTRY:\tFRNT\tFRONT\tWORD,UNITT\t",
  c!"LEXENTRY:\tFROM\tFROM\tWORD\t",
  c!"LEXENTRY:\tFRONT\tFRONT\tWORD,UNITT,TYPE\t",
  c!"LEXENTRY:\tFRONTAGE\tFRONT\tWORD\t",
  c!"LEXENTRY:\tFRST\tFOREST\tWORD,TYPE\t",
  c!"LEXENTRY:\tFRT\tFORT\tWORD\t",
  c!"LEXENTRY:\tFRWAY\tFREEWAY\tTYPE\t",
  c!"LEXENTRY:\tFRWY\tFREEWAY\tTYPE\t",
  c!"LEXENTRY:\tFRY\tFERRY\tWORD\t",
  c!"LEXENTRY:\tFS RD\tFOREST SERVICE ROAD\tTYPE\t",
  c!"LEXENTRY:\tFT\tFORT\tWORD\t",
  c!"LEXENTRY:\tFT MITCHELL\tFORT MITCHELL\tCITY\t"]

/-- data/sample/usa.lex:952-1001 -/
def entries19 : List Str := [
  c!"LEXENTRY:\tFT MYER\tFORT MYER\tCITY\t",
  c!"LEXENTRY:\tFT WARREN AFB\tFORT WARREN AFB\tCITY\t",
  c!"LEXENTRY:\tFWD\tFOUR WHEEL DRIVE TRAIL\tTYPE\t",
  c!"LEXENTRY:\tFWY\tFREEWAY\tTYPE\t",
  c!"LEXENTRY:\tFX\tFOX\tWORD\t",
  c!"LEXENTRY:\tG DEL\tGENERAL DELIVERY\tBOXH\t",
  c!"LEXENTRY:\tG DELIVERY\tGENERAL DELIVERY\tBOXH\t",
  c!"LEXENTRY:\tGA\tGARDENS\tTYPE\t",
  c!"LEXENTRY:\tGA\tGEORGIA\tPROV,WORD,ROAD\t",
  c!"LEXENTRY:\tGALLERIA\tGALLERIA\tWORD,BUILDT\t",
  c!"LEXENTRY:\tGALLERIE\tGALLERIA\tWORD,BUILDT\t",
  c!"LEXENTRY:\tGALR\tGALLERIA\tBUILDT\t",
  c!"LEXENTRY:\tGARDEN\tGARDEN\tWORD\t",
  c!"LEXENTRY:\tGARDENS\tGARDENS\tWORD,TYPE,BUILDT\t",
  c!"LEXENTRY:\tGATE\tGATE\tWORD,TYPE\t",
  c!"LEXENTRY:\tGATEWAY\tGATEWAY\tWORD,BUILDT\t",
  c!"LEXENTRY:\tGD\tGENERAL DELIVERY\tBOXH\t",
  c!"LEXENTRY:\tGD\tGROUNDS\tTYPE\t",
  c!"LEXENTRY:\tGDN\tGARDEN\tWORD,BUILDT\t",
  c!"LEXENTRY:\tGDNS\tGARDEN\tWORD\t",
  c!"LEXENTRY:\tGDNS\tGARDENS\tTYPE,BUILDT\t",
  c!"LEXENTRY:\tGDS\tGARDEN\tWORD\t",
  c!"LEXENTRY:\tGDS\tGARDENS\tTYPE\t",
  c!"LEXENTRY:\tGEN D\tGENERAL DELIVERY\tBOXH\t",
  c!"LEXENTRY:\tGEN DEL\tGENERAL DELIVERY\tBOXH\t",
  c!"LEXENTRY:\tGEN DELIVERY\tGENERAL DELIVERY\tBOXH\t",
  c!"LEXENTRY:\tGENDEL\tGENERAL DELIVERY\tBOXH\t",
  c!"LEXENTRY:\tGENERAL D\tGENERAL DELIVERY\tBOXH\t",
  c!"LEXENTRY:\tGENERAL DEL\tGENERAL DELIVERY\tBOXH\t",
  c!"LEXENTRY:\tGENERAL DELIVERY\tGENERAL DELIVERY\tBOXH\t",
  c!"LEXENTRY:\tGEORGIA\tGEORGIA\tPROV,WORD\t",
  c!"LEXENTRY:\tGL\tGLEN\tTYPE\t",
  c!"LEXENTRY:\tGLADE\tGLADE\tWORD,TYPE\t",
  c!"LEXENTRY:\tGLEN\tGLEN\tWORD,TYPE\t",
  c!"LEXENTRY:\tGLN\tGLEN\tWORD,TYPE\t",
  c!"LEXENTRY:\tGNDL\tGENERAL DELIVERY\tBOXH\t",
  c!"LEXENTRY:\tGOV\tGOVERNOR\tWORD\t",
  c!"LEXENTRY:\tGOVERNOR\tGOVERNOR\tWORD\t",
  c!"LEXENTRY:\tGPO\tGPO\tBOXH\t",
  c!"LEXENTRY:\tGR\tGREEN\tTYPE\t",
  c!"LEXENTRY:\tGR\tGROUND\tWORD\t",
  c!"LEXENTRY:\tGREEN\tGREEN\tWORD,TYPE\t",
  c!"LEXENTRY:\tGREENE RD\tGREENE ROAD\tROAD\t",
  c!"LEXENTRY:\tGREENE ROAD\tGREENE ROAD\tROAD\t",
  c!"LEXENTRY:\tGRN\tGREEN\tWORD,TYPE\t",
  c!"LEXENTRY:\tGRNDS\tGROUNDS\tWORD,TYPE\t",
  c!"LEXENTRY:\tGROUND\tGROUND\tWORD\t",
  c!"LEXENTRY:\tGROUNDS\tGROUNDS\tWORD,TYPE\t",
  c!"LEXENTRY:\tGROVE\tGROVE\tWORD,TYPE\t",
  c!"LEXENTRY:\tGRV\tGROVE\tWORD,TYPE\t"]

/-- data/sample/usa.lex:1002-1051 -/
def entries20 : List Str := [
  c!"LEXENTRY:\tGT\tGATE\tTYPE\t",
  c!"LEXENTRY:\tGTWAY\tGATEWAY\tWORD,BUILDT\t",
  c!"LEXENTRY:\tGTWY\tGATEWAY\tWORD,BUILDT\t",
  c!"LEXENTRY:\tGU\tGU\tPROV\t",
  c!"LEXENTRY:\tGUAM\tGU\tPROV\t",
  c!"LEXENTRY:\tGV\tGROVE\tTYPE\t",
  c!"LEXENTRY:\tH C\tHIGHWAY CONTRACT ROUTE\tRR\t",
  c!"LEXENTRY:\tH C R\tHIGHWAY CONTRACT ROUTE\tRR\t",
  c!"LEXENTRY:\tH CONT\tHIGHWAY CONTRACT ROUTE\tRR\t",
  c!"LEXENTRY:\tH CONTRACT\tHIGHWAY CONTRACT ROUTE\tRR\t",
  c!"LEXENTRY:\tH0\tHOLLOW\tWORD\t",
  c!"LEXENTRY:\tH0LL0W\tHOLLOW\tTYPE\t",
  c!"LEXENTRY:\tHALF\tHALF\tWORD\t",
  c!"LEXENTRY:\tHALL\tHALL\tBUILDT,WORD\t",
  c!"LEXENTRY:\tHANGER\tHANGER\tUNITH,WORD\t",
  c!"LEXENTRY:\tHARBOR\tHARBOR\tWORD\t",
  c!"LEXENTRY:\tHARBOUR\tHARBOR\tWORD,TYPE,BUILDT\t",
  c!"LEXENTRY:\tHARBR\tHARBOR\tWORD,TYPE,BUILDT\t",
  c!"LEXENTRY:\tHARVEY CUSHING\tHARVEY L CUSHING\tWORD\t",
  c!"LEXENTRY:\tHARVEY L CUSHING\tHARVEY L CUSHING\tWORD\t",
  c!"LEXENTRY:\tHASTINGS ON HUDSON\tHASTINGS ON HUDSON\tCITY\t",
  c!"LEXENTRY:\tHAVEN\tHAVEN\tWORD\t",
  c!"LEXENTRY:\tHAVRE DE GRACE\tHAVRE DE GRACE\tCITY\t",
  c!"LEXENTRY:\tHAWAII\tHAWAII\tPROV,WORD\t",
  c!"LEXENTRY:\tHBR\tHARBOR\tWORD,TYPE,BUILDT\t",
  c!"LEXENTRY:\tHC\tHIGHWAY CONTRACT ROUTE\tRR\t",
  c!"LEXENTRY:\tHC RT\tHIGHWAY CONTRACT ROUTE\tRR\t",
  c!"LEXENTRY:\tHC RTE\tHIGHWAY CONTRACT ROUTE\tRR\t",
  c!"LEXENTRY:\tHCO\tHIGHWAY CONTRACT ROUTE\tRR\t",
  c!"LEXENTRY:\tHCR\tHIGHWAY CONTRACT ROUTE\tRR\t",
  c!"LEXENTRY:\tHCRT\tHIGHWAY CONTRACT ROUTE\tRR\t",
  c!"LEXENTRY:\tHEIGHT\tHEIGHTS\tWORD\t",
  c!"LEXENTRY:\tHEIGHTS\tHEIGHTS\tWORD,TYPE,BUILDT\t",
  c!"LEXENTRY:\tHGHLDS\tHIGHLANDS\tWORD,TYPE\t",
  c!"LEXENTRY:\tHGT\tHEIGHTS\tWORD,TYPE,BUILDT\t",
  c!"LEXENTRY:\tHGTS\tHEIGHTS\tWORD,TYPE,BUILDT\t",
  c!"LEXENTRY:\tHGWY\tHIGHWAY\tROAD,TYPE\t",
  c!"LEXENTRY:\tHGWY CONTRACT\tHIGHWAY CONTRACT ROUTE\tRR\t",
  c!"LEXENTRY:\tHGWY FM\tFARM TO MARKET ROAD\tROAD\t",
  c!"LEXENTRY:\tHGY\tHIGHWAY\tROAD,TYPE\t",
  c!"LEXENTRY:\tHGY FM\tFARM TO MARKET ROAD\tROAD\t",
  c!"LEXENTRY:\tHI\tHAWAII\tPROV,WORD,ROAD\t",
  c!"LEXENTRY:\tHI\tHIGHWAY\tROAD,TYPE\t",
  c!"LEXENTRY:\tHI HAT\tHI HAT\tCITY\t",
  c!"LEXENTRY:\tHIGH CONT\tHIGHWAY CONTRACT ROUTE\tRR\t",
  c!"LEXENTRY:\tHIGH CONTRACT\tHIGHWAY CONTRACT ROUTE\tRR\t",
  c!"LEXENTRY:\tHIGHLANDS\tHIGHLANDS\tWORD,TYPE\t",
  c!"LEXENTRY:\tHIGHWAY\tHIGHWAY\tROAD,TYPE\t",
  c!"LEXENTRY:\tHIGHWAY CONT\tHIGHWAY CONTRACT ROUTE\tRR\t",
  c!"LEXENTRY:\tHIGHWAY CONTRACT\tHIGHWAY CONTRACT ROUTE\tRR\t"]

/-- data/sample/usa.lex:1052-1101 -/
def entries21 : List Str := [
  c!"LEXENTRY:\tHIGHWAY CONTRACT ROUTE\tHIGHWAY CONTRACT ROUTE\tRR\t",
  c!"LEXENTRY:\tHIGHWAY FM\tFARM TO MARKET ROAD\tROAD\t",
  c!"LEXENTRY:\tHIGHWY\tHIGHWAY\tROAD,TYPE\t",
  c!"LEXENTRY:\tHIGHWY FM\tFARM TO MARKET ROAD\tROAD\t",
  c!"LEXENTRY:\tHILL\tHILL\tWORD,TYPE\t",
  c!"LEXENTRY:\tHILLS\tHILLS\tWORD\t",
  c!"LEXENTRY:\tHIWAY\tHIGHWAY\tROAD,TYPE\t",
  c!"LEXENTRY:\tHIWAY CONTRACT\tHIGHWAY CONTRACT ROUTE\tRR\t",
  c!"LEXENTRY:\tHIWAY FM\tFARM TO MARKET ROAD\tROAD\t",
  c!"LEXENTRY:\tHIWY\tHIGHWAY\tROAD,TYPE\t",
  c!"LEXENTRY:\tHIWY FM\tFARM TO MARKET ROAD\tROAD\t",
  c!"LEXENTRY:\tHL\tHILL\tWORD,TYPE\t",
  c!"LEXENTRY:\tHLLW\tHOLLOW\tWORD,TYPE\t",
  c!"LEXENTRY:\tHLS\tHILLS\tWORD\t",
  c!"LEXENTRY:\tHNGR\tHANGER\tUNITH,WORD\t",
  c!"LEXENTRY:\tHO\tHOLLOW\tTYPE\t",
  c!"LEXENTRY:\tHO HO KUS\tHO HO KUS\tCITY\t",
  c!"LEXENTRY:\tHOL\tHOLLOW\tWORD,TYPE\t",
  c!"LEXENTRY:\tHOLLOW\tHOLLOW\tWORD\t",
  c!"LEXENTRY:\tHOLW\tHOLLOW\tWORD,TYPE\t",
  c!"LEXENTRY:\tHOME\tHOME\tBUILDT,WORD\t",
  c!"LEXENTRY:\tHOMES\tHOME\tBUILDT\t",
  c!"LEXENTRY:\tHOSP\tHOSPITAL\tBUILDT\t",
  c!"LEXENTRY:\tHOSPITAL\tHOSPITAL\tBUILDT\t",
  c!"LEXENTRY:\tHOTEL\tHOTEL\tBUILDT,BUILDH\t",
  c!"LEXENTRY:\tHOUS\tHOUSE\tBUILDT,BUILDH\t",
  c!"LEXENTRY:\tHOUSE\tHOUSE\tBUILDT,BUILDH,WORD\t",
  c!"LEXENTRY:\tHOUSING PROJ\tPROJECTS\tBUILDT\t",
  c!"LEXENTRY:\tHOUSING PROJECTS\tPROJECTS\tBUILDT\t",
  c!"LEXENTRY:\tHOWEY IN HILLS\tHOWEY IN THE HILLS\tCITY\t",
  c!"LEXENTRY:\tHOWEY IN THE HILLS\tHOWEY IN THE HILLS\tCITY\t",
  c!"LEXENTRY:\tHRBOR\tHARBOR\tWORD,TYPE,BUILDT\t",
  c!"LEXENTRY:\tHRBR\tHARBOR\tWORD,TYPE,BUILDT\t",
  c!"LEXENTRY:\tHSE\tHOUSE\tBUILDT,BUILDH\t",
  c!"LEXENTRY:\tHSE PROJ\tPROJECTS\tBUILDT\t",
  c!"LEXENTRY:\tHSE PROJECTS\tPROJECTS\tBUILDT\t",
  c!"LEXENTRY:\tHT\tHEIGHTS\tWORD,TYPE,BUILDT\t",
  c!"LEXENTRY:\tHTL\tHOTEL\tBUILDT,BUILDH\t",
  c!"LEXENTRY:\tHTS\tHEIGHTS\tWORD,TYPE,BUILDT\t",
  c!"LEXENTRY:\tHUI RD\tHUI ROAD\tROAD\t",
  c!"LEXENTRY:\tHUI ROAD\tHUI ROAD\tROAD\t",
  c!"LEXENTRY:\tHVN\tHAVEN\tWORD\t",
  c!"LEXENTRY:\tHW\tHIGHWAY\tROAD,TYPE\t",
  c!"LEXENTRY:\tHWAY\tHIGHWAY\tROAD,TYPE\t",
  c!"LEXENTRY:\tHWC\tHIGHWAY CONTRACT ROUTE\tRR\t",
  c!"LEXENTRY:\tHWY\tHIGHWAY\tROAD,TYPE\t",
  c!"LEXENTRY:\tHWY CONT\tHIGHWAY CONTRACT ROUTE\tRR\t",
  c!"LEXENTRY:\tHWY CONTRACT\tHIGHWAY CONTRACT ROUTE\tRR\t",
  c!"LEXENTRY:\tHWY FM\tFARM TO MARKET ROAD\tROAD\t",
  c!"LEXENTRY:\tHWYS\tHIGHWAYS\tWORD\t"]

/-- data/sample/usa.lex:1102-1151 -/
def entries22 : List Str := [
  c!"LEXENTRY:\tHY\tHIGHWAY\tROAD,TYPE\t",
  c!"LEXENTRY:\tHY CONT\tHIGHWAY CONTRACT ROUTE\tRR\t",
  c!"LEXENTRY:\tHY CONTRACT\tHIGHWAY CONTRACT ROUTE\tRR\t",
  c!"LEXENTRY:\tHYWY\tHIGHWAY\tROAD,TYPE\t",
  c!"LEXENTRY:\tI\tI\tSINGLE\t",
  c!"LEXENTRY:\tI\tINTERSTATE HIGHWAY\tROAD\t",
  c!"LEXENTRY:\tI H\tINTERSTATE HIGHWAY\tROAD\t",
  c!"LEXENTRY:\tIA\tIOWA\tPROV,WORD,ROAD\t",
  c!"LEXENTRY:\tIC\tINDUSTRIAL PARK\tBUILDT\t",
  c!"LEXENTRY:\tICHG\tINTERCHANGE\tWORD\t",
  c!"LEXENTRY:\tID\tIDAHO\tPROV,WORD,ROAD\t",
  c!"LEXENTRY:\tIDAHO\tIDAHO\tPROV,WORD\t",
  c!"LEXENTRY:\tIH\tINTERSTATE HIGHWAY\tROAD\t",
  c!"LEXENTRY:\tIL\tILLINOIS\tPROV,WORD,ROAD\t",
  c!"LEXENTRY:\tILE\tILE\tWORD,TYPE\t",
  c!"LEXENTRY:\tILE DU PRINCE EDOUARD\tPRINCE EDWARD ISLAND\tPROV,WORD\t",
  c!"LEXENTRY:\tILL\tILLINOIS\tPROV,WORD,ROAD\t",
  c!"LEXENTRY:\tILLINOIS\tILLINOIS\tPROV,WORD\t",
  c!"LEXENTRY:\tIM\tIMPASSE\tTYPE\t",
  c!"LEXENTRY:\tIMM\tIMMEUBLE\tBUILDT,BUILDH\t",
  c!"LEXENTRY:\tIMMEUBLE\tIMMEUBLE\tBUILDT,BUILDH\t",
  c!"LEXENTRY:\tIMP\tIMPASSE\tTYPE\t",
  c!"LEXENTRY:\tIMPASSE\tIMPASSE\tTYPE\t",
  c!"LEXENTRY:\tIN\tINDIANA\tPROV,WORD,ROAD\t",
  c!"LEXENTRY:\tIN CARE OF\tCARE OF\tDASH\t",
  c!"LEXENTRY:\tINCTR\tINDUSTRIAL PARK\tBUILDT\t",
  c!"LEXENTRY:\tIND\tINDIANA\tPROV,WORD,ROAD\t",
  c!"LEXENTRY:\tIND PARK\tINDUSTRIAL PARK\tBUILDT\t",
  c!"LEXENTRY:\tIND PK\tINDUSTRIAL PARK\tBUILDT\t",
  c!"LEXENTRY:\tINDC\tINDUSTRIAL PARK\tBUILDT\t",
  c!"LEXENTRY:\tINDIANA\tINDIANA\tPROV,WORD\t",
  c!"LEXENTRY:\tINDL\tINDUSTRIAL\tWORD\t",
  c!"LEXENTRY:\tINDL CTR\tINDUSTRIAL PARK\tBUILDT\t",
  c!"LEXENTRY:\tINDL PARK\tINDUSTRIAL PARK\tBUILDT\t",
  c!"LEXENTRY:\tINDL PK\tINDUSTRIAL PARK\tBUILDT\t",
  c!"LEXENTRY:\tINDUSTRIAL\tINDUSTRIAL\tWORD\t",
  c!"LEXENTRY:\tINDUSTRIAL CENTER\tINDUSTRIAL PARK\tBUILDT\t",
  c!"LEXENTRY:\tINDUSTRIAL CTR\tINDUSTRIAL PARK\tBUILDT\t",
  c!"LEXENTRY:\tINDUSTRIAL PARK\tINDUSTRIAL PARK\tBUILDT\t",
  c!"LEXENTRY:\tINDUSTRIAL PK\tINDUSTRIAL PARK\tBUILDT\t",
  c!"LEXENTRY:\tINLET\tINLET\tWORD\t",
  c!"LEXENTRY:\tINLT\tINLET\tWORD\t",
  c!"LEXENTRY:\tINN\tINN\tBUILDT,WORD\t",
  c!"LEXENTRY:\tINPK\tINDUSTRIAL PARK\tBUILDT\t",
  c!"LEXENTRY:\tINSTITUTE\tINSTITUTE\tWORD,BUILDH,BUILDT\t",
  c!"LEXENTRY:\tINT L\tINTERNATIONAL\tWORD\t",
  c!"LEXENTRY:\tINTE\tINTERIOR\tUNITT\t",
  c!"LEXENTRY:\tINTERCHANGE\tINTERCHANGE\tWORD\t",
  c!"LEXENTRY:\tINTERIOR\tINTERIOR\tWORD,UNITT\t",
  c!"LEXENTRY:\tINTERNATIONAL\tINTERNATIONAL\tWORD\t"]

/-- data/sample/usa.lex:1152-1201 -/
def entries23 : List Str := [
  c!"LEXENTRY:\tINTERSECTION\tINTERSECTION\tWORD\t",
  c!"LEXENTRY:\tINTERSTATE\tINTERSTATE HIGHWAY\tROAD,WORD\t",
  c!"LEXENTRY:\tINTERSTATE HIGHWAY\tINTERSTATE HIGHWAY\tROAD,WORD\t",
  c!"LEXENTRY:\tINTERSTATE HWY\tINTERSTATE HIGHWAY\tROAD,WORD\t",
  c!"LEXENTRY:\tINTL\tINTERNATIONAL\tWORD\t",
  c!"LEXENTRY:\tINTR\tINTERSECTION\tWORD\t",
  c!"LEXENTRY:\tIOWA\tIOWA\tPROV,WORD\t",
  c!"LEXENTRY:\tIP\tINDUSTRIAL PARK\tBUILDT\t",
  c!"LEXENTRY:\tIPRK\tINDUSTRIAL PARK\tBUILDT\t",
  c!"LEXENTRY:\tIS\tINTERSTATE HIGHWAY\tROAD\t",
  c!"LEXENTRY:\tIS\tISLAND\tTYPE\t",
  c!"LEXENTRY:\tIS\tISLE\tWORD\t",
  c!"LEXENTRY:\tISLAND\tISLAND\tWORD,TYPE\t",
  c!"LEXENTRY:\tISLANDS\tISLANDS\tWORD\t",
  c!"LEXENTRY:\tISLE\tISLE\tWORD\t",
  c!"LEXENTRY:\tISLE LA MOTTE\tISLE LA MOTTE\tCITY\t",
  c!"LEXENTRY:\tISLE OF PALMS\tISLE OF PALMS\tCITY\t",
  c!"LEXENTRY:\tISLE OF SPRINGS\tISLE OF SPRINGS\tCITY\t",
  c!"LEXENTRY:\tISLES\tISLES\tWORD\t",
  c!"LEXENTRY:\tIZQU\tIZQUIERDO\tUNITH\t",
  c!"LEXENTRY:\tIZQUIERDO\tIZQUIERDO\tUNITH\t",
  c!"LEXENTRY:\tJ F K\tJOHN F KENNEDY\tWORD\t",
  c!"LEXENTRY:\tJ F KENNEDY\tJOHN F KENNEDY\tWORD\t",
  c!"LEXENTRY:\tJA\tJARDIN\tTYPE\t",
  c!"LEXENTRY:\tJAF\tJAF\tBUILDT\t",
  c!"LEXENTRY:\tJAF BOX\tJAF BOX\tBOXH\t",
  c!"LEXENTRY:\tJAF STATION\tJAF STATION\tBUILDT\t",
  c!"LEXENTRY:\tJARDIN\tJARDIN\tTYPE,WORD\t",
  c!"LEXENTRY:\tJAY EM\tJAY EM\tCITY\t",
  c!"LEXENTRY:\tJCT\tJUNCTION\tTYPE,BUILDT,WORD\t",
  c!"LEXENTRY:\tJCTION\tJUNCTION\tTYPE,BUILDT,WORD\t",
  c!"LEXENTRY:\tJCTN\tJUNCTION\tTYPE,BUILDT,WORD\t",
  c!"LEXENTRY:\tJEEP TRAIL\tJEEP TRAIL\tTYPE\t",
  c!"LEXENTRY:\tJEEP TRL\tJEEP TRAIL\tTYPE\t",
  c!"LEXENTRY:\tJFK\tJOHN F KENNEDY\tWORD\t",
  c!"LEXENTRY:\tJNCT\tJUNCTION\tTYPE,BUILDT,WORD\t",
  c!"LEXENTRY:\tJOHN F KENNEDY\tJOHN F KENNEDY\tWORD\t",
  c!"LEXENTRY:\tJUNC\tJUNCTION\tTYPE,BUILDT,WORD\t",
  c!"LEXENTRY:\tJUNCT\tJUNCTION\tTYPE,BUILDT,WORD\t",
  c!"LEXENTRY:\tJUNCTION\tJUNCTION\tTYPE,BUILDT,WORD\t",
  c!"LEXENTRY:\tJUNCTN\tJUNCTION\tTYPE,BUILDT,WORD\t",
  c!"LEXENTRY:\tJUNCTON\tJUNCTION\tTYPE,BUILDT,WORD\t",
  c!"LEXENTRY:\tK MART\tK MART\tWORD\t",
  c!"LEXENTRY:\tKANSAS\tKANSAS\tPROV,WORD\t",
  c!"LEXENTRY:\tKENT\tKENTUCKY\tPROV,WORD,ROAD\t",
  c!"LEXENTRY:\tKENTUCKY\tKENTUCKY\tPROV,WORD\t",
  c!"LEXENTRY:\tKEY\tKEY\tWORD,TYPE\t",
  c!"LEXENTRY:\tKEYSTONE ROUTE\tRURAL ROUTE\tRR\t",
  c!"LEXENTRY:\tKEYSTONE RT\tRURAL ROUTE\tRR\t",
  c!"LEXENTRY:\tKEYSTONE RTE\tRURAL ROUTE\tRR\t"]

/-- data/sample/usa.lex:1202-1251 -/
def entries24 : List Str := [
  c!"LEXENTRY:\tKING OF PRUSSIA\tKING OF PRUSSIA\tCITY\t",
  c!"LEXENTRY:\tKMART\tK MART\tWORD\t",
  c!"LEXENTRY:\tKNL\tKNOLL\tWORD,TYPE\t",
  c!"LEXENTRY:\tKNLS\tKNOLLS\tWORD,TYPE\t",
  c!"LEXENTRY:\tKNOLL\tKNOLL\tTYPE\t",
  c!"LEXENTRY:\tKNOLLS\tKNOLLS\tWORD\t",
  c!"LEXENTRY:\tKS\tKANSAS\tPROV,WORD,ROAD\t",
  c!"LEXENTRY:\tKY\tKENTUCKY\tPROV,WORD,ROAD\t",
  c!"LEXENTRY:\tKY\tKEY\tTYPE\t",
  c!"LEXENTRY:\tL B J\tLYNDON B JOHNSON\tWORD\t",
  c!"LEXENTRY:\tL B JOHNSON\tLYNDON B JOHNSON\tWORD\t",
  c!"LEXENTRY:\tL C D\tLETTER CARRIER DEPOT\tBUILDT\t",
  c!"LEXENTRY:\tL'\tL'\tSTOPWORD\t",
  c!"LEXENTRY:\tLA\tLA\tSTOPWORD\t",
  c!"LEXENTRY:\tLA\tLANE\tTYPE\t",
  c!"LEXENTRY:\tLA\tLOUISIANA\tPROV,WORD,ROAD\t",
  c!"LEXENTRY:\tLA BARGE\tLA BARGE\tCITY\t",
  c!"LEXENTRY:\tLA BELLE\tLA BELLE\tCITY\t",
  c!"LEXENTRY:\tLA CANADA FLINTRIDGE\tLA CANADA FLINTRIDGE\tCITY\t",
  c!"LEXENTRY:\tLA CENTER\tLA CENTER\tCITY\t",
  c!"LEXENTRY:\tLA CONNER\tLA CONNER\tCITY\t",
  c!"LEXENTRY:\tLA COSTE\tLA COSTE\tCITY\t",
  c!"LEXENTRY:\tLA CRESCENT\tLA CRESCENT\tCITY\t",
  c!"LEXENTRY:\tLA CRESCENTA\tLA CRESCENTA\tCITY\t",
  c!"LEXENTRY:\tLA CROSSE\tLA CROSSE\tCITY\t",
  c!"LEXENTRY:\tLA FARGE\tLA FARGE\tCITY\t",
  c!"LEXENTRY:\tLA FARGEVILLE\tLA FARGEVILLE\tCITY\t",
  c!"LEXENTRY:\tLA FAYETTE\tLA FAYETTE\tCITY\t",
  c!"LEXENTRY:\tLA FERIA\tLA FERIA\tCITY\t",
  c!"LEXENTRY:\tLA FOLLETTE\tLA FOLLETTE\tCITY\t",
  c!"LEXENTRY:\tLA FONTAINE\tLA FONTAINE\tCITY\t",
  c!"LEXENTRY:\tLA GRANDE\tLA GRANDE\tCITY\t",
  c!"LEXENTRY:\tLA GRANGE\tLA GRANGE\tCITY\t",
  c!"LEXENTRY:\tLA GRANGE PARK\tLA GRANGE PARK\tCITY\t",
  c!"LEXENTRY:\tLA HABRA\tLA HABRA\tCITY\t",
  c!"LEXENTRY:\tLA HARPE\tLA HARPE\tCITY\t",
  c!"LEXENTRY:\tLA HONDA\tLA HONDA\tCITY\t",
  c!"LEXENTRY:\tLA JARA\tLA JARA\tCITY\t",
  c!"LEXENTRY:\tLA JOLLA\tLA JOLLA\tCITY\t",
  c!"LEXENTRY:\tLA JOSE\tLA JOSE\tCITY\t",
  c!"LEXENTRY:\tLA JOYA\tLA JOYA\tCITY\t",
  c!"LEXENTRY:\tLA JUNTA\tLA JUNTA\tCITY\t",
  c!"LEXENTRY:\tLA LOMA\tLA LOMA\tCITY\t",
  c!"LEXENTRY:\tLA LUZ\tLA LUZ\tCITY\t",
  c!"LEXENTRY:\tLA MADERA\tLA MADERA\tCITY\t",
  c!"LEXENTRY:\tLA MARQUE\tLA MARQUE\tCITY\t",
  c!"LEXENTRY:\tLA MESA\tLA MESA\tCITY\t",
  c!"LEXENTRY:\tLA MIRADA\tLA MIRADA\tCITY\t",
  c!"LEXENTRY:\tLA MOILLE\tLA MOILLE\tCITY\t",
  c!"LEXENTRY:\tLA MONTE\tLA MONTE\tCITY\t"]

/-- data/sample/usa.lex:1252-1301 -/
def entries25 : List Str := [
  c!"LEXENTRY:\tLA MOTTE\tLA MOTTE\tCITY\t",
  c!"LEXENTRY:\tLA PALMA\tLA PALMA\tCITY\t",
  c!"LEXENTRY:\tLA PINE\tLA PINE\tCITY\t",
  c!"LEXENTRY:\tLA PLACE\tLA PLACE\tCITY\t",
  c!"LEXENTRY:\tLA PLATA\tLA PLATA\tCITY\t",
  c!"LEXENTRY:\tLA PORTE\tLA PORTE\tCITY\t",
  c!"LEXENTRY:\tLA PORTE CITY\tLA PORTE CITY\tCITY\t",
  c!"LEXENTRY:\tLA PRAIRIE\tLA PRAIRIE\tCITY\t",
  c!"LEXENTRY:\tLA PUENTE\tLA PUENTE\tCITY\t",
  c!"LEXENTRY:\tLA QUINTA\tLA QUINTA\tCITY\t",
  c!"LEXENTRY:\tLA RUE\tLA RUE\tCITY\t",
  c!"LEXENTRY:\tLA RUSSELL\tLA RUSSELL\tCITY\t",
  c!"LEXENTRY:\tLA SALLE\tLA SALLE\tCITY\t",
  c!"LEXENTRY:\tLA VALLE\tLA VALLE\tCITY\t",
  c!"LEXENTRY:\tLA VERGNE\tLA VERGNE\tCITY\t",
  c!"LEXENTRY:\tLA VERKIN\tLA VERKIN\tCITY\t",
  c!"LEXENTRY:\tLA VERNE\tLA VERNE\tCITY\t",
  c!"LEXENTRY:\tLA VERNIA\tLA VERNIA\tCITY\t",
  c!"LEXENTRY:\tLA VETA\tLA VETA\tCITY\t",
  c!"LEXENTRY:\tLA VISTA\tLA VISTA\tCITY\t",
  c!"LEXENTRY:\tLABRADOR\tNEWFOUNDLAND AND LABRADOR\tPROV,WORD\t",
  c!"LEXENTRY:\tLAC DU FLAMBEAU\tLAC DU FLAMBEAU\tCITY\t",
  c!"LEXENTRY:\tLAKE\tLAKE\tWORD\t",
  c!"LEXENTRY:\tLAKE IN HILLS\tLAKE IN THE HILLS\tCITY\t",
  c!"LEXENTRY:\tLAKE IN THE HILLS\tLAKE IN THE HILLS\tCITY\t",
  c!"LEXENTRY:\tLAKES\tLAKE\tWORD\t",
  c!"LEXENTRY:\tLAND\tLANDING\tTYPE,BUILDT,WORD\t",
  c!"LEXENTRY:\tLAND O LAKES\tLAND O LAKES\tCITY\t",
  c!"LEXENTRY:\tLAND O'LAKES\tLAND O LAKES\tCITY\t",
  c!"LEXENTRY:\tLANDING\tLANDING\tTYPE,BUILDT,WORD\t",
  c!"LEXENTRY:\tLANDINGS\tLANDING\tTYPE,BUILDT,WORD\t",
  c!"LEXENTRY:\tLANDNG\tLANDING\tTYPE\t",
  c!"LEXENTRY:\tLANE\tLANE\tTYPE\t",
  c!"LEXENTRY:\tLAS\tLAS\tSTOPWORD\t",
  c!"LEXENTRY:\tLBBY\tLOBBY\tUNITT\t",
  c!"LEXENTRY:\tLBJ\tLYNDON B JOHNSON\tWORD\t",
  c!"LEXENTRY:\tLCD\tLETTER CARRIER DEPOT\tBUILDT\t",
  c!"LEXENTRY:\tLCKS\tLOCKS\tWORD\t",
  c!"LEXENTRY:\tLDG\tLODGE\tTYPE,BUILDT,WORD\t",
  c!"LEXENTRY:\tLDGE\tLODGE\tTYPE,BUILDT,WORD\t",
  c!"LEXENTRY:\tLE\tLANE\tTYPE\t",
  c!"LEXENTRY:\tLE\tLE\tWORD,STOPWORD\t",
  c!"LEXENTRY:\tLE CENTER\tLE CENTER\tCITY\t",
  c!"LEXENTRY:\tLE CLAIRE\tLE CLAIRE\tCITY\t",
  c!"LEXENTRY:\tLE GRAND\tLE GRAND\tCITY\t",
  c!"LEXENTRY:\tLE MARS\tLE MARS\tCITY\t",
  c!"LEXENTRY:\tLE RAYSVILLE\tLE RAYSVILLE\tCITY\t",
  c!"LEXENTRY:\tLE ROY\tLE ROY\tCITY\t",
  c!"LEXENTRY:\tLE SUEUR\tLE SUEUR\tCITY\t",
  c!"LEXENTRY:\tLE VERNE\tLU VERNE\tCITY\t"]

/-- data/sample/usa.lex:1302-1351 -/
def entries26 : List Str := [
  c!"LEXENTRY:\tLEFT\tLEFT\tUNITT,WORD\t",
  c!"LEXENTRY:\tLES\tLES\tSTOPWORD\t",
  c!"LEXENTRY:\tLETTER CARRIER DEPOT\tLETTER CARRIER DEPOT\tBUILDT\t",
  c!"LEXENTRY:\tLEVEL\tLEVEL\tUNITT,WORD\t",
  c!"LEXENTRY:\tLF\tLOAF\tWORD\t",
  c!"LEXENTRY:\tLGT\tLIGHT\tWORD\t",
  c!"LEXENTRY:\tLI\tLINE\tTYPE\t",
  c!"LEXENTRY:\tLIGHT\tLIGHT\tWORD\t",
  c!"LEXENTRY:\tLIMITS\tLIMITS\tTYPE,WORD\t",
  c!"LEXENTRY:\tLINE\tLINE\tTYPE,WORD\t",
  c!"LEXENTRY:\tLINK\tLINK\tTYPE,WORD\t",
  c!"LEXENTRY:\tLK\tLAKE\tWORD\t",
  c!"LEXENTRY:\tLK\tLINK\tTYPE\t",
  c!"LEXENTRY:\tLKOUT\tLOOKOUT\tTYPE\t",
  c!"LEXENTRY:\tLKS\tLAKE\tWORD\t",
  c!"LEXENTRY:\tLMTS\tLIMITS\tTYPE,WORD\t",
  c!"LEXENTRY:\tLN\tLANE\tTYPE\t",
  c!"LEXENTRY:\tLNDG\tLANDING\tTYPE,BUILDT,WORD\t",
  c!"LEXENTRY:\tLNDNG\tLANDING\tTYPE,BUILDT,WORD\t",
  c!"LEXENTRY:\tLO\tLOOP\tTYPE\t",
  c!"LEXENTRY:\tLOAF\tLOAF\tWORD\t",
  c!"LEXENTRY:\tLOBBY\tLOBBY\tUNITT,WORD\t",
  c!"LEXENTRY:\tLOCAL\tBOX\tBOXH\t",
  c!"LEXENTRY:\tLOCAL BOX\tBOX\tBOXH\t",
  c!"LEXENTRY:\tLOCAL HCR\tHIGHWAY CONTRACT ROUTE\tRR\t",
  c!"LEXENTRY:\tLOCAL PO BOX\tPOST OFFICE BOX\tBOXH\t",
  c!"LEXENTRY:\tLOCKBOX\tPOST OFFICE BOX\tBOXH\t",
  c!"LEXENTRY:\tLOCKS\tLOCKS\tWORD\t",
  c!"LEXENTRY:\tLODGE\tLODGE\tTYPE,BUILDT,WORD\t",
  c!"LEXENTRY:\tLOOKOUT\tLOOKOUT\tTYPE,WORD\t",
  c!"LEXENTRY:\tLOOP\tLOOP\tQUALIF,TYPE\t",
  c!"LEXENTRY:\tLOS\tLOS\tSTOPWORD\t",
  c!"LEXENTRY:\tLOT\tLOT\tUNITH,UNITT,WORD\t",
  c!"LEXENTRY:\tLOUISIANA\tLOUISIANA\tPROV,WORD\t",
  c!"LEXENTRY:\tLOWER\tLOWER\tWORD,UNITT\t",
  c!"LEXENTRY:\tLOWR\tLOWER\tWORD,UNITT\t",
  c!"LEXENTRY:\tLP\tLOOP\tQUALIF,TYPE\t",
  c!"LEXENTRY:\tLT\tLOOKOUT\tTYPE\t",
  c!"LEXENTRY:\tLT\tLOT\tUNITH,WORD\t",
  c!"LEXENTRY:\tLU VERNE\tLU VERNE\tCITY\t",
  c!"LEXENTRY:\tLVL\tLEVEL\tUNITT\t",
  c!"LEXENTRY:\tLWR\tLOWER\tWORD,UNITT\t",
  c!"LEXENTRY:\tLYNDON B JOHNSON\tLYNDON B JOHNSON\tWORD\t",
  c!"LEXENTRY:\tM C B H KANEOHE BAY\tM C B H KANEOHE BAY\tCITY\t",
  c!"LEXENTRY:\tM H P\tTRAILER PARK\tBUILDT\t",
  c!"LEXENTRY:\tM L K\tMARTIN LUTHER KING\tWORD\t",
  c!"LEXENTRY:\tM L KING\tMARTIN LUTHER KING\tWORD\t",
  c!"LEXENTRY:\tMA\tMANOR\tTYPE\t",
  c!"LEXENTRY:\tMA\tMASSACHUSETTS\tPROV,WORD,ROAD\t",
  c!"LEXENTRY:\tMAINE\tMAINE\tPROV,WORD\t"]

/-- data/sample/usa.lex:1352-1401 -/
def entries27 : List Str := [
  c!"LEXENTRY:\tMAISON\tMAISON\tBUILDT,BUILDH,WORD\t",
  c!"LEXENTRY:\tMAL\tMALL\tTYPE\t",
  c!"LEXENTRY:\tMALL\tMALL\tTYPE,BUILDT,WORD\t",
  c!"LEXENTRY:\tMALL IN\tMALL\tBUILDT\t",
  c!"LEXENTRY:\tMANITOBA\tMANITOBA\tPROV,WORD\t",
  c!"LEXENTRY:\tMANOR\tMANOR\tTYPE,BUILDT,WORD\t",
  c!"LEXENTRY:\tMANORS\tMANOR\tBUILDT,WORD\t",
  c!"LEXENTRY:\tMARG\tMARGINAL\tTYPE\t",
  c!"LEXENTRY:\tMARGINAL\tMARGINAL\tTYPE\t",
  c!"LEXENTRY:\tMARINE ON SAINT CROIX\tMARINE ON SAINT CROIX\tCITY\t",
  c!"LEXENTRY:\tMARKET\tMARKET\tBUILDT,WORD\t",
  c!"LEXENTRY:\tMARKET PL\tMARKET\tBUILDT\t",
  c!"LEXENTRY:\tMARKET PLACE\tMARKET\tBUILDT\t",
  c!"LEXENTRY:\tMARKETPLACE\tMARKET\tBUILDT\t",
  c!"LEXENTRY:\tMARSHALL ISLANDS\tMH\tPROV\t",
  c!"LEXENTRY:\tMART\tMARKET\tBUILDT\t",
  c!"LEXENTRY:\tMARTIN KING\tMARTIN LUTHER KING\tWORD\t",
  c!"LEXENTRY:\tMARTIN L KING\tMARTIN LUTHER KING\tWORD\t",
  c!"LEXENTRY:\tMARTIN LUTHER\tMARTIN LUTHER KING\tWORD\t",
  c!"LEXENTRY:\tMARTIN LUTHER KING\tMARTIN LUTHER KING\tWORD\t",
  c!"LEXENTRY:\tMARTIN LUTHER KING JR\tMARTIN LUTHER KING\tWORD\t",
  c!"LEXENTRY:\tMARYLAND\tMARYLAND\tPROV,WORD\t",
  c!"LEXENTRY:\tMASS\tMASSACHUSETTS\tPROV,WORD,ROAD\t",
  c!"LEXENTRY:\tMASSACHUSETTS\tMASSACHUSETTS\tPROV,WORD\t",
  c!"LEXENTRY:\tMAZE\tMAZE\tTYPE\t",
  c!"LEXENTRY:\tMB\tMANITOBA\tPROV,WORD,ROAD\t",
  c!"LEXENTRY:\tMC\tMC\tWORD\t",
  c!"LEXENTRY:\tMC ADENVILLE\tMC ADENVILLE\tCITY\t",
  c!"LEXENTRY:\tMC ALISTER\tMC ALISTER\tCITY\t",
  c!"LEXENTRY:\tMC ALISTERVILLE\tMC ALISTERVILLE\tCITY\t",
  c!"LEXENTRY:\tMC ALPIN\tMC ALPIN\tCITY\t",
  c!"LEXENTRY:\tMC ANDREWS\tMC ANDREWS\tCITY\t",
  c!"LEXENTRY:\tMC ARTHUR\tMC ARTHUR\tCITY\t",
  c!"LEXENTRY:\tMC BAIN\tMC BAIN\tCITY\t",
  c!"LEXENTRY:\tMC BEE\tMC BEE\tCITY\t",
  c!"LEXENTRY:\tMC CALL CREEK\tMC CALL CREEK\tCITY\t",
  c!"LEXENTRY:\tMC CALLA\tMC CALLA\tCITY\t",
  c!"LEXENTRY:\tMC CALLSBURG\tMC CALLSBURG\tCITY\t",
  c!"LEXENTRY:\tMC CAMEY\tMC CAMEY\tCITY\t",
  c!"LEXENTRY:\tMC CARLEY\tMC CARLEY\tCITY\t",
  c!"LEXENTRY:\tMC CARR\tMC CARR\tCITY\t",
  c!"LEXENTRY:\tMC CASKILL\tMC CASKILL\tCITY\t",
  c!"LEXENTRY:\tMC CAULLEY\tMC CAULLEY\tCITY\t",
  c!"LEXENTRY:\tMC CAYSVILLE\tMC CAYSVILLE\tCITY\t",
  c!"LEXENTRY:\tMC CLAVE\tMC CLAVE\tCITY\t",
  c!"LEXENTRY:\tMC CLELLAND\tMC CLELLAND\tCITY\t",
  c!"LEXENTRY:\tMC CLELLANDTOWN\tMC CLELLANDTOWN\tCITY\t",
  c!"LEXENTRY:\tMC CLELLANVILLE\tMC CLELLANVILLE\tCITY\t",
  c!"LEXENTRY:\tMC CLURE\tMC CLURE\tCITY\t",
  c!"LEXENTRY:\tMC CLURG\tMC CLURG\tCITY\t"]

/-- data/sample/usa.lex:1402-1451 -/
def entries28 : List Str := [
  c!"LEXENTRY:\tMC COLL\tMC COLL\tCITY\t",
  c!"LEXENTRY:\tMC COMB\tMC COMB\tCITY\t",
  c!"LEXENTRY:\tMC CONNELL\tMC CONNELL\tCITY\t",
  c!"LEXENTRY:\tMC CONNELLS\tMC CONNELLS\tCITY\t",
  c!"LEXENTRY:\tMC CONNELLSBURG\tMC CONNELLSBURG\tCITY\t",
  c!"LEXENTRY:\tMC COOK\tMC COOK\tCITY\t",
  c!"LEXENTRY:\tMC COOL\tMC COOL\tCITY\t",
  c!"LEXENTRY:\tMC COOL JUNCTION\tMC COOL JUNCTION\tCITY\t",
  c!"LEXENTRY:\tMC CORDSVILLE\tMC CORDSVILLE\tCITY\t",
  c!"LEXENTRY:\tMC CORMICK\tMC CORMICK\tCITY\t",
  c!"LEXENTRY:\tMC COY\tMC COY\tCITY\t",
  c!"LEXENTRY:\tMC CRACKEN\tMC CRACKEN\tCITY\t",
  c!"LEXENTRY:\tMC CRORY\tMC CRORY\tCITY\t",
  c!"LEXENTRY:\tMC CUNE\tMC CUNE\tCITY\t",
  c!"LEXENTRY:\tMC CUTCHENVILLE\tMC CUTCHENVILLE\tCITY\t",
  c!"LEXENTRY:\tMC DADE\tMC DADE\tCITY\t",
  c!"LEXENTRY:\tMC DANIELS\tMC DANIELS\tCITY\t",
  c!"LEXENTRY:\tMC DAVID\tMC DAVID\tCITY\t",
  c!"LEXENTRY:\tMC DERMOTT\tMC DERMOTT\tCITY\t",
  c!"LEXENTRY:\tMC DONALD\tMC DONALD\tCITY\t",
  c!"LEXENTRY:\tMC DONOUGH\tMC DONOUGH\tCITY\t",
  c!"LEXENTRY:\tMC DOWELL\tMC DOWELL\tCITY\t",
  c!"LEXENTRY:\tMC EWEN\tMC EWEN\tCITY\t",
  c!"LEXENTRY:\tMC FALL\tMC FALL\tCITY\t",
  c!"LEXENTRY:\tMC FARLAND\tMC FARLAND\tCITY\t",
  c!"LEXENTRY:\tMC GAHEYSVILLE\tMC GAHEYSVILLE\tCITY\t",
  c!"LEXENTRY:\tMC GEE\tMC GEE\tCITY\t",
  c!"LEXENTRY:\tMC GEHEE\tMC GEHEE\tCITY\t",
  c!"LEXENTRY:\tMC GRADY\tMC GRADY\tCITY\t",
  c!"LEXENTRY:\tMC GRATH\tMC GRATH\tCITY\t",
  c!"LEXENTRY:\tMC GRAW\tMC GRAW\tCITY\t",
  c!"LEXENTRY:\tMC GREGOR\tMC GREGOR\tCITY\t",
  c!"LEXENTRY:\tMC HENRY\tMC HENRY\tCITY\t",
  c!"LEXENTRY:\tMC INTIRE\tMC INTIRE\tCITY\t",
  c!"LEXENTRY:\tMC INTOSH\tMC INTOSH\tCITY\t",
  c!"LEXENTRY:\tMC INTYRE\tMC INTYRE\tCITY\t",
  c!"LEXENTRY:\tMC KEAN\tMC KEAN\tCITY\t",
  c!"LEXENTRY:\tMC KEE\tMC KEE\tCITY\t",
  c!"LEXENTRY:\tMC KEES ROCKS\tMC KEES ROCKS\tCITY\t",
  c!"LEXENTRY:\tMC KENNEY\tMC KENNEY\tCITY\t",
  c!"LEXENTRY:\tMC KENZIE\tMC KENZIE\tCITY\t",
  c!"LEXENTRY:\tMC KITTRICK\tMC KITTRICK\tCITY\t",
  c!"LEXENTRY:\tMC LAIN\tMC LAIN\tCITY\t",
  c!"LEXENTRY:\tMC LAUGHLIN\tMC LAUGHLIN\tCITY\t",
  c!"LEXENTRY:\tMC LEAN\tMC LEAN\tCITY\t",
  c!"LEXENTRY:\tMC LEANSBORO\tMC LEANSBORO\tCITY\t",
  c!"LEXENTRY:\tMC LEANSVILLE\tMC LEANSVILLE\tCITY\t",
  c!"LEXENTRY:\tMC LEOD\tMC LEOD\tCITY\t",
  c!"LEXENTRY:\tMC LOUTH\tMC LOUTH\tCITY\t",
  c!"LEXENTRY:\tMC MILLAN\tMC MILLAN\tCITY\t"]

/-- data/sample/usa.lex:1452-1501 -/
def entries29 : List Str := [
  c!"LEXENTRY:\tMC MINNVILLE\tMC MINNVILLE\tCITY\t",
  c!"LEXENTRY:\tMC NABB\tMC NABB\tCITY\t",
  c!"LEXENTRY:\tMC NEAL\tMC NEAL\tCITY\t",
  c!"LEXENTRY:\tMC NEIL\tMC NEIL\tCITY\t",
  c!"LEXENTRY:\tMC QUEENEY\tMC QUEENEY\tCITY\t",
  c!"LEXENTRY:\tMC RAE\tMC RAE\tCITY\t",
  c!"LEXENTRY:\tMC ROBERTS\tMC ROBERTS\tCITY\t",
  c!"LEXENTRY:\tMC SHERRYSTOWN\tMC SHERRYSTOWN\tCITY\t",
  c!"LEXENTRY:\tMC VEYTOWN\tMC VEYTOWN\tCITY\t",
  c!"LEXENTRY:\tMCADENVILLE\tMC ADENVILLE\tCITY\t",
  c!"LEXENTRY:\tMCALISTER\tMC ALISTER\tCITY\t",
  c!"LEXENTRY:\tMCALISTERVILLE\tMC ALISTERVILLE\tCITY\t",
  c!"LEXENTRY:\tMCALPIN\tMC ALPIN\tCITY\t",
  c!"LEXENTRY:\tMCANDREWS\tMC ANDREWS\tCITY\t",
  c!"LEXENTRY:\tMCARTHUR\tMC ARTHUR\tCITY\t",
  c!"LEXENTRY:\tMCBAIN\tMC BAIN\tCITY\t",
  c!"LEXENTRY:\tMCBEE\tMC BEE\tCITY\t",
  c!"LEXENTRY:\tMCBH KANEOHE BAY\tM C B H KANEOHE BAY\tCITY\t",
  c!"LEXENTRY:\tMCCALL CREEK\tMC CALL CREEK\tCITY\t",
  c!"LEXENTRY:\tMCCALLA\tMC CALLA\tCITY\t",
  c!"LEXENTRY:\tMCCALLSBURG\tMC CALLSBURG\tCITY\t",
  c!"LEXENTRY:\tMCCAMEY\tMC CAMEY\tCITY\t",
  c!"LEXENTRY:\tMCCARLEY\tMC CARLEY\tCITY\t",
  c!"LEXENTRY:\tMCCARR\tMC CARR\tCITY\t",
  c!"LEXENTRY:\tMCCASKILL\tMC CASKILL\tCITY\t",
  c!"LEXENTRY:\tMCCAULLEY\tMC CAULLEY\tCITY\t",
  c!"LEXENTRY:\tMCCAYSVILLE\tMC CAYSVILLE\tCITY\t",
  c!"LEXENTRY:\tMCCLAVE\tMC CLAVE\tCITY\t",
  c!"LEXENTRY:\tMCCLELLAND\tMC CLELLAND\tCITY\t",
  c!"LEXENTRY:\tMCCLELLANDTOWN\tMC CLELLANDTOWN\tCITY\t",
  c!"LEXENTRY:\tMCCLELLANVILLE\tMC CLELLANVILLE\tCITY\t",
  c!"LEXENTRY:\tMCCLURE\tMC CLURE\tCITY\t",
  c!"LEXENTRY:\tMCCLURG\tMC CLURG\tCITY\t",
  c!"LEXENTRY:\tMCCOLL\tMC COLL\tCITY\t",
  c!"LEXENTRY:\tMCCOMB\tMC COMB\tCITY\t",
  c!"LEXENTRY:\tMCCONNELL\tMC CONNELL\tCITY\t",
  c!"LEXENTRY:\tMCCONNELLS\tMC CONNELLS\tCITY\t",
  c!"LEXENTRY:\tMCCONNELLSBURG\tMC CONNELLSBURG\tCITY\t",
  c!"LEXENTRY:\tMCCOOK\tMC COOK\tCITY\t",
  c!"LEXENTRY:\tMCCOOL\tMC COOL\tCITY\t",
  c!"LEXENTRY:\tMCCOOL JUNCTION\tMC COOL JUNCTION\tCITY\t",
  c!"LEXENTRY:\tMCCORDSVILLE\tMC CORDSVILLE\tCITY\t",
  c!"LEXENTRY:\tMCCORMICK\tMC CORMICK\tCITY\t",
  c!"LEXENTRY:\tMCCOY\tMC COY\tCITY\t",
  c!"LEXENTRY:\tMCCRACKEN\tMC CRACKEN\tCITY\t",
  c!"LEXENTRY:\tMCCRORY\tMC CRORY\tCITY\t",
  c!"LEXENTRY:\tMCCUNE\tMC CUNE\tCITY\t",
  c!"LEXENTRY:\tMCCUTCHENVILLE\tMC CUTCHENVILLE\tCITY\t",
  c!"LEXENTRY:\tMCDADE\tMC DADE\tCITY\t",
  c!"LEXENTRY:\tMCDANIELS\tMC DANIELS\tCITY\t"]

/-- data/sample/usa.lex:1502-1551 -/
def entries30 : List Str := [
  c!"LEXENTRY:\tMCDAVID\tMC DAVID\tCITY\t",
  c!"LEXENTRY:\tMCDERMOTT\tMC DERMOTT\tCITY\t",
  c!"LEXENTRY:\tMCDONALD\tMC DONALD\tCITY\t",
  c!"LEXENTRY:\tMCDONOUGH\tMC DONOUGH\tCITY\t",
  c!"LEXENTRY:\tMCDOWELL\tMC DOWELL\tCITY\t",
  c!"LEXENTRY:\tMCEWEN\tMC EWEN\tCITY\t",
  c!"LEXENTRY:\tMCFALL\tMC FALL\tCITY\t",
  c!"LEXENTRY:\tMCFARLAND\tMC FARLAND\tCITY\t",
  c!"LEXENTRY:\tMCGAHEYSVILLE\tMC GAHEYSVILLE\tCITY\t",
  c!"LEXENTRY:\tMCGEE\tMC GEE\tCITY\t",
  c!"LEXENTRY:\tMCGEHEE\tMC GEHEE\tCITY\t",
  c!"LEXENTRY:\tMCGRADY\tMC GRADY\tCITY\t",
  c!"LEXENTRY:\tMCGRATH\tMC GRATH\tCITY\t",
  c!"LEXENTRY:\tMCGRAW\tMC GRAW\tCITY\t",
  c!"LEXENTRY:\tMCGREGOR\tMC GREGOR\tCITY\t",
  c!"LEXENTRY:\tMCHENRY\tMC HENRY\tCITY\t",
  c!"LEXENTRY:\tMCINTIRE\tMC INTIRE\tCITY\t",
  c!"LEXENTRY:\tMCINTOSH\tMC INTOSH\tCITY\t",
  c!"LEXENTRY:\tMCINTYRE\tMC INTYRE\tCITY\t",
  c!"LEXENTRY:\tMCKEAN\tMC KEAN\tCITY\t",
  c!"LEXENTRY:\tMCKEE\tMC KEE\tCITY\t",
  c!"LEXENTRY:\tMCKEES ROCKS\tMC KEES ROCKS\tCITY\t",
  c!"LEXENTRY:\tMCKENNEY\tMC KENNEY\tCITY\t",
  c!"LEXENTRY:\tMCKENZIE\tMC KENZIE\tCITY\t",
  c!"LEXENTRY:\tMCKITTRICK\tMC KITTRICK\tCITY\t",
  c!"LEXENTRY:\tMCLAIN\tMC LAIN\tCITY\t",
  c!"LEXENTRY:\tMCLAUGHLIN\tMC LAUGHLIN\tCITY\t",
  c!"LEXENTRY:\tMCLEAN\tMC LEAN\tCITY\t",
  c!"LEXENTRY:\tMCLEANSBORO\tMC LEANSBORO\tCITY\t",
  c!"LEXENTRY:\tMCLEANSVILLE\tMC LEANSVILLE\tCITY\t",
  c!"LEXENTRY:\tMCLEOD\tMC LEOD\tCITY\t",
  c!"LEXENTRY:\tMCLOUTH\tMC LOUTH\tCITY\t",
  c!"LEXENTRY:\tMCMILLAN\tMC MILLAN\tCITY\t",
  c!"LEXENTRY:\tMCMINNVILLE\tMC MINNVILLE\tCITY\t",
  c!"LEXENTRY:\tMCNABB\tMC NABB\tCITY\t",
  c!"LEXENTRY:\tMCNEAL\tMC NEAL\tCITY\t",
  c!"LEXENTRY:\tMCNEIL\tMC NEIL\tCITY\t",
  c!"LEXENTRY:\tMCQUEENEY\tMC QUEENEY\tCITY\t",
  c!"LEXENTRY:\tMCRAE\tMC RAE\tCITY\t",
  c!"LEXENTRY:\tMCROBERTS\tMC ROBERTS\tCITY\t",
  c!"LEXENTRY:\tMCSHERRYSTOWN\tMC SHERRYSTOWN\tCITY\t",
  c!"LEXENTRY:\tMCVEYTOWN\tMC VEYTOWN\tCITY\t",
  c!"LEXENTRY:\tMD\tMARYLAND\tPROV,WORD,ROAD\t",
  c!"LEXENTRY:\tMDWS\tMEADOWS\tWORD,BUILDT\t",
  c!"LEXENTRY:\tME\tMAINE\tPROV,WORD,ROAD\t",
  c!"LEXENTRY:\tME\tMEWS\tTYPE\t",
  c!"LEXENTRY:\tMEADOW\tMEADOW\tWORD,TYPE\t",
  c!"LEXENTRY:\tMEADOWS\tMEADOWS\tWORD,BUILDT\t",
  c!"LEXENTRY:\tMEADOWS OF DAN\tMEADOWS OF DAN\tCITY\t",
  c!"LEXENTRY:\tMED\tMEDICAL\tWORD\t"]

/-- data/sample/usa.lex:1552-1601 -/
def entries31 : List Str := [
  c!"LEXENTRY:\tMEDICAL\tMEDICAL\tWORD\t",
  c!"LEXENTRY:\tMEM\tMEMORIAL\tWORD\t",
  c!"LEXENTRY:\tMEMORIAL\tMEMORIAL\tWORD\t",
  c!"LEXENTRY:\tMERC\tMERCADO\tBUILDT\t",
  c!"LEXENTRY:\tMERCADO\tMERCADO\tBUILDT\t",
  c!"LEXENTRY:\tMEWS\tMEWS\tTYPE,WORD,BUILDT\t",
  c!"LEXENTRY:\tMH\tMH\tPROV\t",
  c!"LEXENTRY:\tMH\tMOBILE HOME\tUNITH\t",
  c!"LEXENTRY:\tMH CT\tTRAILER PARK\tBUILDT\t",
  c!"LEXENTRY:\tMH PARK\tTRAILER PARK\tBUILDT\t",
  c!"LEXENTRY:\tMHP\tTRAILER PARK\tBUILDT\t",
  c!"LEXENTRY:\tMI\tMICHIGAN\tPROV,WORD,ROAD\t",
  c!"LEXENTRY:\tMI\tMILE POST\tMILE\t",
  c!"LEXENTRY:\tMI POST\tMILE\tWORD\t",
  c!"LEXENTRY:\tMI WUK VILLAGE\tMI WUK VILLAGE\tCITY\t",
  c!"LEXENTRY:\tMICH\tMICHIGAN\tPROV,WORD,ROAD\t",
  c!"LEXENTRY:\tMICHIGAN\tMICHIGAN\tPROV,WORD\t",
  c!"LEXENTRY:\tMICRONESIA\tFM\tPROV\t",
  c!"LEXENTRY:\tMIDDLE\tMIDDLE\tUNITT,WORD\t",
  c!"LEXENTRY:\tMILE\tMILE\tWORD\t",
  c!"LEXENTRY:\tMILE\tMILE POST\tMILE\t",
  c!"LEXENTRY:\tMILE POST\tMILE\tWORD\t",
  c!"LEXENTRY:\tMILE POST\tMILE POST\tMILE\t",
  c!"LEXENTRY:\tMILES\tMILE\tWORD\t",
  c!"LEXENTRY:\tMILL\tMILL\tWORD\t",
  c!"LEXENTRY:\tMILLS\tMILLS\tWORD\t",
  c!"LEXENTRY:\tMINN\tMINNESOTA\tPROV,WORD,ROAD\t",
  c!"LEXENTRY:\tMINNESOTA\tMINNESOTA\tPROV,WORD\t",
  c!"LEXENTRY:\tMISSION\tMISSION\tWORD\t",
  c!"LEXENTRY:\tMISSISSIPPI\tMISSISSIPPI\tPROV,WORD\t",
  c!"LEXENTRY:\tMISSOURI\tMISSOURI\tPROV,WORD\t",
  c!"LEXENTRY:\tMKT\tMARKET\tBUILDT\t",
  c!"LEXENTRY:\tMKT PL\tMARKET\tBUILDT\t",
  c!"LEXENTRY:\tMKT PLACE\tMARKET\tBUILDT\t",
  c!"LEXENTRY:\tMKTPL\tMARKET\tBUILDT\t",
  c!"LEXENTRY:\tML\tMALL\tTYPE,BUILDT,WORD\t",
  c!"LEXENTRY:\tML KING\tMARTIN LUTHER KING\tWORD\t",
  c!"LEXENTRY:\tMLK\tMARTIN LUTHER KING\tWORD\t",
  c!"LEXENTRY:\tMLS\tMILLS\tWORD\t",
  c!"LEXENTRY:\tMN\tMINNESOTA\tPROV,WORD,ROAD\t",
  c!"LEXENTRY:\tMNR\tMANOR\tTYPE,BUILDT,WORD\t",
  c!"LEXENTRY:\tMNRS\tMANOR\tBUILDT,WORD\t",
  c!"LEXENTRY:\tMNT\tMOUNT\tWORD\t",
  c!"LEXENTRY:\tMO\tMISSOURI\tPROV,WORD,ROAD\t",
  c!"LEXENTRY:\tMO\tMONTEE\tTYPE\t",
  c!"LEXENTRY:\tMOB HM PK\tTRAILER PARK\tBUILDT\t",
  c!"LEXENTRY:\tMOB HOME PARK\tTRAILER PARK\tBUILDT\t",
  c!"LEXENTRY:\tMOBIL HOME PARK\tTRAILER PARK\tBUILDT\t",
  c!"LEXENTRY:\tMOBIL HOME TRPK\tTRAILER PARK\tBUILDT\t",
  c!"LEXENTRY:\tMOBILE COURT\tTRAILER PARK\tBUILDT\t"]

/-- data/sample/usa.lex:1602-1651 -/
def entries32 : List Str := [
  c!"LEXENTRY:\tMOBILE CT\tTRAILER PARK\tBUILDT\t",
  c!"LEXENTRY:\tMOBILE EST\tTRAILER PARK\tBUILDT\t",
  c!"LEXENTRY:\tMOBILE ESTATE\tTRAILER PARK\tBUILDT\t",
  c!"LEXENTRY:\tMOBILE HM PK\tTRAILER PARK\tBUILDT\t",
  c!"LEXENTRY:\tMOBILE HOME\tMOBILE HOME\tUNITH\t",
  c!"LEXENTRY:\tMOBILE HOME\tTRAILER PARK\tBUILDT\t",
  c!"LEXENTRY:\tMOBILE HOME PARK\tTRAILER PARK\tBUILDT\t",
  c!"LEXENTRY:\tMOBILE HOME PK\tTRAILER PARK\tBUILDT\t",
  c!"LEXENTRY:\tMOBILE HOME TRPK\tTRAILER PARK\tBUILDT\t",
  c!"LEXENTRY:\tMOBILE HOMES\tTRAILER PARK\tBUILDT\t",
  c!"LEXENTRY:\tMOBILE PARK\tTRAILER PARK\tBUILDT\t",
  c!"LEXENTRY:\tMOBILE ROUTE\tMOBILE ROUTE\tRR\t",
  c!"LEXENTRY:\tMONT\tMONTANA\tPROV,WORD,ROAD\t",
  c!"LEXENTRY:\tMONTANA\tMONTANA\tPROV,WORD\t",
  c!"LEXENTRY:\tMONTEE\tMONTEE\tTYPE,WORD\t",
  c!"LEXENTRY:\tMOOR\tMOOR\tWORD,TYPE\t",
  c!"LEXENTRY:\tMOTEL\tMOTEL\tBUILDT\t",
  c!"LEXENTRY:\tMOTORWAY\tMOTORWAY\tTYPE\t",
  c!"LEXENTRY:\tMOUNT\tMOUNT\tWORD,TYPE\t",
  c!"LEXENTRY:\tMOUNT ZION\tMOUNT ZION\tCITY\t",
  c!"LEXENTRY:\tMOUNTAIN\tMOUNTAIN\tWORD,TYPE\t",
  c!"LEXENTRY:\tMOUNTAINS\tMOUNTAIN\tWORD\t",
  c!"LEXENTRY:\tMOUTH OF WILSON\tMOUTH OF WILSON\tCITY\t",
  c!"LEXENTRY:\tMP\tMILE\tWORD\t",
  c!"LEXENTRY:\tMP\tMILE POST\tMILE\t",
  c!"LEXENTRY:\tMP\tMP\tPROV\t",
  c!"LEXENTRY:\tMR\tMOBILE ROUTE\tRR\t",
  c!"LEXENTRY:\tMS\tMISSISSIPPI\tPROV,WORD,ROAD\t",
  c!"LEXENTRY:\tMS\tMS\tUNITT\t",
  c!"LEXENTRY:\tMSN\tMISSION\tWORD\t",
  c!"LEXENTRY:\tMT\tMONTANA\tPROV,WORD,ROAD\t",
  c!"LEXENTRY:\tMT\tMOUNT\tWORD\t",
  c!"LEXENTRY:\tMT ZION\tMOUNT ZION\tCITY\t",
  c!"LEXENTRY:\tMTD ROUTE\tRURAL ROUTE\tRR\t",
  c!"LEXENTRY:\tMTD RT\tRURAL ROUTE\tRR\t",
  c!"LEXENTRY:\tMTD RTE\tRURAL ROUTE\tRR\t",
  c!"LEXENTRY:\tMTL\tMOTEL\tBUILDT\t",
  c!"LEXENTRY:\tMTN\tMOUNTAIN\tWORD\t",
  c!"LEXENTRY:\tMTNS\tMOUNTAIN\tWORD\t",
  c!"LEXENTRY:\tMTWY\tMOTORWAY\tTYPE\t",
  c!"LEXENTRY:\tMU\tMOUNT\tTYPE\t",
  c!"LEXENTRY:\tMURO\tMURO\tTYPE\t",
  c!"LEXENTRY:\tMW\tMEADOW\tTYPE\t",
  c!"LEXENTRY:\tN\tN\tSINGLE\t",
  c!"LEXENTRY:\tN\tNORTH\tDIRECT\t",
  c!"LEXENTRY:\tN A B\tNAVAL AIR STATION\tWORD,BUILDT\t",
  c!"LEXENTRY:\tN A S\tNAVAL AIR STATION\tWORD,BUILDT\t",
  c!"LEXENTRY:\tN CAROLINA\tNORTH CAROLINA\tPROV,WORD\t",
  c!"LEXENTRY:\tN DAKOTA\tNORTH DAKOTA\tPROV,WORD\t",
  c!"LEXENTRY:\tN E\tNORTHEAST\tDIRECT\t"]

/-- data/sample/usa.lex:1652-1701 -/
def entries33 : List Str := [
  c!"LEXENTRY:\tN F D\tNATL FOREST DEVELOP ROAD\tTYPE\t",
  c!"LEXENTRY:\tN VAN\tNORTH VANCOUVER\tCITY\t",
  c!"LEXENTRY:\tN VANCOUVER\tNORTH VANCOUVER\tCITY\t",
  c!"LEXENTRY:\tN W\tNORTHWEST\tDIRECT\t",
  c!"LEXENTRY:\tNAB\tNAVAL AIR STATION\tWORD,BUILDT\t",
  c!"LEXENTRY:\tNAS\tNAVAL AIR STATION\tWORD,BUILDT\t",
  c!"LEXENTRY:\tNATIONAL\tNATIONAL\tWORD\t",
  c!"LEXENTRY:\tNATL\tNATIONAL\tWORD\t",
  c!"LEXENTRY:\tNATL FOREST\tNATL FOREST\tWORD\t",
  c!"LEXENTRY:\tNATL FOREST DEVELOP ROAD\tNATL FOREST DEVELOP ROAD\tTYPE\t",
  c!"LEXENTRY:\tNATL FOREST HIGHWAY\tNATL FOREST HIGHWAY\tROAD\t",
  c!"LEXENTRY:\tNAVAL AIR BASE\tNAVAL AIR STATION\tWORD,BUILDT\t",
  c!"LEXENTRY:\tNAVAL AIR STATION\tNAVAL AIR STATION\tWORD,BUILDT\t",
  c!"LEXENTRY:\tNAVAL BASE\tNAVAL AIR STATION\tWORD,BUILDT\t",
  c!"LEXENTRY:\tNB\tNEW BRUNSWICK\tPROV,WORD,ROAD\t",
  c!"LEXENTRY:\tNC\tNORTH CAROLINA\tPROV,WORD,ROAD\t",
  c!"LEXENTRY:\tNCK\tNECK\tWORD\t",
  c!"LEXENTRY:\tND\tNORTH DAKOTA\tPROV,WORD,ROAD\t",
  c!"LEXENTRY:\tNE\tNEBRASKA\tPROV,WORD,ROAD\t",
  c!"LEXENTRY:\tNE\tNORTHEAST\tDIRECT\t",
  c!"LEXENTRY:\tNEAR\tNEAR\tWORD\t",
  c!"LEXENTRY:\tNEB\tNEBRASKA\tPROV,WORD,ROAD\t",
  c!"LEXENTRY:\tNEBRASKA\tNEBRASKA\tPROV,WORD\t",
  c!"LEXENTRY:\tNECK\tNECK\tWORD\t",
  c!"LEXENTRY:\tNEV\tNEVADA\tPROV,WORD,ROAD\t",
  c!"LEXENTRY:\tNEVADA\tNEVADA\tPROV,WORD\t",
  c!"LEXENTRY:\tNEW BRUNSWICK\tNEW BRUNSWICK\tPROV,WORD\t",
  c!"LEXENTRY:\tNEW HAMPSHIRE\tNEW HAMPSHIRE\tPROV,WORD\t",
  c!"LEXENTRY:\tNEW JERSEY\tNEW JERSEY\tPROV,WORD\t",
  c!"LEXENTRY:\tNEW MEXICO\tNEW MEXICO\tPROV,WORD\t",
  c!"LEXENTRY:\tNEW YORK\tNEW YORK\tPROV,WORD\t",
  c!"LEXENTRY:\tNEWFOUNDLAND\tNEWFOUNDLAND AND LABRADOR\tPROV,WORD\t",
  c!"LEXENTRY:\tNF\tNEWFOUNDLAND AND LABRADOR\tPROV,WORD,ROAD\t",
  c!"LEXENTRY:\tNF HWY\tNATL FOREST HIGHWAY\tROAD\t",
  c!"LEXENTRY:\tNFD\tNATL FOREST DEVELOP ROAD\tTYPE,ROAD\t",
  c!"LEXENTRY:\tNFHWY\tNATL FOREST HIGHWAY\tROAD\t",
  c!"LEXENTRY:\tNH\tNEW HAMPSHIRE\tPROV,WORD,ROAD\t",
  c!"LEXENTRY:\tNINE\t9\tWORD,NUMBER\t",
  c!"LEXENTRY:\tNINE MILE\tNINE MILE\tWORD\t",
  c!"LEXENTRY:\tNINETEEN\t19\tNUMBER,WORD\t",
  c!"LEXENTRY:\tNINETEEN MILE\tNINETEEN MILE\tWORD\t",
  c!"LEXENTRY:\tNINETEENTH\t19\tWORD,ORD\t",
  c!"LEXENTRY:\tNINETIETH\t90\tWORD,ORD\t",
  c!"LEXENTRY:\tNINETY\t90\tNUMBER,WORD\t",
  c!"LEXENTRY:\tNINETY EIGHT\t98\tNUMBER,WORD\t",
  c!"LEXENTRY:\tNINETY EIGHTH\t98\tWORD,ORD\t",
  c!"LEXENTRY:\tNINETY FIFTH\t95\tWORD,ORD\t",
  c!"LEXENTRY:\tNINETY FIRST\t91\tWORD,ORD\t",
  c!"LEXENTRY:\tNINETY FIVE\t95\tNUMBER,WORD\t",
  c!"LEXENTRY:\tNINETY FOUR\t94\tNUMBER,WORD\t"]

/-- data/sample/usa.lex:1702-1751 -/
def entries34 : List Str := [
  c!"LEXENTRY:\tNINETY FOURTH\t94\tWORD,ORD\t",
  c!"LEXENTRY:\tNINETY NINE\t99\tNUMBER,WORD\t",
  c!"LEXENTRY:\tNINETY NINTH\t99\tWORD,ORD\t",
  c!"LEXENTRY:\tNINETY ONE\t91\tNUMBER,WORD\t",
  c!"LEXENTRY:\tNINETY SECOND\t92\tWORD,ORD\t",
  c!"LEXENTRY:\tNINETY SEVEN\t97\tNUMBER,WORD\t",
  c!"LEXENTRY:\tNINETY SEVENTH\t97\tWORD,ORD\t",
  c!"LEXENTRY:\tNINETY SIX\t96\tNUMBER,WORD\t",
  c!"LEXENTRY:\tNINETY SIXTH\t96\tWORD,ORD\t",
  c!"LEXENTRY:\tNINETY THIRD\t93\tWORD,ORD\t",
  c!"LEXENTRY:\tNINETY THREE\t93\tNUMBER,WORD\t",
  c!"LEXENTRY:\tNINETY TWO\t92\tNUMBER,WORD\t",
  c!"LEXENTRY:\tNINTH\t9\tWORD,ORD\t",
  c!"LEXENTRY:\tNJ\tNEW JERSEY\tPROV,WORD,ROAD\t",
  c!"LEXENTRY:\tNL\tNEWFOUNDLAND AND LABRADOR\tPROV,WORD,ROAD\t",
  c!"LEXENTRY:\tNM\tNEW MEXICO\tPROV,WORD,ROAD\t",
  c!"LEXENTRY:\tNO\t#\tUNITH,STOPWORD\t",
  c!"LEXENTRY:\tNO\tNORTH\tDIRECT\t",
  c!"LEXENTRY:\tNO VANCOUVER\tNORTH VANCOUVER\tCITY\t",
  c!"LEXENTRY:\tNOR\tNORTH\tDIRECT\t",
  c!"LEXENTRY:\tNORD\tNORD\tDIRECT\t",
  c!"LEXENTRY:\tNORD EST\tNORD EST\tDIRECT\t",
  c!"LEXENTRY:\tNORD OUEST\tNORD OUEST\tDIRECT\t",
  c!"LEXENTRY:\tNORDEST\tNORD EST\tDIRECT\t",
  c!"LEXENTRY:\tNORDOUEST\tNORD OUEST\tDIRECT\t",
  c!"LEXENTRY:\tNORTE\tNORTH\tDIRECT\t",
  c!"LEXENTRY:\tNORTH\tNORTH\tDIRECT\t",
  c!"LEXENTRY:\tNORTH & SOUTH\tNORTH & SOUTH\tWORD\t",
  c!"LEXENTRY:\tNORTH CAROLINA\tNORTH CAROLINA\tPROV,WORD\t",
  c!"LEXENTRY:\tNORTH DAKOTA\tNORTH DAKOTA\tPROV,WORD\t",
  c!"LEXENTRY:\tNORTH EAST\tNORTHEAST\tDIRECT\t",
  c!"LEXENTRY:\tNORTH SOUTH\tNORTH SOUTH\tWORD\t",
  c!"LEXENTRY:\tNORTH VANCOUVER\tNORTH VANCOUVER\tCITY\t",
  c!"LEXENTRY:\tNORTH WEST\tNORTHWEST\tDIRECT\t",
  c!"LEXENTRY:\tNORTHBOUND\tNORTHBOUND\tWORD,QUALIF\t",
  c!"LEXENTRY:\tNORTHEAST\tNORTHEAST\tDIRECT\t",
  c!"LEXENTRY:\tNORTHERN MARIANA ISLANDS\tMP\tPROV\t",
  c!"LEXENTRY:\tNORTHWEST\tNORTHWEST\tDIRECT\t",
  c!"LEXENTRY:\tNORTHWEST TERRITORIES\tNORTHWEST TERRITORIES\tPROV,WORD\t",
  c!"LEXENTRY:\tNOUVEAU BRUNSWICK\tNEW BRUNSWICK\tPROV,WORD\t",
  c!"LEXENTRY:\tNOUVELLE ECOSSE\tNOVA SCOTIA\tPROV,WORD\t",
  c!"LEXENTRY:\tNOVA SCOTIA\tNOVA SCOTIA\tPROV,WORD\t",
  c!"LEXENTRY:\tNR\tNEAR\tWORD\t",
  c!"LEXENTRY:\tNS\tNOVA SCOTIA\tPROV,WORD,ROAD\t",
  c!"LEXENTRY:\tNT\tNORTHWEST TERRITORIES\tPROV,WORD,ROAD\t",
  c!"LEXENTRY:\tNTH\tNORTH\tDIRECT\t",
  c!"LEXENTRY:\tNU\tNUNAVUT\tPROV,WORD,ROAD\t",
  c!"LEXENTRY:\tNUMBER\t#\tUNITH,STOPWORD\t",
  c!"LEXENTRY:\tNUNAVUT\tNUNAVUT\tPROV,WORD\t",
  c!"LEXENTRY:\tNV\tNEVADA\tPROV,WORD,ROAD\t"]

/-- data/sample/usa.lex:1752-1801 -/
def entries35 : List Str := [
  c!"LEXENTRY:\tNW\tNORTHWEST\tDIRECT\t",
  c!"LEXENTRY:\tNY\tNEW YORK\tPROV,WORD,ROAD\t",
  c!"LEXENTRY:\tO\t0\tSINGLE\t",
  c!"LEXENTRY:\tO\tO\tSTOPWORD\t",
  c!"LEXENTRY:\tO BRIEN\tO BRIEN\tCITY\t",
  c!"LEXENTRY:\tO FALLON\tO FALLON\tCITY\t",
  c!"LEXENTRY:\tO NEALS\tO NEALS\tCITY\t",
  c!"LEXENTRY:\tO'BRIEN\tO BRIEN\tCITY\t",
  c!"LEXENTRY:\tO'FALLON\tO FALLON\tCITY\t",
  c!"LEXENTRY:\tO'NEALS\tO NEALS\tCITY\t",
  c!"LEXENTRY:\tOESTE\tOESTE\tDIRECT\t",
  c!"LEXENTRY:\tOF\tOF\tSTOPWORD\t",
  c!"LEXENTRY:\tOF PK\tOFFICE PARK\tBUILDT\t",
  c!"LEXENTRY:\tOF PRK\tOFFICE PARK\tBUILDT\t",
  c!"LEXENTRY:\tOFC\tOFFICE\tUNITT\t",
  c!"LEXENTRY:\tOFC CENTER\tOFFICE PARK\tBUILDT\t",
  c!"LEXENTRY:\tOFC COMPLEX\tOFFICE PARK\tBUILDT\t",
  c!"LEXENTRY:\tOFC CTR\tOFFICE PARK\tBUILDT\t",
  c!"LEXENTRY:\tOFC PARK\tOFFICE PARK\tBUILDT\t",
  c!"LEXENTRY:\tOFC PRK\tOFFICE PARK\tBUILDT\t",
  c!"LEXENTRY:\tOFFICE\tOFFICE\tUNITT\t",
  c!"LEXENTRY:\tOFFICE\tOFFICE PARK\tBUILDT\t",
  c!"LEXENTRY:\tOFFICE CENTER\tOFFICE PARK\tBUILDT\t",
  c!"LEXENTRY:\tOFFICE COMPLEX\tOFFICE PARK\tBUILDT\t",
  c!"LEXENTRY:\tOFFICE CTR\tOFFICE PARK\tBUILDT\t",
  c!"LEXENTRY:\tOFFICE PARK\tOFFICE PARK\tBUILDT\t",
  c!"LEXENTRY:\tOFFICE PRK\tOFFICE PARK\tBUILDT\t",
  c!"LEXENTRY:\tOFFICES\tOFFICE PARK\tBUILDT\t",
  c!"LEXENTRY:\tOFPK\tOFFICE PARK\tBUILDT\t",
  c!"LEXENTRY:\tOFPRK\tOFFICE PARK\tBUILDT\t",
  c!"LEXENTRY:\tOH\tOHIO\tPROV,WORD,ROAD\t",
  c!"LEXENTRY:\tOHIO\tOHIO\tPROV,WORD\t",
  c!"LEXENTRY:\tOK\tOKLAHOMA\tPROV,WORD,ROAD\t",
  c!"LEXENTRY:\tOKLA\tOKLAHOMA\tPROV,WORD,ROAD\t",
  c!"LEXENTRY:\tOKLAHOMA\tOKLAHOMA\tPROV,WORD\t",
  c!"LEXENTRY:\tOLD\tOLD\tQUALIF,WORD\t",
  c!"LEXENTRY:\tON\tON\tSTOPWORD\t",
  c!"LEXENTRY:\tON\tONTARIO\tPROV,WORD,ROAD\t",
  c!"LEXENTRY:\tONE\t1\tWORD,NUMBER\t",
  c!"LEXENTRY:\tONE HUNDRED\t100\tNUMBER\t",
  c!"LEXENTRY:\tONE HUNDRED\tONE HUNDRED\tWORD\t",
  c!"LEXENTRY:\tONE MILE\tONE MILE\tWORD\t",
  c!"LEXENTRY:\tONT\tONTARIO\tPROV,WORD,ROAD\t",
  c!"LEXENTRY:\tONTARIO\tONTARIO\tPROV,WORD\t",
  c!"LEXENTRY:\tOR\tOREGON\tPROV,WORD,ROAD\t",
  c!"LEXENTRY:\tORCH\tORCHARD\tWORD\t",
  c!"LEXENTRY:\tORCHARD\tORCHARD\tWORD,TYPE\t",
  c!"LEXENTRY:\tORE\tOREGON\tPROV,WORD,ROAD\t",
  c!"LEXENTRY:\tOREGON\tOREGON\tPROV,WORD\t",
  c!"LEXENTRY:\tOTLT\tOUTLET\tBUILDT\t"]

/-- data/sample/usa.lex:1802-1851 -/
def entries36 : List Str := [
  c!"LEXENTRY:\tOUEST\tOUEST\tDIRECT\t",
  c!"LEXENTRY:\tOUTLET\tOUTLET\tBUILDT\t",
  c!"LEXENTRY:\tOUTLETS\tOUTLET\tBUILDT\t",
  c!"LEXENTRY:\tOUTS\tOUTSIDE OF\tWORD\t",
  c!"LEXENTRY:\tOUTSIDE\tOUTSIDE OF\tWORD\t",
  c!"LEXENTRY:\tOVAL\tOVAL\tTYPE\t",
  c!"LEXENTRY:\tOVERPASS\tOVERPASS\tTYPE\t",
  c!"LEXENTRY:\tOVPS\tOVERPASS\tTYPE\t",
  c!"LEXENTRY:\tP BOX\tPOST OFFICE BOX\tBOXH\t",
  c!"LEXENTRY:\tP BX\tPOST OFFICE BOX\tBOXH\t",
  c!"LEXENTRY:\tP H\tPENTHOUSE\tUNITT\t",
  c!"LEXENTRY:\tP O\tPOST OFFICE BOX\tBOXH\t",
  c!"LEXENTRY:\tP O B\tPOST OFFICE BOX\tBOXH\t",
  c!"LEXENTRY:\tP O B X\tPOST OFFICE BOX\tBOXH\t",
  c!"LEXENTRY:\tP O BOX\tPOST OFFICE BOX\tBOXH\t",
  c!"LEXENTRY:\tP O BX\tPOST OFFICE BOX\tBOXH\t",
  c!"LEXENTRY:\tP O DRAWER\tPOST OFFICE BOX\tBOXH\t",
  c!"LEXENTRY:\tPA\tPARADE\tTYPE\t",
  c!"LEXENTRY:\tPA\tPENNSYLVANIA\tPROV,WORD,ROAD\t",
  c!"LEXENTRY:\tPALAU\tPW\tPROV\t",
  c!"LEXENTRY:\tPAR\tPARCELAS\tUNITH,WORD,ROAD\t",
  c!"LEXENTRY:\tPAR RD\tPARISH ROAD\tROAD\t",
  c!"LEXENTRY:\tPAR ROAD\tPARISH ROAD\tROAD\t",
  c!"LEXENTRY:\tPARADE\tPARADE\tTYPE,WORD\t",
  c!"LEXENTRY:\tPARADERO\tPARADERO\tWORD\t",
  c!"LEXENTRY:\tPARC\tPARC\tWORD,BUILDT,TYPE\t",
  c!"LEXENTRY:\tPARCELAS\tPARCELAS\tUNITH\t",
  c!"LEXENTRY:\tPARISH RD\tPARISH ROAD\tROAD\t",
  c!"LEXENTRY:\tPARISH ROAD\tPARISH ROAD\tROAD\t",
  c!"LEXENTRY:\tPARK\tPARK\tWORD,BUILDT,TYPE\t",
  c!"LEXENTRY:\tPARK & SHOP\tSHOPPING CENTER\tBUILDT\t",
  c!"LEXENTRY:\tPARK N SHOP\tSHOPPING CENTER\tBUILDT\t",
  c!"LEXENTRY:\tPARKWAY\tPARKWAY\tTYPE\t",
  c!"LEXENTRY:\tPARKWY\tPARKWAY\tTYPE\t",
  c!"LEXENTRY:\tPARQUE\tPARQUE\tTYPE\t",
  c!"LEXENTRY:\tPARRD\tPARISH ROAD\tROAD\t",
  c!"LEXENTRY:\tPASAJE\tPASAJE\tTYPE\t",
  c!"LEXENTRY:\tPASEO\tPASEO\tTYPE\t",
  c!"LEXENTRY:\tPASO\tPASO\tWORD,TYPE\t",
  c!"LEXENTRY:\tPASS\tPASS\tTYPE\t",
  c!"LEXENTRY:\tPASSAGE\tPASSAGE\tTYPE\t",
  c!"LEXENTRY:\tPATH\tPATH\tTYPE\t",
  c!"LEXENTRY:\tPATHWAY\tPATHWAY\tTYPE\t",
  c!"LEXENTRY:\tPAVILION\tPAVILLION\tBUILDT,WORD\t",
  c!"LEXENTRY:\tPAVILIONS\tPAVILLION\tBUILDT,WORD\t",
  c!"LEXENTRY:\tPAVILLION\tPAVILLION\tBUILDT,WORD\t",
  c!"LEXENTRY:\tPAVILLIONS\tPAVILLION\tBUILDT,WORD\t",
  c!"LEXENTRY:\tPAVL\tPAVILLION\tBUILDT,WORD\t",
  c!"LEXENTRY:\tPD\tPOND\tWORD\t",
  c!"LEXENTRY:\tPDA\tPARADERO\tWORD\t"]

/-- data/sample/usa.lex:1852-1901 -/
def entries37 : List Str := [
  c!"LEXENTRY:\tPE\tPRINCE EDWARD ISLAND\tPROV,WORD,ROAD\t",
  c!"LEXENTRY:\tPE ELL\tPE ELL\tCITY\t",
  c!"LEXENTRY:\tPEI\tPRINCE EDWARD ISLAND\tPROV,WORD,ROAD\t",
  c!"LEXENTRY:\tPENN\tPENNSYLVANIA\tPROV,WORD,ROAD\t",
  c!"LEXENTRY:\tPENNA\tPENNSYLVANIA\tPROV,WORD,ROAD\t",
  c!"LEXENTRY:\tPENNSYLVANIA\tPENNSYLVANIA\tPROV,WORD\t",
  c!"LEXENTRY:\tPENTHOUSE\tPENTHOUSE\tUNITT\t",
  c!"LEXENTRY:\tPH\tPATH\tTYPE\t",
  c!"LEXENTRY:\tPH\tPENTHOUSE\tUNITT\t",
  c!"LEXENTRY:\tPIECE\tPIECE\tUNITH,UNITT\t",
  c!"LEXENTRY:\tPIER\tPIER\tUNITH,WORD,BUILDT\t",
  c!"LEXENTRY:\tPIKE\tPIKE\tTYPE\t",
  c!"LEXENTRY:\tPINES\tPINES\tWORD,TYPE\t",
  c!"LEXENTRY:\tPISO\tPISO\tUNITH\t",
  c!"LEXENTRY:\tPISTA\tPISTA\tTYPE\t",
  c!"LEXENTRY:\tPK\tPARK\tWORD,BUILDT,TYPE\t",
  c!"LEXENTRY:\tPKE\tPIKE\tTYPE\t",
  c!"LEXENTRY:\tPKW\tPARKWAY\tTYPE\t",
  c!"LEXENTRY:\tPKWAY\tPARKWAY\tTYPE\t",
  c!"LEXENTRY:\tPKWY\tPARKWAY\tTYPE\t",
  c!"LEXENTRY:\tPKY\tPARKWAY\tTYPE\t",
  c!"LEXENTRY:\tPL\tPLACE\tTYPE\t",
  c!"LEXENTRY:\tPLACE\tPLACE\tTYPE\t",
  c!"LEXENTRY:\tPLAIN\tPLAINS\tWORD\t",
  c!"LEXENTRY:\tPLAINS\tPLAINS\tWORD\t",
  c!"LEXENTRY:\tPLANTATION\tPLANTATION\tBUILDT,WORD\t",
  c!"LEXENTRY:\tPLATEAU\tPLATEAU\tWORD,TYPE\t",
  c!"LEXENTRY:\tPLAZA\tPLAZA\tTYPE,BUILDT\t",
  c!"LEXENTRY:\tPLC\tPLACE\tTYPE\t",
  c!"LEXENTRY:\tPLN\tPLAINS\tWORD\t",
  c!"LEXENTRY:\tPLNS\tPLAINS\tWORD\t",
  c!"LEXENTRY:\tPLNT\tPLANTATION\tBUILDT\t",
  c!"LEXENTRY:\tPLZ\tPLAZA\tTYPE,BUILDT\t",
  c!"LEXENTRY:\tPLZA\tPLAZA\tTYPE,BUILDT\t",
  c!"LEXENTRY:\tPM\tPROMENADE\tTYPE\t",
  c!"LEXENTRY:\tPNES\tPINES\tWORD\t",
  c!"LEXENTRY:\tPO\tPOST OFFICE BOX\tBOXH\t",
  c!"LEXENTRY:\tPO B\tPOST OFFICE BOX\tBOXH\t",
  c!"LEXENTRY:\tPO B OX\tPOST OFFICE BOX\tBOXH\t",
  c!"LEXENTRY:\tPO B X\tPOST OFFICE BOX\tBOXH\t",
  c!"LEXENTRY:\tPO BOX\tPOST OFFICE BOX\tBOXH\t",
  c!"LEXENTRY:\tPO BX\tPOST OFFICE BOX\tBOXH\t",
  c!"LEXENTRY:\tPO DRAWER\tPOST OFFICE BOX\tBOXH\t",
  c!"LEXENTRY:\tPOB\tPOST OFFICE BOX\tBOXH\t",
  c!"LEXENTRY:\tPOBOX\tPOST OFFICE BOX\tBOXH\t",
  c!"LEXENTRY:\tPOINT\tPOINT\tWORD\t",
  c!"LEXENTRY:\tPOINT OF ROCKS\tPOINT OF ROCKS\tCITY\t",
  c!"LEXENTRY:\tPONCE DE LEON\tPONCE DE LEON\tCITY\t",
  c!"LEXENTRY:\tPORT\tPORT\tWORD,TYPE\t",
  c!"LEXENTRY:\tPOST BOX\tPOST OFFICE BOX\tBOXH\t"]

/-- data/sample/usa.lex:1902-1951 -/
def entries38 : List Str := [
  c!"LEXENTRY:\tPOST BX\tPOST OFFICE BOX\tBOXH\t",
  c!"LEXENTRY:\tPOST OFFICE BOX\tPOST OFFICE BOX\tBOXH\t",
  c!"LEXENTRY:\tPOSTAL BOX\tPOST OFFICE BOX\tBOXH\t",
  c!"LEXENTRY:\tPOSTAL BX\tPOST OFFICE BOX\tBOXH\t",
  c!"LEXENTRY:\tPOSTAL OUTLET\tPOSTAL OUTLET\tBOXH,BUILDT\t",
  c!"LEXENTRY:\tPOSTOFFICE BOX\tPOST OFFICE BOX\tBOXH\t",
  c!"LEXENTRY:\tPOSTOFFICE BX\tPOST OFFICE BOX\tBOXH\t",
  c!"LEXENTRY:\tPOUCH\tPOST OFFICE BOX\tBOXH\t",
  c!"LEXENTRY:\tPQ\tQUEBEC\tPROV,WORD,ROAD\t",
  c!"LEXENTRY:\tPR\tPARK\tTYPE\t",
  c!"LEXENTRY:\tPR\tPUERTO RICO\tPROV,WORD,ROAD\t",
  c!"LEXENTRY:\tPR HI\tPROVINCIAL HIGHWAY\tROAD\t",
  c!"LEXENTRY:\tPR HIGHWAY\tPROVINCIAL HIGHWAY\tROAD\t",
  c!"LEXENTRY:\tPR HWY\tPROVINCIAL HIGHWAY\tROAD\t",
  c!"LEXENTRY:\tPR ROUTE\tSTATE ROUTE\tROAD\t",
  c!"LEXENTRY:\tPR RT\tPROVINCIAL ROUTE\tROAD\t",
  c!"LEXENTRY:\tPR RTE\tPROVINCIAL ROUTE\tROAD\t",
  c!"LEXENTRY:\tPRAIRIE\tPRAIRIE\tWORD\t",
  c!"LEXENTRY:\tPRAIRIE DU CHIEN\tPRAIRIE DU CHIEN\tCITY\t",
  c!"LEXENTRY:\tPRAIRIE DU ROCHER\tPRAIRIE DU ROCHER\tCITY\t",
  c!"LEXENTRY:\tPRAIRIE DU SAC\tPRAIRIE DU SAC\tCITY\t",
  c!"LEXENTRY:\tPREMIERE\t1\tWORD,ORD\t",
  c!"LEXENTRY:\tPRINCE EDWARD ISLAND\tPRINCE EDWARD ISLAND\tPROV,WORD\t",
  c!"LEXENTRY:\tPRIVATE\tPRIVATE\tWORD,TYPE\t",
  c!"LEXENTRY:\tPRK\tPARK\tWORD,BUILDT,TYPE\t",
  c!"LEXENTRY:\tPRO\tPROFESSIONAL\tWORD\t",
  c!"LEXENTRY:\tPROF\tPROFESSIONAL\tWORD\t",
  c!"LEXENTRY:\tPROFESSIONAL\tPROFESSIONAL\tWORD\t",
  c!"LEXENTRY:\tPROJ\tPROJECTS\tBUILDT\t",
  c!"LEXENTRY:\tPROJECTS\tPROJECTS\tBUILDT\t",
  c!"LEXENTRY:\tPROM\tPROMENADE\tBUILDT,TYPE\t",
  c!"LEXENTRY:\tPROMENADE\tPROMENADE\tBUILDT,TYPE\t",
  c!"LEXENTRY:\tPROVINCIAL HI\tPROVINCIAL HIGHWAY\tROAD\t",
  c!"LEXENTRY:\tPROVINCIAL HIGHWAY\tPROVINCIAL HIGHWAY\tROAD\t",
  c!"LEXENTRY:\tPROVINCIAL HWY\tPROVINCIAL HIGHWAY\tROAD\t",
  c!"LEXENTRY:\tPROVINCIAL HY\tPROVINCIAL HIGHWAY\tROAD\t",
  c!"LEXENTRY:\tPROVINCIAL ROUTE\tPROVINCIAL ROUTE\tROAD\t",
  c!"LEXENTRY:\tPROVINCIAL RT\tPROVINCIAL ROUTE\tROAD\t",
  c!"LEXENTRY:\tPROVINCIAL RTE\tPROVINCIAL ROUTE\tROAD\t",
  c!"LEXENTRY:\tPRQE\tPARQUE\tTYPE\t",
  c!"LEXENTRY:\tPRRD\tPARISH ROAD\tROAD\t",
  c!"LEXENTRY:\tPRT\tPORT\tWORD,TYPE\t",
  c!"LEXENTRY:\tPSC\tPSC\tRR\t",
  c!"LEXENTRY:\tPSO\tPASEO\tTYPE\t",
  c!"LEXENTRY:\tPSTA\tPISTA\tTYPE\t",
  c!"LEXENTRY:\tPT\tPOINT\tWORD,TYPE\t",
  c!"LEXENTRY:\tPTE\tPUENTE\tTYPE\t",
  c!"LEXENTRY:\tPU\tPLATEAU\tTYPE\t",
  c!"LEXENTRY:\tPUENTE\tPUENTE\tTYPE\t",
  c!"LEXENTRY:\tPUERTO RICO\tPUERTO RICO\tPROV,WORD\t"]

/-- data/sample/usa.lex:1952-2001 -/
def entries39 : List Str := [
  c!"LEXENTRY:\tPV\tPRIVATE\tTYPE\t",
  c!"LEXENTRY:\tPVT\tPRIVATE\tWORD,TYPE\t",
  c!"LEXENTRY:\tPW\tPATHWAY\tTYPE\t",
  c!"LEXENTRY:\tPW\tPW\tPROV\t",
  c!"LEXENTRY:\tPWKY\tPARKWAY\tTYPE\t",
  c!"LEXENTRY:\tPWY\tPARKWAY\tTYPE\t",
  c!"LEXENTRY:\tPY\tPARKWAY\tTYPE\t",
  c!"LEXENTRY:\tQC\tQUEBEC\tPROV,WORD,ROAD\t",
  c!"LEXENTRY:\tQTRS\tQUARTERS\tBUILDT\t",
  c!"LEXENTRY:\tQU\tQUAY\tTYPE\t",
  c!"LEXENTRY:\tQUAI\tQUAI\tTYPE,WORD\t",
  c!"LEXENTRY:\tQUARTERS\tQUARTERS\tBUILDT\t",
  c!"LEXENTRY:\tQUATRE\t3\tNUMBER\t",
  c!"LEXENTRY:\tQUATRE\t4\tWORD\t",
  c!"LEXENTRY:\tQUATRIEME\tQUATRIEME\tWORD\t",
  c!"LEXENTRY:\tQUAY\tQUAY\tTYPE,WORD\t",
  c!"LEXENTRY:\tQUAY RD\tQUAY ROAD\tROAD\t",
  c!"LEXENTRY:\tQUAY ROAD\tQUAY ROAD\tROAD\t",
  c!"LEXENTRY:\tQUEBEC\tQUEBEC\tPROV,WORD\t",
  c!"LEXENTRY:\tR\tR\tSINGLE\t",
  c!"LEXENTRY:\tR\tRURAL ROUTE\tRR\t",
  c!"LEXENTRY:\tR D\tRURAL ROUTE\tRR\t",
  c!"LEXENTRY:\tR D NO\tRURAL ROUTE\tRR\t",
  c!"LEXENTRY:\tR F D\tRURAL ROUTE\tRR\t",
  c!"LEXENTRY:\tR NO\tRURAL ROUTE\tRR\t",
  c!"LEXENTRY:\tR P O\tPOSTAL OUTLET\tBOXH,BUILDT\t",
  c!"LEXENTRY:\tR R\tRURAL ROUTE\tRR\t",
  c!"LEXENTRY:\tR R NO\tRURAL ROUTE\tRR\t",
  c!"LEXENTRY:\tR RT\tRURAL ROUTE\tRR\t",
  c!"LEXENTRY:\tR RTE\tRURAL ROUTE\tRR\t",
  c!"LEXENTRY:\tR T\tROUTE\tROAD,RR\t",
  c!"LEXENTRY:\tRA\tRANGE\tTYPE\t",
  c!"LEXENTRY:\tRADIAL\tRADIAL\tWORD\t",
  c!"LEXENTRY:\tRADL\tRADIAL\tWORD\t",
  c!"LEXENTRY:\tRAMAL\tRAMAL\tTYPE\t",
  c!"LEXENTRY:\tRAMP\tRAMP\tTYPE\t",
  c!"LEXENTRY:\tRAMPA\tRAMPA\tTYPE\t",
  c!"LEXENTRY:\tRANCH\tRANCH\tWORD\t",
  c!"LEXENTRY:\tRANCH RD\tRANCH ROAD\tROAD,TYPE\t",
  c!"LEXENTRY:\tRANCH ROAD\tRANCH ROAD\tROAD,TYPE\t",
  c!"LEXENTRY:\tRANCH TO MARKET ROAD\tRANCH TO MARKET ROAD\tROAD,TYPE\t",
  c!"LEXENTRY:\tRANCHO SANTA FE\tRANCHO SANTA FE\tCITY\t",
  c!"LEXENTRY:\tRANCHOS DE TAOS\tRANCHOS DE TAOS\tCITY\t",
  c!"LEXENTRY:\tRANG\tRANG\tTYPE,WORD\t",
  c!"LEXENTRY:\tRANGE\tRANGE\tTYPE,WORD\t",
  c!"LEXENTRY:\tRANGE ROAD\tRANGE ROAD\tROAD,TYPE\t",
  c!"LEXENTRY:\tRAPIDS\tRAPIDS\tWORD\t",
  c!"LEXENTRY:\tRD\tROAD\tTYPE\t",
  c!"LEXENTRY:\tRDG\tRIDGE\tWORD,TYPE\t",
  c!"LEXENTRY:\tRDPT\tROND POINT\tTYPE\t"]

/-- data/sample/usa.lex:2002-2051 -/
def entries40 : List Str := [
  c!"LEXENTRY:\tRDS\tROADS\tWORD\t",
  c!"LEXENTRY:\tRDWY\tROADWAY\tTYPE\t",
  c!"LEXENTRY:\tRE\tRIDGE\tTYPE\t",
  c!"LEXENTRY:\tREAR\tREAR\tUNITT,WORD\t",
  c!"LEXENTRY:\tRES\tRESIDENCIA\tBUILDT\t",
  c!"LEXENTRY:\tRES HWY\tRESERVATION HIGHWAY\tROAD\t",
  c!"LEXENTRY:\tRESERVATION HIGHWAY\tRESERVATION HIGHWAY\tROAD\t",
  c!"LEXENTRY:\tRESHY\tRESERVATION HIGHWAY\tROAD\t",
  c!"LEXENTRY:\tRESIDENCIA\tRESIDENCIA\tBUILDT\t",
  c!"LEXENTRY:\tRESORT\tRESORT\tWORD,BUILDT\t",
  c!"LEXENTRY:\tREST\tREST\tWORD\t",
  c!"LEXENTRY:\tREZ DE CHAUSEE\tREZ DE CHAUSEE\tUNITT\t",
  c!"LEXENTRY:\tRFD\tRURAL ROUTE\tRR\t",
  c!"LEXENTRY:\tRFD ROUTE\tRURAL ROUTE\tRR\t",
  c!"LEXENTRY:\tRG\tRANGE\tTYPE,WORD\t",
  c!"LEXENTRY:\tRGHT\tRIGHT\tUNITT\t",
  c!"LEXENTRY:\tRHODE ISLAND\tRHODE ISLAND\tPROV,WORD\t",
  c!"LEXENTRY:\tRI\tRHODE ISLAND\tPROV,WORD,ROAD\t",
  c!"LEXENTRY:\tRI\tRISE\tTYPE\t",
  c!"LEXENTRY:\tRIDGE\tRIDGE\tWORD,TYPE\t",
  c!"LEXENTRY:\tRIGHT\tRIGHT\tUNITT\t",
  c!"LEXENTRY:\tRISE\tRISE\tTYPE\t",
  c!"LEXENTRY:\tRIV\tRIVER\tWORD\t",
  c!"LEXENTRY:\tRIVER\tRIVER\tWORD\t",
  c!"LEXENTRY:\tRL\tRUELLE\tTYPE\t",
  c!"LEXENTRY:\tRLE\tRUELLE\tTYPE\t",
  c!"LEXENTRY:\tRM\tRANCH TO MARKET ROAD\tROAD,TYPE\t",
  c!"LEXENTRY:\tRM\tROOM\tUNITH,UNITT\t",
  c!"LEXENTRY:\tRM RD\tRANCH TO MARKET ROAD\tROAD,TYPE\t",
  c!"LEXENTRY:\tRML\tRAMAL\tTYPE\t",
  c!"LEXENTRY:\tRMP\tRAMP\tTYPE\t",
  c!"LEXENTRY:\tRN\tRUN\tTYPE\t",
  c!"LEXENTRY:\tRNCH\tRANCH\tWORD\t",
  c!"LEXENTRY:\tRNG ROAD\tRANGE ROAD\tROAD,TYPE\t",
  c!"LEXENTRY:\tRO\tROUTE\tTYPE\t",
  c!"LEXENTRY:\tROAD\tROAD\tTYPE\t",
  c!"LEXENTRY:\tROADS\tROADS\tWORD\t",
  c!"LEXENTRY:\tROADWAY\tROADWAY\tTYPE\t",
  c!"LEXENTRY:\tROND POINT\tROND POINT\tTYPE\t",
  c!"LEXENTRY:\tROOM\tROOM\tUNITH\t",
  c!"LEXENTRY:\tROUND O\tROUND O\tCITY\t",
  c!"LEXENTRY:\tROUTE\tROUTE\tROAD,RR,TYPE\t",
  c!"LEXENTRY:\tROUTE NO\tROUTE\tROAD,RR\t",
  c!"LEXENTRY:\tROUTE NUMBER\tROUTE\tROAD,RR\t",
  c!"LEXENTRY:\tROUTES\tROUTES\tROAD\t",
  c!"LEXENTRY:\tROW\tROW\tTYPE\t",
  c!"LEXENTRY:\tRP\tRAMP\tTYPE\t",
  c!"LEXENTRY:\tRPDS\tRAPIDS\tWORD\t",
  c!"LEXENTRY:\tRPO\tPOSTAL OUTLET\tBOXH,BUILDT\t",
  c!"LEXENTRY:\tRR\tRURAL ROUTE\tRR\t"]

/-- data/sample/usa.lex:2052-2101 -/
def entries41 : List Str := [
  c!"LEXENTRY:\tRR NO\tRURAL ROUTE\tRR\t",
  c!"LEXENTRY:\tRRT\tRURAL ROUTE\tRR\t",
  c!"LEXENTRY:\tRRTE\tRURAL ROUTE\tRR\t",
  c!"LEXENTRY:\tRSRT\tRESORT\tWORD,BUILDT\t",
  c!"LEXENTRY:\tRT\tROUTE\tROAD,RR\t",
  c!"LEXENTRY:\tRT NO\tROUTE\tROAD,RR\t",
  c!"LEXENTRY:\tRTE\tROUTE\tROAD,RR,TYPE\t",
  c!"LEXENTRY:\tRTE ROUTE CORD\tCOUNTY ROAD\tROAD\t",
  c!"LEXENTRY:\tRTE ROUTE COUNTY ROAD\tCOUNTY ROAD\tTYPE\t",
  c!"LEXENTRY:\tRU\tRUE\tTYPE\t",
  c!"LEXENTRY:\tRUE\tRUE\tTYPE\t",
  c!"LEXENTRY:\tRUELLE\tRUELLE\tTYPE\t",
  c!"LEXENTRY:\tRUN\tRUN\tTYPE,WORD\t",
  c!"LEXENTRY:\tRURAL\tRURAL\tWORD\t",
  c!"LEXENTRY:\tRURAL\tRURAL ROUTE\tRR\t",
  c!"LEXENTRY:\tRURAL ROUTE\tRURAL ROUTE\tRR\t",
  c!"LEXENTRY:\tRURAL ROUTE NO\tRURAL ROUTE\tRR\t",
  c!"LEXENTRY:\tRURAL RT\tRURAL ROUTE\tRR\t",
  c!"LEXENTRY:\tRUTA\tRUTA\tTYPE\t",
  c!"LEXENTRY:\tRW\tROW\tTYPE\t",
  c!"LEXENTRY:\tS\tS\tSINGLE\t",
  c!"LEXENTRY:\tS\tSOUTH\tDIRECT\t",
  c!"LEXENTRY:\tS / C\tSHOPPING CENTER\tBUILDT\t",
  c!"LEXENTRY:\tS C\tSHOPPING CENTER\tBUILDT\t",
  c!"LEXENTRY:\tS CAROLINA\tSOUTH CAROLINA\tPROV,WORD\t",
  c!"LEXENTRY:\tS COFFEYVILLE\tSOUTH COFFEYVILLE\tCITY\t",
  c!"LEXENTRY:\tS DAKOTA\tSOUTH DAKOTA\tPROV,WORD\t",
  c!"LEXENTRY:\tS E\tSOUTH EAST\tDIRECT\t",
  c!"LEXENTRY:\tS EL MONTE\tSOUTH EL MONTE\tCITY\t",
  c!"LEXENTRY:\tS R\tSTAR ROUTE\tROAD,RR\t",
  c!"LEXENTRY:\tS RT\tSTAR ROUTE\tROAD,RR\t",
  c!"LEXENTRY:\tS W\tSOUTHWEST\tDIRECT\t",
  c!"LEXENTRY:\tS/C\tSHOPPING CENTER\tBUILDT\t",
  c!"LEXENTRY:\tSAINT\tSAINT\tWORD\t",
  c!"LEXENTRY:\tSAINT AGATHA\tSAINT AGATHA\tCITY\t",
  c!"LEXENTRY:\tSAINT ALBANS\tSAINT ALBANS\tCITY\t",
  c!"LEXENTRY:\tSAINT ANDREWS\tSAINT ANDREWS\tCITY\t",
  c!"LEXENTRY:\tSAINT ANN\tSAINT ANN\tCITY\t",
  c!"LEXENTRY:\tSAINT ANN HIGHLANDS\tSAINT ANN HIGHLANDS\tCITY\t",
  c!"LEXENTRY:\tSAINT ANNA\tSAINT ANNA\tCITY\t",
  c!"LEXENTRY:\tSAINT ANNE\tSAINT ANNE\tCITY\t",
  c!"LEXENTRY:\tSAINT ANSGAR\tSAINT ANSGAR\tCITY\t",
  c!"LEXENTRY:\tSAINT ANTHONY\tSAINT ANTHONY\tCITY\t",
  c!"LEXENTRY:\tSAINT ARMAND\tSAINT ARMAND\tCITY\t",
  c!"LEXENTRY:\tSAINT AUBERT\tSAINT AUBERT\tCITY\t",
  c!"LEXENTRY:\tSAINT AUGUSTA\tSAINT AUGUSTA\tCITY\t",
  c!"LEXENTRY:\tSAINT AUGUSTINE\tSAINT AUGUSTINE\tCITY\t",
  c!"LEXENTRY:\tSAINT AUGUSTINE BEACH\tSAINT AUGUSTINE BEACH\tCITY\t",
  c!"LEXENTRY:\tSAINT AUGUSTINE SHORES\tSAINT AUGUSTINE SHORES\tCITY\t",
  c!"LEXENTRY:\tSAINT AUGUSTINE SOUTH\tSAINT AUGUSTINE SOUTH\tCITY\t"]

/-- data/sample/usa.lex:2102-2151 -/
def entries42 : List Str := [
  c!"LEXENTRY:\tSAINT BENEDICT\tSAINT BENEDICT\tCITY\t",
  c!"LEXENTRY:\tSAINT BERNARD\tSAINT BERNARD\tCITY\t",
  c!"LEXENTRY:\tSAINT BERNICE\tSAINT BERNICE\tCITY\t",
  c!"LEXENTRY:\tSAINT BONAVENTURE\tSAINT BONAVENTURE\tCITY\t",
  c!"LEXENTRY:\tSAINT BONIFACIUS\tSAINT BONIFACIUS\tCITY\t",
  c!"LEXENTRY:\tSAINT BRIDGET\tSAINT BRIDGET\tCITY\t",
  c!"LEXENTRY:\tSAINT CHARLES\tSAINT CHARLES\tCITY\t",
  c!"LEXENTRY:\tSAINT CHARLES MESA\tSAINT CHARLES MESA\tCITY\t",
  c!"LEXENTRY:\tSAINT CLAIR\tSAINT CLAIR\tCITY\t",
  c!"LEXENTRY:\tSAINT CLAIR SHORES\tSAINT CLAIR SHORES\tCITY\t",
  c!"LEXENTRY:\tSAINT CLAIRSVILLE\tSAINT CLAIRSVILLE\tCITY\t",
  c!"LEXENTRY:\tSAINT CLEMENT\tSAINT CLEMENT\tCITY\t",
  c!"LEXENTRY:\tSAINT CLERE\tSAINT CLERE\tCITY\t",
  c!"LEXENTRY:\tSAINT CLOUD\tSAINT CLOUD\tCITY\t",
  c!"LEXENTRY:\tSAINT COLUMBANS\tSAINT COLUMBANS\tCITY\t",
  c!"LEXENTRY:\tSAINT CROIX\tSAINT CROIX\tCITY\t",
  c!"LEXENTRY:\tSAINT CROIX FALLS\tSAINT CROIX FALLS\tCITY\t",
  c!"LEXENTRY:\tSAINT DAVID\tSAINT DAVID\tCITY\t",
  c!"LEXENTRY:\tSAINT DONATUS\tSAINT DONATUS\tCITY\t",
  c!"LEXENTRY:\tSAINT EDWARD\tSAINT EDWARD\tCITY\t",
  c!"LEXENTRY:\tSAINT ELIZABETH\tSAINT ELIZABETH\tCITY\t",
  c!"LEXENTRY:\tSAINT ELMO\tSAINT ELMO\tCITY\t",
  c!"LEXENTRY:\tSAINT FERDINAND\tSAINT FERDINAND\tCITY\t",
  c!"LEXENTRY:\tSAINT FLORIAN\tSAINT FLORIAN\tCITY\t",
  c!"LEXENTRY:\tSAINT FRANCIS\tSAINT FRANCIS\tCITY\t",
  c!"LEXENTRY:\tSAINT FRANCISVILLE\tSAINT FRANCISVILLE\tCITY\t",
  c!"LEXENTRY:\tSAINT FRANCOIS\tSAINT FRANCOIS\tCITY\t",
  c!"LEXENTRY:\tSAINT GABRIEL\tSAINT GABRIEL\tCITY\t",
  c!"LEXENTRY:\tSAINT GEORGE\tSAINT GEORGE\tCITY\t",
  c!"LEXENTRY:\tSAINT GEORGE ISLAND\tSAINT GEORGE ISLAND\tCITY\t",
  c!"LEXENTRY:\tSAINT GERMAIN\tSAINT GERMAIN\tCITY\t",
  c!"LEXENTRY:\tSAINT HEDWIG\tSAINT HEDWIG\tCITY\t",
  c!"LEXENTRY:\tSAINT HELEN\tSAINT HELEN\tCITY\t",
  c!"LEXENTRY:\tSAINT HELENA\tSAINT HELENA\tCITY\t",
  c!"LEXENTRY:\tSAINT HELENA ISLAND\tSAINT HELENA ISLAND\tCITY\t",
  c!"LEXENTRY:\tSAINT HELENS\tSAINT HELENS\tCITY\t",
  c!"LEXENTRY:\tSAINT HENRY\tSAINT HENRY\tCITY\t",
  c!"LEXENTRY:\tSAINT HILAIRE\tSAINT HILAIRE\tCITY\t",
  c!"LEXENTRY:\tSAINT IGNACE\tSAINT IGNACE\tCITY\t",
  c!"LEXENTRY:\tSAINT IGNATIUS\tSAINT IGNATIUS\tCITY\t",
  c!"LEXENTRY:\tSAINT JACOB\tSAINT JACOB\tCITY\t",
  c!"LEXENTRY:\tSAINT JAMES\tSAINT JAMES\tCITY\t",
  c!"LEXENTRY:\tSAINT JAMES CITY\tSAINT JAMES CITY\tCITY\t",
  c!"LEXENTRY:\tSAINT JO\tSAINT JO\tCITY\t",
  c!"LEXENTRY:\tSAINT JOE\tSAINT JOE\tCITY\t",
  c!"LEXENTRY:\tSAINT JOHN\tSAINT JOHN\tCITY\t",
  c!"LEXENTRY:\tSAINT JOHNS\tSAINT JOHNS\tCITY\t",
  c!"LEXENTRY:\tSAINT JOHNS FREEMONT\tSAINT JOHNS-FREEMONT\tCITY\t",
  c!"LEXENTRY:\tSAINT JOHNS-FREEMONT\tSAINT JOHNS-FREEMONT\tCITY\t",
  c!"LEXENTRY:\tSAINT JOHNSBURY\tSAINT JOHNSBURY\tCITY\t"]

/-- data/sample/usa.lex:2152-2201 -/
def entries43 : List Str := [
  c!"LEXENTRY:\tSAINT JOHNSVILLE\tSAINT JOHNSVILLE\tCITY\t",
  c!"LEXENTRY:\tSAINT JOSEPH\tSAINT JOSEPH\tCITY\t",
  c!"LEXENTRY:\tSAINT JUST\tSAINT JUST\tCITY\t",
  c!"LEXENTRY:\tSAINT LAWRENCE\tSAINT LAWRENCE\tCITY\t",
  c!"LEXENTRY:\tSAINT LEO\tSAINT LEO\tCITY\t",
  c!"LEXENTRY:\tSAINT LEON\tSAINT LEON\tCITY\t",
  c!"LEXENTRY:\tSAINT LEONARD\tSAINT LEONARD\tCITY\t",
  c!"LEXENTRY:\tSAINT LIBORY\tSAINT LIBORY\tCITY\t",
  c!"LEXENTRY:\tSAINT LOUIS\tSAINT LOUIS\tCITY\t",
  c!"LEXENTRY:\tSAINT LOUIS PARK\tSAINT LOUIS PARK\tCITY\t",
  c!"LEXENTRY:\tSAINT LOUISVILLE\tSAINT LOUISVILLE\tCITY\t",
  c!"LEXENTRY:\tSAINT LUCAS\tSAINT LUCAS\tCITY\t",
  c!"LEXENTRY:\tSAINT LUCIE VILLAGE\tSAINT LUCIE VILLAGE\tCITY\t",
  c!"LEXENTRY:\tSAINT MARIE\tSAINT MARIE\tCITY\t",
  c!"LEXENTRY:\tSAINT MARIES\tSAINT MARIES\tCITY\t",
  c!"LEXENTRY:\tSAINT MARKS\tSAINT MARKS\tCITY\t",
  c!"LEXENTRY:\tSAINT MARTIN\tSAINT MARTIN\tCITY\t",
  c!"LEXENTRY:\tSAINT MARTINS\tSAINT MARTINS\tCITY\t",
  c!"LEXENTRY:\tSAINT MARTINVILLE\tSAINT MARTINVILLE\tCITY\t",
  c!"LEXENTRY:\tSAINT MARY\tSAINT MARY\tCITY\t",
  c!"LEXENTRY:\tSAINT MARY OF THE WOODS\tSAINT MARY OF THE WOODS\tCITY\t",
  c!"LEXENTRY:\tSAINT MARY'S\tSAINT MARY'S\tCITY\t",
  c!"LEXENTRY:\tSAINT MARYS\tSAINT MARYS\tCITY\t",
  c!"LEXENTRY:\tSAINT MARYS POINT\tSAINT MARYS POINT\tCITY\t",
  c!"LEXENTRY:\tSAINT MATHIAS\tSAINT MATHIAS\tCITY\t",
  c!"LEXENTRY:\tSAINT MATTHEWS\tSAINT MATTHEWS\tCITY\t",
  c!"LEXENTRY:\tSAINT MAURICE\tSAINT MAURICE\tCITY\t",
  c!"LEXENTRY:\tSAINT MEINRAD\tSAINT MEINRAD\tCITY\t",
  c!"LEXENTRY:\tSAINT MICHAEL\tSAINT MICHAEL\tCITY\t",
  c!"LEXENTRY:\tSAINT MICHAELS\tSAINT MICHAELS\tCITY\t",
  c!"LEXENTRY:\tSAINT NAZIANZ\tSAINT NAZIANZ\tCITY\t",
  c!"LEXENTRY:\tSAINT OLAF\tSAINT OLAF\tCITY\t",
  c!"LEXENTRY:\tSAINT ONGE\tSAINT ONGE\tCITY\t",
  c!"LEXENTRY:\tSAINT PARIS\tSAINT PARIS\tCITY\t",
  c!"LEXENTRY:\tSAINT PAUL\tSAINT PAUL\tCITY\t",
  c!"LEXENTRY:\tSAINT PAUL PARK\tSAINT PAUL PARK\tCITY\t",
  c!"LEXENTRY:\tSAINT PAULS\tSAINT PAULS\tCITY\t",
  c!"LEXENTRY:\tSAINT PETE BEACH\tSAINT PETE BEACH\tCITY\t",
  c!"LEXENTRY:\tSAINT PETER\tSAINT PETER\tCITY\t",
  c!"LEXENTRY:\tSAINT PETERS\tSAINT PETERS\tCITY\t",
  c!"LEXENTRY:\tSAINT PETERSBURG\tSAINT PETERSBURG\tCITY\t",
  c!"LEXENTRY:\tSAINT PIERRE\tSAINT PIERRE\tCITY\t",
  c!"LEXENTRY:\tSAINT REGIS\tSAINT REGIS\tCITY\t",
  c!"LEXENTRY:\tSAINT REGIS FALLS\tSAINT REGIS FALLS\tCITY\t",
  c!"LEXENTRY:\tSAINT REGIS MOHAWK\tSAINT REGIS MOHAWK\tCITY\t",
  c!"LEXENTRY:\tSAINT REGIS PARK\tSAINT REGIS PARK\tCITY\t",
  c!"LEXENTRY:\tSAINT ROBERT\tSAINT ROBERT\tCITY\t",
  c!"LEXENTRY:\tSAINT ROSA\tSAINT ROSA\tCITY\t",
  c!"LEXENTRY:\tSAINT ROSE\tSAINT ROSE\tCITY\t",
  c!"LEXENTRY:\tSAINT SIMONS\tSAINT SIMONS\tCITY\t"]

/-- data/sample/usa.lex:2202-2251 -/
def entries44 : List Str := [
  c!"LEXENTRY:\tSAINT STEPHEN\tSAINT STEPHEN\tCITY\t",
  c!"LEXENTRY:\tSAINT STEPHENS\tSAINT STEPHENS\tCITY\t",
  c!"LEXENTRY:\tSAINT STEPHENS CHURCH\tSAINT STEPHENS CHURCH\tCITY\t",
  c!"LEXENTRY:\tSAINT THOMAS\tSAINT THOMAS\tCITY\t",
  c!"LEXENTRY:\tSAINT VINCENT\tSAINT VINCENT\tCITY\t",
  c!"LEXENTRY:\tSAINT VINCENT COLLEGE\tSAINT VINCENT COLLEGE\tCITY\t",
  c!"LEXENTRY:\tSAINT WENDEL\tSAINT WENDEL\tCITY\t",
  c!"LEXENTRY:\tSAINT XAVIER\tSAINT XAVIER\tCITY\t",
  c!"LEXENTRY:\tSAINTE\tSAINTE\tWORD\t",
  c!"LEXENTRY:\tSANTA FE\tSANTA FE\tWORD,CITY\t",
  c!"LEXENTRY:\tSANTA FE SPRINGS\tSANTA FE SPRINGS\tCITY\t",
  c!"LEXENTRY:\tSASK\tSASKATCHEWAN\tPROV,WORD\t",
  c!"LEXENTRY:\tSASKATCHEWAN\tSASKATCHEWAN\tPROV,WORD\t",
  c!"LEXENTRY:\tSC\tSHOPPING CENTER\tBUILDT\t",
  c!"LEXENTRY:\tSC\tSOUTH CAROLINA\tPROV,WORD,ROAD\t",
  c!"LEXENTRY:\tSCH\tSCHOOL\tBUILDT\t",
  c!"LEXENTRY:\tSCHOOL\tSCHOOL\tBUILDT,WORD\t",
  c!"LEXENTRY:\tSD\tSOUTH DAKOTA\tPROV,WORD,ROAD\t",
  c!"LEXENTRY:\tSE\tSOUTHEAST\tDIRECT\t",
  c!"LEXENTRY:\tSEARING ROUTE\tRURAL ROUTE\tRR\t",
  c!"LEXENTRY:\tSEARING RT\tRURAL ROUTE\tRR\t",
  c!"LEXENTRY:\tSEARING RTE\tRURAL ROUTE\tRR\t",
  c!"LEXENTRY:\tSECOND\t2\tWORD,ORD\t",
  c!"LEXENTRY:\tSEM\tSEMINARY\tBUILDT\t",
  c!"LEXENTRY:\tSEMINARY\tSEMINARY\tBUILDT,WORD\t",
  c!"LEXENTRY:\tSENDERO\tSENDERO\tTYPE\t",
  c!"LEXENTRY:\tSENT\tSENTIER\tTYPE\t",
  c!"LEXENTRY:\tSENTIER\tSENTIER\tTYPE\t",
  c!"LEXENTRY:\tSER RD\tSERVICE ROAD\tTYPE\t",
  c!"LEXENTRY:\tSERV RD\tSERVICE ROAD\tTYPE\t",
  c!"LEXENTRY:\tSERV ROAD\tSERVICE ROAD\tTYPE\t",
  c!"LEXENTRY:\tSERVICE\tSERVICE\tWORD\t",
  c!"LEXENTRY:\tSERVICE\tSERVICE ROAD\tTYPE\t",
  c!"LEXENTRY:\tSERVICE RD\tSERVICE ROAD\tTYPE\t",
  c!"LEXENTRY:\tSERVICE ROAD\tSERVICE ROAD\tTYPE\t",
  c!"LEXENTRY:\tSEVEN\t7\tNUMBER,WORD\t",
  c!"LEXENTRY:\tSEVEN CORNERS\tSEVEN CORNERS\tWORD,BUILDT\t",
  c!"LEXENTRY:\tSEVEN MILE\tSEVEN MILE\tWORD\t",
  c!"LEXENTRY:\tSEVENTEEN\t17\tNUMBER,WORD\t",
  c!"LEXENTRY:\tSEVENTEEN MILE\tSEVENTEEN MILE\tWORD\t",
  c!"LEXENTRY:\tSEVENTEENTH\t17\tWORD,ORD\t",
  c!"LEXENTRY:\tSEVENTH\t7\tWORD,ORD\t",
  c!"LEXENTRY:\tSEVENTIETH\t70\tWORD,ORD\t",
  c!"LEXENTRY:\tSEVENTY\t70\tNUMBER,WORD\t",
  c!"LEXENTRY:\tSEVENTY EIGHT\t78\tNUMBER,WORD\t",
  c!"LEXENTRY:\tSEVENTY EIGHTH\t78\tWORD,ORD\t",
  c!"LEXENTRY:\tSEVENTY FIFTH\t75\tWORD,ORD\t",
  c!"LEXENTRY:\tSEVENTY FIRST\t71\tWORD,ORD\t",
  c!"LEXENTRY:\tSEVENTY FIVE\t75\tNUMBER,WORD\t",
  c!"LEXENTRY:\tSEVENTY FOUR\t74\tNUMBER,WORD\t"]

/-- data/sample/usa.lex:2252-2301 -/
def entries45 : List Str := [
  c!"LEXENTRY:\tSEVENTY FOURTH\t74\tWORD,ORD\t",
  c!"LEXENTRY:\tSEVENTY NINE\t79\tNUMBER,WORD\t",
  c!"LEXENTRY:\tSEVENTY NINTH\t79\tWORD,ORD\t",
  c!"LEXENTRY:\tSEVENTY ONE\t71\tNUMBER,WORD\t",
  c!"LEXENTRY:\tSEVENTY SECOND\t72\tWORD,ORD\t",
  c!"LEXENTRY:\tSEVENTY SEVEN\t77\tNUMBER,WORD\t",
  c!"LEXENTRY:\tSEVENTY SEVENTH\t77\tWORD,ORD\t",
  c!"LEXENTRY:\tSEVENTY SIX\t76\tNUMBER,WORD\t",
  c!"LEXENTRY:\tSEVENTY SIXTH\t76\tWORD,ORD\t",
  c!"LEXENTRY:\tSEVENTY THIRD\t73\tWORD,ORD\t",
  c!"LEXENTRY:\tSEVENTY THREE\t73\tNUMBER,WORD\t",
  c!"LEXENTRY:\tSEVENTY TWO\t72\tNUMBER,WORD\t",
  c!"LEXENTRY:\tSH\tSHOPPING CENTER\tBUILDT\t",
  c!"LEXENTRY:\tSH CTR\tSHOPPING CENTER\tBUILDT\t",
  c!"LEXENTRY:\tSHC\tSHOPPING CENTER\tBUILDT\t",
  c!"LEXENTRY:\tSHL\tSHOAL\tWORD\t",
  c!"LEXENTRY:\tSHLS\tSHOALS\tWORD\t",
  c!"LEXENTRY:\tSHOAL\tSHOAL\tWORD\t",
  c!"LEXENTRY:\tSHOALS\tSHOALS\tWORD\t",
  c!"LEXENTRY:\tSHOP\tSHOPPING CENTER\tBUILDT\t",
  c!"LEXENTRY:\tSHOP CEN\tSHOPPING CENTER\tBUILDT\t",
  c!"LEXENTRY:\tSHOP CENTER\tSHOPPING CENTER\tBUILDT\t",
  c!"LEXENTRY:\tSHOP CTR\tSHOPPING CENTER\tBUILDT\t",
  c!"LEXENTRY:\tSHOP MALL\tMALL\tBUILDT\t",
  c!"LEXENTRY:\tSHOP MART\tSHOPPING MART\tBUILDT\t",
  c!"LEXENTRY:\tSHOP N SAVE\tSHOPPING CENTER\tBUILDT\t",
  c!"LEXENTRY:\tSHOP PLZ\tPLAZA\tBUILDT\t",
  c!"LEXENTRY:\tSHOP SQ\tSHOPPING SQUARE\tBUILDT\t",
  c!"LEXENTRY:\tSHOPETTE\tSHOPPING CENTER\tBUILDT\t",
  c!"LEXENTRY:\tSHOPPERS\tSHOPPING CENTER\tBUILDT\t",
  c!"LEXENTRY:\tSHOPPES\tSHOPPING CENTER\tBUILDT\t",
  c!"LEXENTRY:\tSHOPPETTE\tSHOPPING CENTER\tBUILDT\t",
  c!"LEXENTRY:\tSHOPPING\tSHOPPING CENTER\tBUILDT\t",
  c!"LEXENTRY:\tSHOPPING CENT\tSHOPPING CENTER\tBUILDT\t",
  c!"LEXENTRY:\tSHOPPING CENTE\tSHOPPING CENTER\tBUILDT\t",
  c!"LEXENTRY:\tSHOPPING CENTER\tSHOPPING CENTER\tBUILDT\t",
  c!"LEXENTRY:\tSHOPPING CNTR\tSHOPPING CENTER\tBUILDT\t",
  c!"LEXENTRY:\tSHOPPING CTR\tSHOPPING CENTER\tBUILDT\t",
  c!"LEXENTRY:\tSHOPPING MALL\tMALL\tBUILDT\t",
  c!"LEXENTRY:\tSHOPPING PARK\tSHOPPING CENTER\tBUILDT\t",
  c!"LEXENTRY:\tSHOPPING PLAZA\tPLAZA\tBUILDT\t",
  c!"LEXENTRY:\tSHOPS\tSHOPPING CENTER\tBUILDT\t",
  c!"LEXENTRY:\tSHORE\tSHORE\tWORD\t",
  c!"LEXENTRY:\tSHP\tSHOPPING CENTER\tBUILDT\t",
  c!"LEXENTRY:\tSHP CENTER\tSHOPPING CENTER\tBUILDT\t",
  c!"LEXENTRY:\tSHP CT\tSHOPPING CENTER\tBUILDT\t",
  c!"LEXENTRY:\tSHP CTR\tSHOPPING CENTER\tBUILDT\t",
  c!"LEXENTRY:\tSHP ML\tMALL\tBUILDT\t",
  c!"LEXENTRY:\tSHP PL\tPLAZA\tBUILDT\t",
  c!"LEXENTRY:\tSHPCT\tSHOPPING CENTER\tBUILDT\t"]

/-- data/sample/usa.lex:2302-2351 -/
def entries46 : List Str := [
  c!"LEXENTRY:\tSHPG\tSHOPPING CENTER\tBUILDT\t",
  c!"LEXENTRY:\tSHPG CENTER\tSHOPPING CENTER\tBUILDT\t",
  c!"LEXENTRY:\tSHPG CNTR\tSHOPPING CENTER\tBUILDT\t",
  c!"LEXENTRY:\tSHPG CTR\tSHOPPING CENTER\tBUILDT\t",
  c!"LEXENTRY:\tSHPML\tMALL\tBUILDT\t",
  c!"LEXENTRY:\tSHPPL\tPLAZA\tBUILDT\t",
  c!"LEXENTRY:\tSHR\tSHORE\tWORD\t",
  c!"LEXENTRY:\tSIDE\tSIDE\tUNITT,WORD\t",
  c!"LEXENTRY:\tSIDE ROAD\tSIDE ROAD\tTYPE\t",
  c!"LEXENTRY:\tSITE\tSITE\tBUILDH,WORD\t",
  c!"LEXENTRY:\tSIX\t6\tNUMBER,WORD\t",
  c!"LEXENTRY:\tSIX MILE\tSIX MILE\tWORD\t",
  c!"LEXENTRY:\tSIXTEEN\t16\tNUMBER,WORD\t",
  c!"LEXENTRY:\tSIXTEEN MILE\tSIXTEEN MILE\tWORD\t",
  c!"LEXENTRY:\tSIXTEENTH\t16\tWORD,ORD\t",
  c!"LEXENTRY:\tSIXTH\t6\tWORD,ORD\t",
  c!"LEXENTRY:\tSIXTIETH\t60\tWORD,ORD\t",
  c!"LEXENTRY:\tSIXTY\t60\tNUMBER,WORD\t",
  c!"LEXENTRY:\tSIXTY EIGHT\t68\tNUMBER,WORD\t",
  c!"LEXENTRY:\tSIXTY EIGHTH\t68\tWORD,ORD\t",
  c!"LEXENTRY:\tSIXTY FIFTH\t65\tWORD,ORD\t",
  c!"LEXENTRY:\tSIXTY FIRST\t61\tWORD,ORD\t",
  c!"LEXENTRY:\tSIXTY FIVE\t65\tNUMBER,WORD\t",
  c!"LEXENTRY:\tSIXTY FOUR\t64\tNUMBER,WORD\t",
  c!"LEXENTRY:\tSIXTY FOURTH\t64\tWORD,ORD\t",
  c!"LEXENTRY:\tSIXTY NINE\t69\tNUMBER,WORD\t",
  c!"LEXENTRY:\tSIXTY NINTH\t69\tWORD,ORD\t",
  c!"LEXENTRY:\tSIXTY ONE\t61\tNUMBER,WORD\t",
  c!"LEXENTRY:\tSIXTY SECOND\t62\tWORD,ORD\t",
  c!"LEXENTRY:\tSIXTY SEVEN\t67\tNUMBER,WORD\t",
  c!"LEXENTRY:\tSIXTY SEVENTH\t67\tWORD,ORD\t",
  c!"LEXENTRY:\tSIXTY SIX\t66\tNUMBER,WORD\t",
  c!"LEXENTRY:\tSIXTY SIXTH\t66\tWORD,ORD\t",
  c!"LEXENTRY:\tSIXTY THIRD\t63\tWORD,ORD\t",
  c!"LEXENTRY:\tSIXTY THREE\t63\tNUMBER,WORD\t",
  c!"LEXENTRY:\tSIXTY TWO\t62\tNUMBER,WORD\t",
  c!"LEXENTRY:\tSK\tSASKATCHEWAN\tPROV,WORD,ROAD\t",
  c!"LEXENTRY:\tSKWY\tSKYWAY\tTYPE\t",
  c!"LEXENTRY:\tSKYWAY\tSKYWAY\tTYPE\t",
  c!"LEXENTRY:\tSLIP\tSLIP\tUNITH,WORD\t",
  c!"LEXENTRY:\tSM\tMALL\tBUILDT\t",
  c!"LEXENTRY:\tSMT\tSHOPPING MART\tBUILDT\t",
  c!"LEXENTRY:\tSMT\tSUMMIT\tWORD\t",
  c!"LEXENTRY:\tSNDR\tSENDERO\tTYPE\t",
  c!"LEXENTRY:\tSO\tSOUTH\tDIRECT\t",
  c!"LEXENTRY:\tSOTA\tSOTA\tWORD\t",
  c!"LEXENTRY:\tSOTA\tSOTANO\tUNITH\t",
  c!"LEXENTRY:\tSOTAN\tSOTANO\tUNITH\t",
  c!"LEXENTRY:\tSOTANO\tSOTANO\tUNITH\t",
  c!"LEXENTRY:\tSOUS SOL\tSOUS SOL\tUNITT\t"]

/-- data/sample/usa.lex:2352-2401 -/
def entries47 : List Str := [
  c!"LEXENTRY:\tSOUTH\tSOUTH\tDIRECT\t",
  c!"LEXENTRY:\tSOUTH CAROLINA\tSOUTH CAROLINA\tPROV,WORD\t",
  c!"LEXENTRY:\tSOUTH COFFEYVILLE\tSOUTH COFFEYVILLE\tCITY\t",
  c!"LEXENTRY:\tSOUTH DAKOTA\tSOUTH DAKOTA\tPROV,WORD\t",
  c!"LEXENTRY:\tSOUTH EAST\tSOUTHEAST\tDIRECT\t",
  c!"LEXENTRY:\tSOUTH EL MONTE\tSOUTH EL MONTE\tCITY\t",
  c!"LEXENTRY:\tSOUTH WEST\tSOUTHWEST\tDIRECT\t",
  c!"LEXENTRY:\tSOUTHBOUND\tSOUTHBOUND\tWORD,QUALIF\t",
  c!"LEXENTRY:\tSOUTHEAST\tSOUTHEAST\tDIRECT\t",
  c!"LEXENTRY:\tSOUTHWEST\tSOUTHWEST\tDIRECT\t",
  c!"LEXENTRY:\tSP\tSHOPPING PLAZA\tBUILDT\t",
  c!"LEXENTRY:\tSP\tSPACE\tUNITH\t",
  c!"LEXENTRY:\tSPACE\tSPACE\tUNITH,WORD\t",
  c!"LEXENTRY:\tSPC\tSPACE\tUNITH\t",
  c!"LEXENTRY:\tSPDWY\tSPEEDWAY\tTYPE\t",
  c!"LEXENTRY:\tSPEEDWAY\tSPEEDWAY\tTYPE\t",
  c!"LEXENTRY:\tSPG\tSPRING\tWORD\t",
  c!"LEXENTRY:\tSPGS\tSPRING\tWORD\t",
  c!"LEXENTRY:\tSPR\tSPRING\tWORD\t",
  c!"LEXENTRY:\tSPRG\tSPRING\tWORD\t",
  c!"LEXENTRY:\tSPRING\tSPRING\tWORD\t",
  c!"LEXENTRY:\tSPRINGS\tSPRING\tWORD\t",
  c!"LEXENTRY:\tSPUR\tSPUR\tQUALIF,TYPE,WORD\t",
  c!"LEXENTRY:\tSPURNGS\tSPUR\tWORD\t",
  c!"LEXENTRY:\tSQ\tSQUARE\tTYPE,BUILDT\t",
  c!"LEXENTRY:\tSQR\tSQUARE\tTYPE,BUILDT\t",
  c!"LEXENTRY:\tSQU\tSQUARE\tTYPE,BUILDT\t",
  c!"LEXENTRY:\tSQUARE\tSQUARE\tTYPE,BUILDT\t",
  c!"LEXENTRY:\tSQURE\tSQUARE\tTYPE,BUILDT\t",
  c!"LEXENTRY:\tSR\tSIDE ROAD\tTYPE\t",
  c!"LEXENTRY:\tSR\tSTAR ROUTE\tROAD,RR,WORD\t",
  c!"LEXENTRY:\tSRA\tRURAL ROUTE\tRR\t",
  c!"LEXENTRY:\tSRV RD\tSERVICE ROAD\tTYPE\t",
  c!"LEXENTRY:\tSRV RTE\tSERVICE ROUTE\tTYPE\t",
  c!"LEXENTRY:\tSRVC\tSERVICE ROAD\tTYPE\t",
  c!"LEXENTRY:\tSRVRD\tSERVICE ROAD\tTYPE\t",
  c!"LEXENTRY:\tSRVRTE\tSERVICE ROAD\tTYPE\t",
  c!"LEXENTRY:\tSS\tSUBURBAN SERVICE\tRR\t",
  c!"LEXENTRY:\tST\tSAINT\tWORD\t",
  c!"LEXENTRY:\tST\tSTREET\tTYPE\t",
  c!"LEXENTRY:\tST AGATHA\tSAINT AGATHA\tCITY\t",
  c!"LEXENTRY:\tST ALBANS\tSAINT ALBANS\tCITY\t",
  c!"LEXENTRY:\tST ANDREWS\tSAINT ANDREWS\tCITY\t",
  c!"LEXENTRY:\tST ANN\tSAINT ANN\tCITY\t",
  c!"LEXENTRY:\tST ANN HIGHLANDS\tSAINT ANN HIGHLANDS\tCITY\t",
  c!"LEXENTRY:\tST ANNA\tSAINT ANNA\tCITY\t",
  c!"LEXENTRY:\tST ANNE\tSAINT ANNE\tCITY\t",
  c!"LEXENTRY:\tST ANSGAR\tSAINT ANSGAR\tCITY\t",
  c!"LEXENTRY:\tST ANTHONY\tSAINT ANTHONY\tCITY\t",
  c!"LEXENTRY:\tST ARMAND\tSAINT ARMAND\tCITY\t"]

/-- data/sample/usa.lex:2402-2451 -/
def entries48 : List Str := [
  c!"LEXENTRY:\tST AUBERT\tSAINT AUBERT\tCITY\t",
  c!"LEXENTRY:\tST AUGUSTA\tSAINT AUGUSTA\tCITY\t",
  c!"LEXENTRY:\tST AUGUSTINE\tSAINT AUGUSTINE\tCITY\t",
  c!"LEXENTRY:\tST AUGUSTINE BEACH\tSAINT AUGUSTINE BEACH\tCITY\t",
  c!"LEXENTRY:\tST AUGUSTINE SHORES\tSAINT AUGUSTINE SHORES\tCITY\t",
  c!"LEXENTRY:\tST AUGUSTINE SOUTH\tSAINT AUGUSTINE SOUTH\tCITY\t",
  c!"LEXENTRY:\tST BENEDICT\tSAINT BENEDICT\tCITY\t",
  c!"LEXENTRY:\tST BERNARD\tSAINT BERNARD\tCITY\t",
  c!"LEXENTRY:\tST BERNICE\tSAINT BERNICE\tCITY\t",
  c!"LEXENTRY:\tST BONAVENTURE\tSAINT BONAVENTURE\tCITY\t",
  c!"LEXENTRY:\tST BONIFACIUS\tSAINT BONIFACIUS\tCITY\t",
  c!"LEXENTRY:\tST BRIDGET\tSAINT BRIDGET\tCITY\t",
  c!"LEXENTRY:\tST CHARLES\tSAINT CHARLES\tCITY\t",
  c!"LEXENTRY:\tST CHARLES MESA\tSAINT CHARLES MESA\tCITY\t",
  c!"LEXENTRY:\tST CLAIR\tSAINT CLAIR\tCITY\t",
  c!"LEXENTRY:\tST CLAIR SHORES\tSAINT CLAIR SHORES\tCITY\t",
  c!"LEXENTRY:\tST CLAIRSVILLE\tSAINT CLAIRSVILLE\tCITY\t",
  c!"LEXENTRY:\tST CLEMENT\tSAINT CLEMENT\tCITY\t",
  c!"LEXENTRY:\tST CLERE\tSAINT CLERE\tCITY\t",
  c!"LEXENTRY:\tST CLOUD\tSAINT CLOUD\tCITY\t",
  c!"LEXENTRY:\tST COLUMBANS\tSAINT COLUMBANS\tCITY\t",
  c!"LEXENTRY:\tST CROIX\tSAINT CROIX\tCITY\t",
  c!"LEXENTRY:\tST CROIX FALLS\tSAINT CROIX FALLS\tCITY\t",
  c!"LEXENTRY:\tST DAVID\tSAINT DAVID\tCITY\t",
  c!"LEXENTRY:\tST DONATUS\tSAINT DONATUS\tCITY\t",
  c!"LEXENTRY:\tST EDWARD\tSAINT EDWARD\tCITY\t",
  c!"LEXENTRY:\tST ELIZABETH\tSAINT ELIZABETH\tCITY\t",
  c!"LEXENTRY:\tST ELMO\tSAINT ELMO\tCITY\t",
  c!"LEXENTRY:\tST FERDINAND\tSAINT FERDINAND\tCITY\t",
  c!"LEXENTRY:\tST FLORIAN\tSAINT FLORIAN\tCITY\t",
  c!"LEXENTRY:\tST FRANCIS\tSAINT FRANCIS\tCITY\t",
  c!"LEXENTRY:\tST FRANCISVILLE\tSAINT FRANCISVILLE\tCITY\t",
  c!"LEXENTRY:\tST FRANCOIS\tSAINT FRANCOIS\tCITY\t",
  c!"LEXENTRY:\tST GABRIEL\tSAINT GABRIEL\tCITY\t",
  c!"LEXENTRY:\tST GEORGE\tSAINT GEORGE\tCITY\t",
  c!"LEXENTRY:\tST GEORGE ISLAND\tSAINT GEORGE ISLAND\tCITY\t",
  c!"LEXENTRY:\tST GERMAIN\tSAINT GERMAIN\tCITY\t",
  c!"LEXENTRY:\tST HEDWIG\tSAINT HEDWIG\tCITY\t",
  c!"LEXENTRY:\tST HELEN\tSAINT HELEN\tCITY\t",
  c!"LEXENTRY:\tST HELENA\tSAINT HELENA\tCITY\t",
  c!"LEXENTRY:\tST HELENA ISLAND\tSAINT HELENA ISLAND\tCITY\t",
  c!"LEXENTRY:\tST HELENS\tSAINT HELENS\tCITY\t",
  c!"LEXENTRY:\tST HENRY\tSAINT HENRY\tCITY\t",
  c!"LEXENTRY:\tST HI\tSTATE HIGHWAY\tROAD\t",
  c!"LEXENTRY:\tST HIGHWAY\tSTATE HIGHWAY\tROAD\t",
  c!"LEXENTRY:\tST HILAIRE\tSAINT HILAIRE\tCITY\t",
  c!"LEXENTRY:\tST HWY\tSTATE HIGHWAY\tROAD\t",
  c!"LEXENTRY:\tST HY\tSTATE HIGHWAY\tROAD\t",
  c!"LEXENTRY:\tST IGNACE\tSAINT IGNACE\tCITY\t",
  c!"LEXENTRY:\tST IGNATIUS\tSAINT IGNATIUS\tCITY\t"]

/-- data/sample/usa.lex:2452-2501 -/
def entries49 : List Str := [
  c!"LEXENTRY:\tST JACOB\tSAINT JACOB\tCITY\t",
  c!"LEXENTRY:\tST JAMES\tSAINT JAMES\tCITY\t",
  c!"LEXENTRY:\tST JAMES CITY\tSAINT JAMES CITY\tCITY\t",
  c!"LEXENTRY:\tST JO\tSAINT JO\tCITY\t",
  c!"LEXENTRY:\tST JOE\tSAINT JOE\tCITY\t",
  c!"LEXENTRY:\tST JOHN\tSAINT JOHN\tCITY\t",
  c!"LEXENTRY:\tST JOHNS\tSAINT JOHNS\tCITY\t",
  c!"LEXENTRY:\tST JOHNS FREEMONT\tSAINT JOHNS-FREEMONT\tCITY\t",
  c!"LEXENTRY:\tST JOHNS-FREEMONT\tSAINT JOHNS-FREEMONT\tCITY\t",
  c!"LEXENTRY:\tST JOHNSBURY\tSAINT JOHNSBURY\tCITY\t",
  c!"LEXENTRY:\tST JOHNSVILLE\tSAINT JOHNSVILLE\tCITY\t",
  c!"LEXENTRY:\tST JOSEPH\tSAINT JOSEPH\tCITY\t",
  c!"LEXENTRY:\tST JUST\tSAINT JUST\tCITY\t",
  c!"LEXENTRY:\tST LAWRENCE\tSAINT LAWRENCE\tCITY\t",
  c!"LEXENTRY:\tST LEO\tSAINT LEO\tCITY\t",
  c!"LEXENTRY:\tST LEON\tSAINT LEON\tCITY\t",
  c!"LEXENTRY:\tST LEONARD\tSAINT LEONARD\tCITY\t",
  c!"LEXENTRY:\tST LIBORY\tSAINT LIBORY\tCITY\t",
  c!"LEXENTRY:\tST LOUIS\tSAINT LOUIS\tCITY\t",
  c!"LEXENTRY:\tST LOUIS PARK\tSAINT LOUIS PARK\tCITY\t",
  c!"LEXENTRY:\tST LOUISVILLE\tSAINT LOUISVILLE\tCITY\t",
  c!"LEXENTRY:\tST LUCAS\tSAINT LUCAS\tCITY\t",
  c!"LEXENTRY:\tST LUCIE VILLAGE\tSAINT LUCIE VILLAGE\tCITY\t",
  c!"LEXENTRY:\tST MARIE\tSAINT MARIE\tCITY\t",
  c!"LEXENTRY:\tST MARIES\tSAINT MARIES\tCITY\t",
  c!"LEXENTRY:\tST MARKS\tSAINT MARKS\tCITY\t",
  c!"LEXENTRY:\tST MARTIN\tSAINT MARTIN\tCITY\t",
  c!"LEXENTRY:\tST MARTINS\tSAINT MARTINS\tCITY\t",
  c!"LEXENTRY:\tST MARTINVILLE\tSAINT MARTINVILLE\tCITY\t",
  c!"LEXENTRY:\tST MARY\tSAINT MARY\tCITY\t",
  c!"LEXENTRY:\tST MARY OF THE WOODS\tSAINT MARY OF THE WOODS\tCITY\t",
  c!"LEXENTRY:\tST MARY'S\tSAINT MARY'S\tCITY\t",
  c!"LEXENTRY:\tST MARYS\tSAINT MARYS\tCITY\t",
  c!"LEXENTRY:\tST MARYS POINT\tSAINT MARYS POINT\tCITY\t",
  c!"LEXENTRY:\tST MATHIAS\tSAINT MATHIAS\tCITY\t",
  c!"LEXENTRY:\tST MATTHEWS\tSAINT MATTHEWS\tCITY\t",
  c!"LEXENTRY:\tST MAURICE\tSAINT MAURICE\tCITY\t",
  c!"LEXENTRY:\tST MEINRAD\tSAINT MEINRAD\tCITY\t",
  c!"LEXENTRY:\tST MICHAEL\tSAINT MICHAEL\tCITY\t",
  c!"LEXENTRY:\tST MICHAELS\tSAINT MICHAELS\tCITY\t",
  c!"LEXENTRY:\tST NAZIANZ\tSAINT NAZIANZ\tCITY\t",
  c!"LEXENTRY:\tST OLAF\tSAINT OLAF\tCITY\t",
  c!"LEXENTRY:\tST ONGE\tSAINT ONGE\tCITY\t",
  c!"LEXENTRY:\tST PARIS\tSAINT PARIS\tCITY\t",
  c!"LEXENTRY:\tST PAUL\tSAINT PAUL\tCITY\t",
  c!"LEXENTRY:\tST PAUL PARK\tSAINT PAUL PARK\tCITY\t",
  c!"LEXENTRY:\tST PAULS\tSAINT PAULS\tCITY\t",
  c!"LEXENTRY:\tST PETE BEACH\tSAINT PETE BEACH\tCITY\t",
  c!"LEXENTRY:\tST PETER\tSAINT PETER\tCITY\t",
  c!"LEXENTRY:\tST PETERS\tSAINT PETERS\tCITY\t"]

/-- data/sample/usa.lex:2502-2551 -/
def entries50 : List Str := [
  c!"LEXENTRY:\tST PETERSBURG\tSAINT PETERSBURG\tCITY\t",
  c!"LEXENTRY:\tST PIERRE\tSAINT PIERRE\tCITY\t",
  c!"LEXENTRY:\tST R\tSTAR ROUTE\tROAD,RR\t",
  c!"LEXENTRY:\tST RD\tSTATE ROAD\tROAD\t",
  c!"LEXENTRY:\tST REGIS\tSAINT REGIS\tCITY\t",
  c!"LEXENTRY:\tST REGIS FALLS\tSAINT REGIS FALLS\tCITY\t",
  c!"LEXENTRY:\tST REGIS MOHAWK\tSAINT REGIS MOHAWK\tCITY\t",
  c!"LEXENTRY:\tST REGIS PARK\tSAINT REGIS PARK\tCITY\t",
  c!"LEXENTRY:\tST ROAD\tSTATE ROAD\tROAD\t",
  c!"LEXENTRY:\tST ROBERT\tSAINT ROBERT\tCITY\t",
  c!"LEXENTRY:\tST ROSA\tSAINT ROSA\tCITY\t",
  c!"LEXENTRY:\tST ROSE\tSAINT ROSE\tCITY\t",
  c!"LEXENTRY:\tST ROUTE\tSTAR ROUTE\tRR\t",
  c!"LEXENTRY:\tST ROUTE\tSTATE ROUTE\tROAD\t",
  c!"LEXENTRY:\tST RT\tSTAR ROUTE\tRR\t",
  c!"LEXENTRY:\tST RT\tSTATE ROUTE\tROAD\t",
  c!"LEXENTRY:\tST RTE\tSTAR ROUTE\tRR\t",
  c!"LEXENTRY:\tST RTE\tSTATE ROUTE\tROAD\t",
  c!"LEXENTRY:\tST SIMONS\tSAINT SIMONS\tCITY\t",
  c!"LEXENTRY:\tST STEPHEN\tSAINT STEPHEN\tCITY\t",
  c!"LEXENTRY:\tST STEPHENS\tSAINT STEPHENS\tCITY\t",
  c!"LEXENTRY:\tST STEPHENS CHURCH\tSAINT STEPHENS CHURCH\tCITY\t",
  c!"LEXENTRY:\tST THOMAS\tSAINT THOMAS\tCITY\t",
  c!"LEXENTRY:\tST VINCENT\tSAINT VINCENT\tCITY\t",
  c!"LEXENTRY:\tST VINCENT COLLEGE\tSAINT VINCENT COLLEGE\tCITY\t",
  c!"LEXENTRY:\tST WENDEL\tSAINT WENDEL\tCITY\t",
  c!"LEXENTRY:\tST XAVIER\tSAINT XAVIER\tCITY\t",
  c!"LEXENTRY:\tSTA\tSTATION\tTYPE,BUILDT,WORD\t",
  c!"LEXENTRY:\tSTALL\tSTALL\tUNITH,WORD\t",
  c!"LEXENTRY:\tSTAR ROUTE\tSTAR ROUTE\tRR\t",
  c!"LEXENTRY:\tSTAR RT\tSTAR ROUTE\tRR\t",
  c!"LEXENTRY:\tSTAT\tSTATION\tTYPE,BUILDT,WORD\t",
  c!"LEXENTRY:\tSTATE\tSTATE\tWORD\t",
  c!"LEXENTRY:\tSTATE\tSTATE ROAD\tROAD\t",
  c!"LEXENTRY:\tSTATE HI\tSTATE HIGHWAY\tROAD\t",
  c!"LEXENTRY:\tSTATE HIGHWAY\tSTATE HIGHWAY\tROAD\t",
  c!"LEXENTRY:\tSTATE HWY\tSTATE HIGHWAY\tROAD\t",
  c!"LEXENTRY:\tSTATE HY\tSTATE HIGHWAY\tROAD\t",
  c!"LEXENTRY:\tSTATE RD\tSTATE ROAD\tROAD\t",
  c!"LEXENTRY:\tSTATE ROAD\tSTATE ROAD\tROAD\t",
  c!"LEXENTRY:\tSTATE ROUTE\tSTATE ROUTE\tROAD\t",
  c!"LEXENTRY:\tSTATE RT\tSTATE ROUTE\tROAD\t",
  c!"LEXENTRY:\tSTATE RTE\tSTATE ROUTE\tROAD\t",
  c!"LEXENTRY:\tSTATION\tSTATION\tTYPE,BUILDT,WORD\t",
  c!"LEXENTRY:\tSTATION FORCES\tSTATION FORCES\tBUILDT\t",
  c!"LEXENTRY:\tSTATN\tSTATION\tTYPE,BUILDT,WORD\t",
  c!"LEXENTRY:\tSTE\tSAINTE\tWORD\t",
  c!"LEXENTRY:\tSTE\tSUITE\tUNITH\t",
  c!"LEXENTRY:\tSTES\tSUITES\tBUILDT\t",
  c!"LEXENTRY:\tSTH\tSOUTH\tDIRECT\t"]

/-- data/sample/usa.lex:2552-2601 -/
def entries51 : List Str := [
  c!"LEXENTRY:\tSTHW\tSTATE HIGHWAY\tROAD\t",
  c!"LEXENTRY:\tSTHWY\tSTATE HIGHWAY\tROAD\t",
  c!"LEXENTRY:\tSTHY\tSTATE HIGHWAY\tROAD\t",
  c!"LEXENTRY:\tSTLL\tSTALL\tUNITH\t",
  c!"LEXENTRY:\tSTN\tSTATION\tTYPE,BUILDT,WORD\t",
  c!"LEXENTRY:\tSTN FORCES\tSTATION FORCES\tBUILDT\t",
  c!"LEXENTRY:\tSTOP\tSTOP\tUNITH,WORD\t",
  c!"LEXENTRY:\tSTOP & SHOP\tSHOPPING CENTER\tBUILDT\t",
  c!"LEXENTRY:\tSTOP & SHOP CTR\tSHOPPING CENTER\tBUILDT\t",
  c!"LEXENTRY:\tSTOR\tSTORE\tUNITH,WORD\t",
  c!"LEXENTRY:\tSTORE\tSHOPPING CENTER\tBUILDT\t",
  c!"LEXENTRY:\tSTORE\tSTORE\tUNITH,WORD\t",
  c!"LEXENTRY:\tSTORES\tSHOPPING CENTER\tBUILDT\t",
  c!"LEXENTRY:\tSTR\tSTREET\tTYPE\t",
  c!"LEXENTRY:\tSTRA\tSTRAVENUE\tTYPE\t",
  c!"LEXENTRY:\tSTRAV\tSTRAVENUE\tTYPE\t",
  c!"LEXENTRY:\tSTRAVE\tSTRAVENUE\tTYPE\t",
  c!"LEXENTRY:\tSTRAVEN\tSTRAVENUE\tTYPE\t",
  c!"LEXENTRY:\tSTRAVENUE\tSTRAVENUE\tTYPE\t",
  c!"LEXENTRY:\tSTRAVN\tSTRAVENUE\tTYPE\t",
  c!"LEXENTRY:\tSTRD\tSTATE ROAD\tTYPE\t",
  c!"LEXENTRY:\tSTREAM\tSTREAM\tWORD\t",
  c!"LEXENTRY:\tSTREET\tSTREET\tTYPE\t",
  c!"LEXENTRY:\tSTREETS\tSTREETS\tWORD\t",
  c!"LEXENTRY:\tSTRIP\tSTRIP\tWORD,TYPE\t",
  c!"LEXENTRY:\tSTRM\tSTREAM\tWORD\t",
  c!"LEXENTRY:\tSTRP\tSTRIP\tWORD,TYPE\t",
  c!"LEXENTRY:\tSTRT\tSTAR ROUTE\tROAD,RR\t",
  c!"LEXENTRY:\tSTRVN\tSTRAVENUE\tTYPE\t",
  c!"LEXENTRY:\tSTRVNUE\tSTRAVENUE\tTYPE\t",
  c!"LEXENTRY:\tSTS\tSTREETS\tWORD\t",
  c!"LEXENTRY:\tSTUDIO\tSTUDIO\tUNITH,WORD\t",
  c!"LEXENTRY:\tSU\tSUITE\tUNITH\t",
  c!"LEXENTRY:\tSUBD\tSUBDIVISION\tWORD,TYPE\t",
  c!"LEXENTRY:\tSUBDIV\tSUBDIVISION\tWORD,TYPE\t",
  c!"LEXENTRY:\tSUBDIVISION\tSUBDIVISION\tWORD,TYPE\t",
  c!"LEXENTRY:\tSUBURBAN ROUTE\tRURAL ROUTE\tRR\t",
  c!"LEXENTRY:\tSUBURBAN RT\tRURAL ROUTE\tRR\t",
  c!"LEXENTRY:\tSUBURBAN RTE\tRURAL ROUTE\tRR\t",
  c!"LEXENTRY:\tSUBURBAN SERVICE\tSUBURBAN SERVICE\tRR\t",
  c!"LEXENTRY:\tSUD\tSUD\tDIRECT\t",
  c!"LEXENTRY:\tSUD EST\tSUD EST\tDIRECT\t",
  c!"LEXENTRY:\tSUD OUEST\tSUD OUEST\tDIRECT\t",
  c!"LEXENTRY:\tSUDEST\tSUD EST\tDIRECT\t",
  c!"LEXENTRY:\tSUDOUEST\tSUD OUEST\tDIRECT\t",
  c!"LEXENTRY:\tSUIT\tSUITE\tUNITH,WORD\t",
  c!"LEXENTRY:\tSUITE\tSUITE\tUNITH\t",
  c!"LEXENTRY:\tSUITES\tSUITES\tUNITH,BUILDT\t",
  c!"LEXENTRY:\tSUMMIT\tSUMMIT\tWORD\t",
  c!"LEXENTRY:\tSUR\tSOUTH\tDIRECT\t"]

/-- data/sample/usa.lex:2602-2651 -/
def entries52 : List Str := [
  c!"LEXENTRY:\tSV RTE\tSERVICE ROUTE\tTYPE\t",
  c!"LEXENTRY:\tSVC RD\tSERVICE ROAD\tTYPE\t",
  c!"LEXENTRY:\tSVRD\tSERVICE ROAD\tTYPE\t",
  c!"LEXENTRY:\tSW\tSOUTHWEST\tDIRECT\t",
  c!"LEXENTRY:\tSWP\tSWAMP\tWORD\t",
  c!"LEXENTRY:\tTANK TRAIL\tTANK TRAIL\tTYPE\t",
  c!"LEXENTRY:\tTEN\t10\tWORD,NUMBER\t",
  c!"LEXENTRY:\tTEN MILE\tTEN MILE\tWORD\t",
  c!"LEXENTRY:\tTENN\tTENNESSEE\tPROV,WORD,ROAD\t",
  c!"LEXENTRY:\tTENNESSEE\tTENNESSEE\tPROV,WORD\t",
  c!"LEXENTRY:\tTENTH\t10\tWORD,ORD\t",
  c!"LEXENTRY:\tTER\tTERRACE\tTYPE\t",
  c!"LEXENTRY:\tTERRACE\tTERRACE\tTYPE\t",
  c!"LEXENTRY:\tTERM\tTERMINAL\tWORD,TYPE\t",
  c!"LEXENTRY:\tTERMINAL\tTERMINAL\tWORD,TYPE\t",
  c!"LEXENTRY:\tTERR\tTERRACE\tTYPE\t",
  c!"LEXENTRY:\tTERRASSE\tTERRASSE\tTYPE,WORD\t",
  c!"LEXENTRY:\tTERRE NEUVE\tNEWFOUNDLAND\tPROV,WORD\t",
  c!"LEXENTRY:\tTERRITOIRES DU NORD OUES\tNORTHWEST TERRITORIES\tPROV,WORD\t",
  c!"LEXENTRY:\tTEX\tTEXAS\tPROV,WORD,ROAD\t",
  c!"LEXENTRY:\tTEXAS\tTEXAS\tPROV,WORD\t",
  c!"LEXENTRY:\tTFWY\tTRAFFICWAY\tTYPE\t",
  c!"LEXENTRY:\tTHE\tTHE\tSTOPWORD\t",
  c!"LEXENTRY:\tTHFR\tTHOROUGHFARE\tTYPE\t",
  c!"LEXENTRY:\tTHICKET\tTHICKET\tWORD,TYPE\t",
  c!"LEXENTRY:\tTHIRD\t3\tWORD,ORD\t",
  c!"LEXENTRY:\tTHIRTEEN\t13\tNUMBER,WORD\t",
  c!"LEXENTRY:\tTHIRTEEN MILE\tTHIRTEEN MILE\tWORD\t",
  c!"LEXENTRY:\tTHIRTEENTH\t13\tWORD,ORD\t",
  c!"LEXENTRY:\tTHIRTIETH\t30\tWORD,ORD\t",
  c!"LEXENTRY:\tTHIRTY\t30\tNUMBER,WORD\t",
  c!"LEXENTRY:\tTHIRTY EIGHT\t38\tNUMBER,WORD\t",
  c!"LEXENTRY:\tTHIRTY EIGHTH\t38\tWORD,ORD\t",
  c!"LEXENTRY:\tTHIRTY FIFTH\t35\tWORD,ORD\t",
  c!"LEXENTRY:\tTHIRTY FIRST\t31\tWORD,ORD\t",
  c!"LEXENTRY:\tTHIRTY FIVE\t35\tNUMBER,WORD\t",
  c!"LEXENTRY:\tTHIRTY FOUR\t34\tNUMBER,WORD\t",
  c!"LEXENTRY:\tTHIRTY FOURTH\t34\tWORD,ORD\t",
  c!"LEXENTRY:\tTHIRTY NINE\t39\tNUMBER,WORD\t",
  c!"LEXENTRY:\tTHIRTY NINTH\t39\tWORD,ORD\t",
  c!"LEXENTRY:\tTHIRTY ONE\t31\tNUMBER,WORD\t",
  c!"LEXENTRY:\tTHIRTY SECOND\t32\tWORD,ORD\t",
  c!"LEXENTRY:\tTHIRTY SEVEN\t37\tNUMBER,WORD\t",
  c!"LEXENTRY:\tTHIRTY SEVENTH\t37\tWORD,ORD\t",
  c!"LEXENTRY:\tTHIRTY SIX\t36\tNUMBER,WORD\t",
  c!"LEXENTRY:\tTHIRTY SIXTH\t36\tWORD,ORD\t",
  c!"LEXENTRY:\tTHIRTY THIRD\t33\tWORD,ORD\t",
  c!"LEXENTRY:\tTHIRTY THREE\t33\tNUMBER,WORD\t",
  c!"LEXENTRY:\tTHIRTY TWO\t32\tNUMBER,WORD\t",
  c!"LEXENTRY:\tTHORO\tTHOROUGHFARE\tTYPE\t"]

/-- data/sample/usa.lex:2652-2701 -/
def entries53 : List Str := [
  c!"LEXENTRY:\tTHOROFARE\tTHOROUGHFARE\tTYPE\t",
  c!"LEXENTRY:\tTHOROUGHFARE\tTHOROUGHFARE\tTYPE\t",
  c!"LEXENTRY:\tTHREE\t3\tNUMBER,WORD\t",
  c!"LEXENTRY:\tTHREE MILE\tTHREE MILE\tWORD\t",
  c!"LEXENTRY:\tTHROUGHWAY\tTHROUGHWAY\tTYPE\t",
  c!"LEXENTRY:\tTHRUWAY\tTHROUGHWAY\tTYPE\t",
  c!"LEXENTRY:\tTHWY\tTHROUGHWAY\tTYPE\t",
  c!"LEXENTRY:\tTK TRL\tTANK TRAIL\tTYPE\t",
  c!"LEXENTRY:\tTKTRL\tTANK TRAIL\tTYPE\t",
  c!"LEXENTRY:\tTL\tTRAIL\tTYPE\t",
  c!"LEXENTRY:\tTLINE\tTOWNLINE\tTYPE\t",
  c!"LEXENTRY:\tTLR\tTRAILER\tUNITH\t",
  c!"LEXENTRY:\tTLR COURT\tTRAILER PARK\tBUILDT\t",
  c!"LEXENTRY:\tTLR CRT\tTRAILER PARK\tBUILDT\t",
  c!"LEXENTRY:\tTLR CT\tTRAILER PARK\tBUILDT\t",
  c!"LEXENTRY:\tTLR PARK\tTRAILER PARK\tBUILDT\t",
  c!"LEXENTRY:\tTLR PK\tTRAILER PARK\tBUILDT\t",
  c!"LEXENTRY:\tTLR PRK\tTRAILER PARK\tBUILDT\t",
  c!"LEXENTRY:\tTN\tTENNESSEE\tPROV,WORD,ROAD\t",
  c!"LEXENTRY:\tTNPK\tTURNPIKE\tTYPE\t",
  c!"LEXENTRY:\tTNPKE\tTURNPIKE\tTYPE\t",
  c!"LEXENTRY:\tTOP\tTOP\tUNITT,WORD\t",
  c!"LEXENTRY:\tTOWER\tTOWER\tBUILDH,WORD\t",
  c!"LEXENTRY:\tTOWER\tTOWERS\tBUILDT\t",
  c!"LEXENTRY:\tTOWERS\tTOWERS\tBUILDT,BUILDH,TYPE,WORD\t",
  c!"LEXENTRY:\tTOWN HIGHWAY\tTOWN HIGHWAY\tTYPE,ROAD\t",
  c!"LEXENTRY:\tTOWN HWY\tTOWN HIGHWAY\tTYPE,ROAD\t",
  c!"LEXENTRY:\tTOWN RD\tTOWN ROAD\tTYPE,ROAD\t",
  c!"LEXENTRY:\tTOWN ROAD\tTOWN ROAD\tTYPE,ROAD\t",
  c!"LEXENTRY:\tTOWNHOME\tTOWNHOUSE\tBUILDT\t",
  c!"LEXENTRY:\tTOWNHOMES\tTOWNHOUSE\tBUILDT\t",
  c!"LEXENTRY:\tTOWNHOUSE\tTOWNHOUSE\tBUILDT\t",
  c!"LEXENTRY:\tTOWNHOUSES\tTOWNHOUSE\tBUILDT\t",
  c!"LEXENTRY:\tTOWNLINE\tTOWNLINE\tTYPE\t",
  c!"LEXENTRY:\tTOWNSHIP HIGHWAY\tTOWNSHIP HIGHWAY\tROAD\t",
  c!"LEXENTRY:\tTOWNSHIP HIWAY\tTOWNSHIP HIGHWAY\tROAD\t",
  c!"LEXENTRY:\tTOWNSHIP HWY\tTOWNSHIP HIGHWAY\tROAD\t",
  c!"LEXENTRY:\tTOWNSHIP OF WASHINGTON\tTOWNSHIP OF WASHINGTON\tCITY\t",
  c!"LEXENTRY:\tTOWNSHIP RD\tTOWNSHIP ROAD\tROAD\t",
  c!"LEXENTRY:\tTOWNSHIP ROAD\tTOWNSHIP ROAD\tROAD\t",
  c!"LEXENTRY:\tTP\tTRAILER PARK\tBUILDT\t",
  c!"LEXENTRY:\tTPK\tTURNPIKE\tTYPE,ROAD\t",
  c!"LEXENTRY:\tTPKE\tTURNPIKE\tTYPE,ROAD\t",
  c!"LEXENTRY:\tTR\tTOWNSHIP ROAD\tROAD\t",
  c!"LEXENTRY:\tTR\tTRAIL\tTYPE\t",
  c!"LEXENTRY:\tTR COURT\tTRAILER PARK\tBUILDT\t",
  c!"LEXENTRY:\tTR CRT\tTRAILER PARK\tBUILDT\t",
  c!"LEXENTRY:\tTR CT\tTRAILER PARK\tBUILDT\t",
  c!"LEXENTRY:\tTR PARK\tTRAILER PARK\tBUILDT\t",
  c!"LEXENTRY:\tTR PK\tTRAILER PARK\tBUILDT\t"]

/-- data/sample/usa.lex:2702-2751 -/
def entries54 : List Str := [
  c!"LEXENTRY:\tTR PRK\tTRAILER PARK\tBUILDT\t",
  c!"LEXENTRY:\tTR VILLAGE\tTRAILER PARK\tBUILDT\t",
  c!"LEXENTRY:\tTR VLG\tTRAILER PARK\tBUILDT\t",
  c!"LEXENTRY:\tTRACE\tTRACE\tWORD,TYPE\t",
  c!"LEXENTRY:\tTRACK\tTRACK\tWORD\t",
  c!"LEXENTRY:\tTRAFFICWAY\tTRAFFICWAY\tTYPE\t",
  c!"LEXENTRY:\tTRAIL\tTRAIL\tTYPE,WORD\t",
  c!"LEXENTRY:\tTRAILER\tTRAILER\tUNITH,BUILDT\t",
  c!"LEXENTRY:\tTRAILER COURT\tTRAILER PARK\tBUILDT\t",
  c!"LEXENTRY:\tTRAILER CRT\tTRAILER PARK\tBUILDT\t",
  c!"LEXENTRY:\tTRAILER CT\tTRAILER PARK\tBUILDT\t",
  c!"LEXENTRY:\tTRAILER PARK\tTRAILER PARK\tBUILDT\t",
  c!"LEXENTRY:\tTRAILER PK\tTRAILER PARK\tBUILDT\t",
  c!"LEXENTRY:\tTRAILER PRK\tTRAILER PARK\tBUILDT\t",
  c!"LEXENTRY:\tTRAILER VILLAGE\tTRAILER PARK\tBUILDT\t",
  c!"LEXENTRY:\tTRAILER VLG\tTRAILER PARK\tBUILDT\t",
  c!"LEXENTRY:\tTRAILERCOURT\tTRAILER PARK\tBUILDT\t",
  c!"LEXENTRY:\tTRAILERPARK\tTRAILER PARK\tBUILDT\t",
  c!"LEXENTRY:\tTRAILERS\tTRAILER PARK\tBUILDT\t",
  c!"LEXENTRY:\tTRAILS\tTRAIL\tTYPE\t",
  c!"LEXENTRY:\tTRAK\tTRACK\tWORD\t",
  c!"LEXENTRY:\tTRANS CANADA\tTRANS CANADA\tROAD,WORD\t",
  c!"LEXENTRY:\tTRANSCANADA\tTRANS CANADA\tROAD,WORD\t",
  c!"LEXENTRY:\tTRCE\tTRACE\tWORD,TYPE\t",
  c!"LEXENTRY:\tTRCRT\tTRAILER PARK\tBUILDT\t",
  c!"LEXENTRY:\tTRCT\tTRAILER PARK\tBUILDT\t",
  c!"LEXENTRY:\tTRL\tTRAIL\tTYPE\t",
  c!"LEXENTRY:\tTRL COURT\tTRAILER PARK\tBUILDT\t",
  c!"LEXENTRY:\tTRL CRT\tTRAILER PARK\tBUILDT\t",
  c!"LEXENTRY:\tTRL CT\tTRAILER PARK\tBUILDT\t",
  c!"LEXENTRY:\tTRL PARK\tTRAILER PARK\tBUILDT\t",
  c!"LEXENTRY:\tTRL PK\tTRAILER PARK\tBUILDT\t",
  c!"LEXENTRY:\tTRL PRK\tTRAILER PARK\tBUILDT\t",
  c!"LEXENTRY:\tTRL VILLAGE\tTRAILER PARK\tBUILDT\t",
  c!"LEXENTRY:\tTRL VLG\tTRAILER PARK\tBUILDT\t",
  c!"LEXENTRY:\tTRLCRT\tTRAILER PARK\tBUILDT\t",
  c!"LEXENTRY:\tTRLCT\tTRAILER PARK\tBUILDT\t",
  c!"LEXENTRY:\tTRLPK\tTRAILER PARK\tBUILDT\t",
  c!"LEXENTRY:\tTRLPRK\tTRAILER PARK\tBUILDT\t",
  c!"LEXENTRY:\tTRLR\tTRAILER\tUNITH,BUILDT\t",
  c!"LEXENTRY:\tTRLR COURT\tTRAILER PARK\tBUILDT\t",
  c!"LEXENTRY:\tTRLR CRT\tTRAILER PARK\tBUILDT\t",
  c!"LEXENTRY:\tTRLR CT\tTRAILER PARK\tBUILDT\t",
  c!"LEXENTRY:\tTRLR PARK\tTRAILER PARK\tBUILDT\t",
  c!"LEXENTRY:\tTRLR PK\tTRAILER PARK\tBUILDT\t",
  c!"LEXENTRY:\tTRLR PRK\tTRAILER PARK\tBUILDT\t",
  c!"LEXENTRY:\tTRLR VILLAGE\tTRAILER PARK\tBUILDT\t",
  c!"LEXENTRY:\tTRLR VLG\tTRAILER PARK\tBUILDT\t",
  c!"LEXENTRY:\tTRNABT\tTURNABOUT\tTYPE\t",
  c!"LEXENTRY:\tTRNPK\tTURNPIKE\tTYPE\t"]

/-- data/sample/usa.lex:2752-2801 -/
def entries55 : List Str := [
  c!"LEXENTRY:\tTROIS\t3\tWORD,NUMBER\t",
  c!"LEXENTRY:\tTROISIEME\tTROISIEME\tWORD\t",
  c!"LEXENTRY:\tTRPK\tTRAILER PARK\tBUILDT\t",
  c!"LEXENTRY:\tTRPRK\tTRAILER PARK\tBUILDT\t",
  c!"LEXENTRY:\tTRUTH OR CONSEQUENCES\tTRUTH OR CONSEQUENCES\tCITY\t",
  c!"LEXENTRY:\tTSSE\tTERRASEE\tWORD\t",
  c!"LEXENTRY:\tTSSE\tTERRASSE\tTYPE\t",
  c!"LEXENTRY:\tTUN\tTUNNEL\tTYPE\t",
  c!"LEXENTRY:\tTUNEL\tTUNEL\tTYPE\t",
  c!"LEXENTRY:\tTUNL\tTUNEL\tTYPE\t",
  c!"LEXENTRY:\tTUNNEL\tTUNNEL\tTYPE\t",
  c!"LEXENTRY:\tTURN\tTURNPIKE\tTYPE,ROAD\t",
  c!"LEXENTRY:\tTURNABOUT\tTURNABOUT\tTYPE\t",
  c!"LEXENTRY:\tTURNPIKE\tTURNPIKE\tTYPE,ROAD\t",
  c!"LEXENTRY:\tTURNPK\tTURNPIKE\tTYPE,ROAD\t",
  c!"LEXENTRY:\tTW HY\tTOWNSHIP HIGHWAY\tROAD\t",
  c!"LEXENTRY:\tTW RD\tTOWNSHIP ROAD\tROAD\t",
  c!"LEXENTRY:\tTWELFTH\t12\tWORD,ORD\t",
  c!"LEXENTRY:\tTWELVE\t12\tNUMBER,WORD\t",
  c!"LEXENTRY:\tTWELVE MILE\tTWELVE MILE\tWORD\t",
  c!"LEXENTRY:\tTWENTIETH\t20\tWORD,ORD\t",
  c!"LEXENTRY:\tTWENTY\t20\tNUMBER,WORD\t",
  c!"LEXENTRY:\tTWENTY EIGHT\t28\tNUMBER,WORD\t",
  c!"LEXENTRY:\tTWENTY EIGHTH\t28\tWORD,ORD\t",
  c!"LEXENTRY:\tTWENTY FIFTH\t25\tWORD,ORD\t",
  c!"LEXENTRY:\tTWENTY FIRST\t21\tWORD,ORD\t",
  c!"LEXENTRY:\tTWENTY FIVE\t25\tNUMBER,WORD\t",
  c!"LEXENTRY:\tTWENTY FOUR\t24\tNUMBER,WORD\t",
  c!"LEXENTRY:\tTWENTY FOURTH\t24\tWORD,ORD\t",
  c!"LEXENTRY:\tTWENTY MILE\tTWENTY MILE\tWORD\t",
  c!"LEXENTRY:\tTWENTY NINE\t29\tNUMBER,WORD\t",
  c!"LEXENTRY:\tTWENTY NINTH\t29\tWORD,ORD\t",
  c!"LEXENTRY:\tTWENTY ONE\t21\tNUMBER,WORD\t",
  c!"LEXENTRY:\tTWENTY SECOND\t22\tWORD,ORD\t",
  c!"LEXENTRY:\tTWENTY SEVEN\t27\tNUMBER,WORD\t",
  c!"LEXENTRY:\tTWENTY SEVENTH\t27\tWORD,ORD\t",
  c!"LEXENTRY:\tTWENTY SIX\t26\tNUMBER,WORD\t",
  c!"LEXENTRY:\tTWENTY SIXTH\t26\tWORD,ORD\t",
  c!"LEXENTRY:\tTWENTY THIRD\t23\tWORD,ORD\t",
  c!"LEXENTRY:\tTWENTY THREE\t23\tNUMBER,WORD\t",
  c!"LEXENTRY:\tTWENTY THREE MILE\tTWENTY THREE MILE\tWORD\t",
  c!"LEXENTRY:\tTWENTY TWO\t22\tNUMBER,WORD\t",
  c!"LEXENTRY:\tTWHY\tTOWNSHIP HIGHWAY\tROAD\t",
  c!"LEXENTRY:\tTWNH\tTOWNHOUSE\tBUILDT\t",
  c!"LEXENTRY:\tTWNHS\tTOWNHOUSE\tBUILDT\t",
  c!"LEXENTRY:\tTWNHWY\tTOWN HIGHWAY\tTYPE,ROAD\t",
  c!"LEXENTRY:\tTWNRD\tTOWN ROAD\tTYPE,ROAD\t",
  c!"LEXENTRY:\tTWO\t2\tNUMBER,WORD\t",
  c!"LEXENTRY:\tTWO MILE\tTWO MILE\tWORD\t",
  c!"LEXENTRY:\tTWP\tTOWNSHIP\tWORD\t"]

/-- data/sample/usa.lex:2802-2851 -/
def entries56 : List Str := [
  c!"LEXENTRY:\tTWP\tTOWNSHIP HIGHWAY\tROAD\t",
  c!"LEXENTRY:\tTWP HIGHWAY\tTOWNSHIP HIGHWAY\tROAD\t",
  c!"LEXENTRY:\tTWP HIWAY\tTOWNSHIP HIGHWAY\tROAD\t",
  c!"LEXENTRY:\tTWP HWY\tTOWNSHIP HIGHWAY\tROAD\t",
  c!"LEXENTRY:\tTWP HY\tTOWNSHIP HIGHWAY\tROAD\t",
  c!"LEXENTRY:\tTWP RD\tTOWNSHIP ROAD\tROAD\t",
  c!"LEXENTRY:\tTWP ROAD\tTOWNSHIP ROAD\tROAD\t",
  c!"LEXENTRY:\tTWPHWY\tTOWNSHIP HIGHWAY\tROAD\t",
  c!"LEXENTRY:\tTWPHY\tTOWNSHIP HIGHWAY\tROAD\t",
  c!"LEXENTRY:\tTWPRD\tTOWNSHIP ROAD\tROAD\t",
  c!"LEXENTRY:\tTWPROAD\tTOWNSHIP ROAD\tROAD\t",
  c!"LEXENTRY:\tTWR\tTOWER\tBUILDT,BUILDH\t",
  c!"LEXENTRY:\tTWRD\tTOWNSHIP ROAD\tROAD\t",
  c!"LEXENTRY:\tTWRS\tTOWERS\tBUILDT,BUILDH,TYPE\t",
  c!"LEXENTRY:\tTX\tTEXAS\tPROV,WORD,ROAD\t",
  c!"LEXENTRY:\tTY TY\tTY TY\tCITY\t",
  c!"LEXENTRY:\tU\tU\tSINGLE\t",
  c!"LEXENTRY:\tU\tUNIVERSITY\tWORD\t",
  c!"LEXENTRY:\tU S\tUS\tWORD\t",
  c!"LEXENTRY:\tU S\tUS ROUTE\tROAD\t",
  c!"LEXENTRY:\tU S\tUSA\tNATION\t",
  c!"LEXENTRY:\tU S A\tUSA\tNATION\t",
  c!"LEXENTRY:\tU S A F ACADEMY\tU S A F ACADEMY\tCITY\t",
  c!"LEXENTRY:\tU S HGWY\tUS HIGHWAY\tROAD\t",
  c!"LEXENTRY:\tU S HIGHWAY\tUS HIGHWAY\tROAD\t",
  c!"LEXENTRY:\tU S HIWAY\tUS HIGHWAY\tROAD\t",
  c!"LEXENTRY:\tU S HWY\tUS HIGHWAY\tROAD\t",
  c!"LEXENTRY:\tU S HY\tUS HIGHWAY\tROAD\t",
  c!"LEXENTRY:\tU S ROUTE\tUS ROUTE\tROAD\t",
  c!"LEXENTRY:\tU S RT\tUS ROUTE\tROAD\t",
  c!"LEXENTRY:\tU S RTE\tUS ROUTE\tROAD\t",
  c!"LEXENTRY:\tUN\tUNION\tWORD\t",
  c!"LEXENTRY:\tUN RD\tUNNAMED ROAD\tTYPE\t",
  c!"LEXENTRY:\tUNDERPASS\tUNDERPASS\tTYPE\t",
  c!"LEXENTRY:\tUNI\tUNIVERSITY\tWORD\t",
  c!"LEXENTRY:\tUNION\tUNION\tWORD\t",
  c!"LEXENTRY:\tUNIT\tUNIT\tUNITH\t",
  c!"LEXENTRY:\tUNITE\tUNITE\tUNITH\t",
  c!"LEXENTRY:\tUNITED STATES HIGHWAY\tUS HIGHWAY\tROAD\t",
  c!"LEXENTRY:\tUNITED STATES HWY\tUS HIGHWAY\tROAD\t",
  c!"LEXENTRY:\tUNITED STATES LOOP\tUS LOOP\tROAD\t",
  c!"LEXENTRY:\tUNITED STATES OF AMERICA\tUSA\tNATION\t",
  c!"LEXENTRY:\tUNIV\tUNIVERSITY\tWORD,BUILDT\t",
  c!"LEXENTRY:\tUNIVD\tUNIVERSITY\tWORD,BUILDT\t",
  c!"LEXENTRY:\tUNIVERSIDAD\tUNIVERSIDAD\tWORD,BUILDT\t",
  c!"LEXENTRY:\tUNIVERSITY\tUNIVERSITY\tWORD,BUILDT,BUILDH\t",
  c!"LEXENTRY:\tUNNAMED ROAD\tUNNAMED ROAD\tTYPE\t",
  c!"LEXENTRY:\tUNP\tUNDERPASS\tTYPE\t",
  c!"LEXENTRY:\tUNPS\tUNDERPASS\tTYPE\t",
  c!"LEXENTRY:\tUNRD\tUNNAMED ROAD\tTYPE\t"]

/-- data/sample/usa.lex:2852-2901 -/
def entries57 : List Str := [
  c!"LEXENTRY:\tUNT\tUNIT\tUNITH\t",
  c!"LEXENTRY:\tUP\tUP\tUNITT,WORD\t",
  c!"LEXENTRY:\tUPPER\tUPPER\tWORD,UNITT\t",
  c!"LEXENTRY:\tUPPR\tUPPER\tWORD,UNITT\t",
  c!"LEXENTRY:\tUPSTAIRS\tUPSTAIRS\tUNITT\t",
  c!"LEXENTRY:\tURB\tURB\tPLACEN\t",
  c!"LEXENTRY:\tURBANA\tURB\tPLACEN\t",
  c!"LEXENTRY:\tUS\tUS\tWORD\t",
  c!"LEXENTRY:\tUS\tUS ROUTE\tROAD\t",
  c!"LEXENTRY:\tUS\tUSA\tNATION\t",
  c!"LEXENTRY:\tUS FOREST SERVICE ROAD\tUS FOREST SERVICE ROAD\tROAD\t",
  c!"LEXENTRY:\tUS HGWY\tUS HIGHWAY\tROAD\t",
  c!"LEXENTRY:\tUS HIGHWAY\tUS HIGHWAY\tROAD\t",
  c!"LEXENTRY:\tUS HIWAY\tUS HIGHWAY\tROAD\t",
  c!"LEXENTRY:\tUS HWY\tUS HIGHWAY\tROAD\t",
  c!"LEXENTRY:\tUS HY\tUS HIGHWAY\tROAD\t",
  c!"LEXENTRY:\tUS LOOP\tUS LOOP\tROAD\t",
  c!"LEXENTRY:\tUS LP\tUS LOOP\tROAD\t",
  c!"LEXENTRY:\tUS ROUTE\tUS ROUTE\tROAD\t",
  c!"LEXENTRY:\tUS RT\tUS ROUTE\tROAD\t",
  c!"LEXENTRY:\tUS RTE\tUS ROUTE\tROAD\t",
  c!"LEXENTRY:\tUSA\tUSA\tNATION\t",
  c!"LEXENTRY:\tUSAF ACADEMY\tU S A F ACADEMY\tCITY\t",
  c!"LEXENTRY:\tUSFS RD\tUS FOREST SERVICE RD\tROAD\t",
  c!"LEXENTRY:\tUSFSR\tUS FOREST SERVICE RD\tROAD\t",
  c!"LEXENTRY:\tUSHW\tUS HIGHWAY\tROAD\t",
  c!"LEXENTRY:\tUSHWY\tUS HIGHWAY\tROAD\t",
  c!"LEXENTRY:\tUSHY\tUS HIGHWAY\tROAD\t",
  c!"LEXENTRY:\tUSLP\tUS LOOP\tROAD\t",
  c!"LEXENTRY:\tUSROUTE\tUS ROUTE\tROAD\t",
  c!"LEXENTRY:\tUSRT\tUS ROUTE\tROAD\t",
  c!"LEXENTRY:\tUSRTE\tUS ROUTE\tROAD\t",
  c!"LEXENTRY:\tUT\tUTAH\tPROV,WORD,ROAD\t",
  c!"LEXENTRY:\tUTAH\tUTAH\tPROV,WORD\t",
  c!"LEXENTRY:\tVA\tVIRGINIA\tPROV,WORD,ROAD\t",
  c!"LEXENTRY:\tVAL\tVALLEY\tWORD\t",
  c!"LEXENTRY:\tVALL\tVALLEY\tWORD\t",
  c!"LEXENTRY:\tVALLEY\tVALLEY\tWORD\t",
  c!"LEXENTRY:\tVALLS BLUFF\tDE VALLS BLUFF\tCITY\t",
  c!"LEXENTRY:\tVALLY\tVALLEY\tWORD\t",
  c!"LEXENTRY:\tVER\tVEREDA\tTYPE\t",
  c!"LEXENTRY:\tVEREDA\tVEREDA\tTYPE\t",
  c!"LEXENTRY:\tVERMONT\tVERMONT\tPROV,WORD\t",
  c!"LEXENTRY:\tVI\tVI\tPROV\t",
  c!"LEXENTRY:\tVI\tVIA\tTYPE\t",
  c!"LEXENTRY:\tVIA\tVIA\tTYPE\t",
  c!"LEXENTRY:\tVÍA\tVIA\tTYPE\t",
  c!"LEXENTRY:\tVIADUCT\tVIADUCT\tWORD\t",
  c!"LEXENTRY:\tVIEW\tVIEW\tWORD,TYPE\t",
  c!"LEXENTRY:\tVILL\tVILLAGE\tTYPE,BUILDT,WORD\t"]

/-- data/sample/usa.lex:2902-2951 -/
def entries58 : List Str := [
  c!"LEXENTRY:\tVILLA\tVILLA\tTYPE,BUILDT,WORD\t",
  c!"LEXENTRY:\tVILLAG\tVILLAGE\tTYPE,BUILDT,WORD\t",
  c!"LEXENTRY:\tVILLAGE\tVILLAGE\tTYPE,BUILDT,WORD\t",
  c!"LEXENTRY:\tVILLAGE OF NAGOG WOODS\tVILLAGE OF NAGOG WOODS\tCITY\t",
  c!"LEXENTRY:\tVILLAS\tVILLA\tBUILDT\t",
  c!"LEXENTRY:\tVILLE\tVILLE\tWORD\t",
  c!"LEXENTRY:\tVILLG\tVILLAGE\tTYPE,BUILDT,WORD\t",
  c!"LEXENTRY:\tVILLGE\tVILLAGE\tTYPE\t",
  c!"LEXENTRY:\tVILLIAGE\tVILLAGE\tTYPE,BUILDT,WORD\t",
  c!"LEXENTRY:\tVIRGIN ISLANS\tVI\tPROV\t",
  c!"LEXENTRY:\tVIRGINIA\tVIRGINIA\tPROV,WORD\t",
  c!"LEXENTRY:\tVIS\tVISTA\tWORD,TYPE\t",
  c!"LEXENTRY:\tVISTA\tVISTA\tWORD,TYPE\t",
  c!"LEXENTRY:\tVIVI\tVIVIENDA\tBUILDT\t",
  c!"LEXENTRY:\tVIVIENDA\tVIVIENDA\tBUILDT\t",
  c!"LEXENTRY:\tVL\tVILLAGE\tTYPE\t",
  c!"LEXENTRY:\tVL\tVILLE\tWORD\t",
  c!"LEXENTRY:\tVLG\tVILLAGE\tTYPE,BUILDT,WORD\t",
  c!"LEXENTRY:\tVLGE\tVILLAGE\tTYPE,BUILDT,WORD\t",
  c!"LEXENTRY:\tVLLA\tVILLA\tTYPE,BUILDT\t",
  c!"LEXENTRY:\tVLY\tVALLEY\tWORD\t",
  c!"LEXENTRY:\tVOIE\tVOIE\tTYPE\t",
  c!"LEXENTRY:\tVRDA\tVEREDA\tTYPE\t",
  c!"LEXENTRY:\tVT\tVERMONT\tPROV,WORD,ROAD\t",
  c!"LEXENTRY:\tVW\tVIEW\tWORD,TYPE\t",
  c!"LEXENTRY:\tW\tW\tSINGLE\t",
  c!"LEXENTRY:\tW\tWEST\tDIRECT\t",
  c!"LEXENTRY:\tW VAN\tWEST VANCOUVER\tCITY\t",
  c!"LEXENTRY:\tW VANCOUVER\tWEST VANCOUVER\tCITY\t",
  c!"LEXENTRY:\tW VIRGINIA\tWEST VIRGINIA\tPROV,WORD\t",
  c!"LEXENTRY:\tWA\tWASHINGTON\tPROV,WORD,ROAD\t",
  c!"LEXENTRY:\tWALK\tWALK\tTYPE\t",
  c!"LEXENTRY:\tWALKWAY\tWALKWAY\tTYPE\t",
  c!"LEXENTRY:\tWALKWY\tWALKWAY\tTYPE\t",
  c!"LEXENTRY:\tWALL\tWALL\tTYPE\t",
  c!"LEXENTRY:\tWAREHOUSE\tWAREHOUSE\tBUILDT,WORD\t",
  c!"LEXENTRY:\tWASH\tWASHINGTON\tCITY,PROV,WORD,ROAD\t",
  c!"LEXENTRY:\tWASHINGTON\tWASHINGTON\tCITY,PROV,WORD\t",
  c!"LEXENTRY:\tWATERWAY\tWATERWAY\tWORD\t",
  c!"LEXENTRY:\tWAY\tWAY\tTYPE\t",
  c!"LEXENTRY:\tWD\tWYND\tTYPE\t",
  c!"LEXENTRY:\tWDS\tWOODS\tWORD\t",
  c!"LEXENTRY:\tWE\tWEST\tDIRECT\t",
  c!"LEXENTRY:\tWELLS\tWELLS\tWORD\t",
  c!"LEXENTRY:\tWEST\tWEST\tDIRECT\t",
  c!"LEXENTRY:\tWEST VANCOUVER\tWEST VANCOUVER\tCITY\t",
  c!"LEXENTRY:\tWEST VIRGINIA\tWEST VIRGINIA\tPROV,WORD\t",
  c!"LEXENTRY:\tWESTBOUND\tWESTBOUND\tWORD,QUALIF\t",
  c!"LEXENTRY:\tWHARF\tWHARF\tWORD,TYPE\t",
  c!"LEXENTRY:\tWHF\tWHARF\tWORD,TYPE\t"]

/-- data/sample/usa.lex:2952-2986 -/
def entries59 : List Str := [
  c!"LEXENTRY:\tWHS\tWAREHOUSE\tBUILDT,WORD\t",
  c!"LEXENTRY:\tWI\tWISCONSIN\tPROV,WORD,ROAD\t",
  c!"LEXENTRY:\tWILDLIFE MGMT AREA\tWILDLIFE AREA\tWORD\t",
  c!"LEXENTRY:\tWISC\tWISCONSIN\tPROV,WORD,ROAD\t",
  c!"LEXENTRY:\tWISCONSIN\tWISCONSIN\tPROV,WORD\t",
  c!"LEXENTRY:\tWK\tWALK\tTYPE\t",
  c!"LEXENTRY:\tWKWY\tWALKWAY\tTYPE\t",
  c!"LEXENTRY:\tWLKWY\tWALKWAY\tTYPE\t",
  c!"LEXENTRY:\tWLS\tWELLS\tWORD\t",
  c!"LEXENTRY:\tWMA\tWILDLIFE AREA\tWORD\t",
  c!"LEXENTRY:\tWO\tWOOD\tTYPE\t",
  c!"LEXENTRY:\tWOOD\tWOOD\tWORD,TYPE\t",
  c!"LEXENTRY:\tWOODS\tWOODS\tWORD\t",
  c!"LEXENTRY:\tWTRWY\tWATERWAY\tWORD\t",
  c!"LEXENTRY:\tWV\tWEST VIRGINIA\tPROV,WORD,ROAD\t",
  c!"LEXENTRY:\tWWY\tWATERWAY\tWORD\t",
  c!"LEXENTRY:\tWY\tWAY\tTYPE,ROAD\t",
  c!"LEXENTRY:\tWY\tWYOMING\tPROV,WORD,ROAD\t",
  c!"LEXENTRY:\tWYND\tWYND\tTYPE\t",
  c!"LEXENTRY:\tWYOMING\tWYOMING\tPROV,WORD\t",
  c!"LEXENTRY:\tXING\tCROSSING\tTYPE,BUILDT\t",
  c!"LEXENTRY:\tXRD\tCROSSROAD\tTYPE\t",
  c!"LEXENTRY:\tXRDS\tCROSSROADS\tBUILDT\t",
  c!"LEXENTRY:\tXWAY\tEXPRESSWAY\tTYPE\t",
  c!"LEXENTRY:\tXWY\tEXPRESSWAY\tTYPE\t",
  c!"LEXENTRY:\tYARD\tYARD\tWORD\t",
  c!"LEXENTRY:\tYARDS\tYARDS\tWORD\t",
  c!"LEXENTRY:\tYD\tYARD\tWORD\t",
  c!"LEXENTRY:\tYDS\tYARDS\tWORD\t",
  c!"LEXENTRY:\tYK\tYUKON\tPROV,WORD,ROAD\t",
  c!"LEXENTRY:\tYT\tYUKON\tPROV,WORD,ROAD\t",
  c!"LEXENTRY:\tYUKON\tYUKON\tPROV,WORD\t",
  c!"LEXENTRY:\tZANJA\tZANJA\tWORD\t",
  c!"LEXENTRY:\tZERO\t0\tNUMBER,WORD\t",
  c!"LEXENTRY:\tZNJA\tZANJA\tWORD\t"]

/-- The text, and what is claimed of it. -/
def lexicon : LexSample where
  header := c!"LEXICON:\tlex-usa-txt\tUSA\ten_US\t"
  body := entries0 ++ entries1 ++ entries2 ++ entries3 ++ entries4 ++ entries5 ++ entries6 ++ entries7 ++ entries8
     ++ entries9 ++ entries10 ++ entries11 ++ entries12 ++ entries13 ++ entries14 ++ entries15 ++ entries16
     ++ entries17 ++ entries18 ++ entries19 ++ entries20 ++ entries21 ++ entries22 ++ entries23 ++ entries24
     ++ entries25 ++ entries26 ++ entries27 ++ entries28 ++ entries29 ++ entries30 ++ entries31 ++ entries32
     ++ entries33 ++ entries34 ++ entries35 ++ entries36 ++ entries37 ++ entries38 ++ entries39 ++ entries40
     ++ entries41 ++ entries42 ++ entries43 ++ entries44 ++ entries45 ++ entries46 ++ entries47 ++ entries48
     ++ entries49 ++ entries50 ++ entries51 ++ entries52 ++ entries53 ++ entries54 ++ entries55 ++ entries56
     ++ entries57 ++ entries58 ++ entries59
  lang := .UNKNOWN
  locale := c!"en_US"
  classes := [
    .UNITH, .STOPWORD, .AMPERS, .WORD, .DASH, .FRACT, .ORD, .TYPE, .BUILDT, .SINGLE, .QUALIF, .PROV, .ROAD,
    .BOXH, .UNITT, .CITY, .BUILDH, .NATION, .RR, .NUMBER, .DIRECT, .MILE, .PLACEN]

set_option maxRecDepth 1000000 in
theorem lexicon_checked : checkLex lexicon [0, 0, 1, 1, 2, 3, 44, 82, 102, 118, 119, 124, 124, 174, 189, 207, 251, 368, 517, 677, 711, 1562, 2855] = true := by decide +kernel

/-- What of the grammar cannot match. -/
def pair : Pair where
  sample := sample
  lexicon := lexicon
  idle := []
  null := [.building]

/-- What shows it. -/
def pairCert : PairCert where
  dead := []
  barren := []
  reach := [
    c!"ADDRESS", c!"micro", c!"macro", c!"housenum", c!"street", c!"unit", c!"ruralroute", c!"pobox",
    c!"city", c!"prov", c!"postal", c!"nation", c!"prefixtype", c!"basename", c!"suffixtype", c!"prefix",
    c!"road", c!"suffix", c!"ptype", c!"stype"]

set_option maxRecDepth 100000 in
theorem pair_checked : checkPair pair pairCert = true := by decide +kernel

end AS.Sample.Usa
