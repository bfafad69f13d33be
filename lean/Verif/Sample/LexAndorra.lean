import Verif.Lemmas.LexCheck
import Verif.Lemmas.PairCheck
import Verif.Sample.Andorra
/-
The lexicon data/sample/andorra.lex (all 94 lines), and what of andorra.gmr cannot match with it. Written by
tools/lexicons.py.
-/
namespace AS.Sample.Andorra

/-- data/sample/andorra.lex:2-51 -/
def entries0 : List Str := [
  c!"LEXENTRY:\tAD\tANDORRA\tNATION,DOUBLE\tDETACH",
  c!"LEXENTRY:\tAND\tANDORRA\tNATION\tDETACH",
  c!"LEXENTRY:\tANDORRA\tANDORRA\tNATION\tDETACH",
  c!"LEXENTRY:\tANDORRE\tANDORRE\tNATION\tDETACH",
  c!"LEXENTRY:\tANDORRA LA VELLA\tANDORRA LA VELLA\tCITY\tDETACH",
  c!"LEXENTRY:\tAV\tAVINGUDA\tTYPE\tDET_PRE",
  c!"LEXENTRY:\tAV.\tAVINGUDA\tTYPE\tDET_PRE",
  c!"LEXENTRY:\tAVDA\tAVINGUDA\tTYPE\tDET_PRE",
  c!"LEXENTRY:\tAVDA.\tAVINGUDA\tTYPE\tDET_PRE",
  c!"LEXENTRY:\tAVENIDA\tAVINGUDA\tTYPE\tDET_PRE",
  c!"LEXENTRY:\tAVINGUDA\tAVINGUDA\tTYPE\tATT_PRE,DET_PRE",
  c!"LEXENTRY:\tAVINGUDA D'\tAVINGUDA\tTYPE\tDET_PRE",
  c!"LEXENTRY:\tAVINGUDA D' \tAVINGUDA\tTYPE\tATT_PRE",
  c!"LEXENTRY:\tAVINGUDA DE\tAVINGUDA\tTYPE\tDET_PRE",
  c!"LEXENTRY:\tAVINGUDA DE LES\tAVINGUDA\tTYPE\tDET_PRE",
  c!"LEXENTRY:\tAVINGUDA DEL\tAVINGUDA\tTYPE\tDET_PRE",
  c!"LEXENTRY:\tAVINGUDA DELS\tAVINGUDA\tTYPE\tDET_PRE",
  c!"LEXENTRY:\tBAIXADA\tBAIXADA\tTYPE\tDET_PRE",
  c!"LEXENTRY:\tBAIXADA DEL\tBAIXADA\tTYPE\tDET_PRE",
  c!"LEXENTRY:\tBAJADA\tBAIXADA\tTYPE\tDET_PRE",
  c!"LEXENTRY:\tBDA\tBAIXADA\tTYPE\tDET_PRE",
  c!"LEXENTRY:\tBDA.\tBAIXADA\tTYPE\tDET_PRE",
  c!"LEXENTRY:\tBP\tBP\tBOXH\tDETATCH",
  c!"LEXENTRY:\tC.\tCALLE\tTYPE\tDET_PRE",
  c!"LEXENTRY:\tC/\tCALLE\tTYPE\tDET_PRE",
  c!"LEXENTRY:\tCALLE\tCALLE\tTYPE\tDET_PRE",
  c!"LEXENTRY:\tCAMINO\tCAMINO\tTYPE\tDET_PRE",
  c!"LEXENTRY:\tCANILLO\tCANILLO\tCITY\tDETACH",
  c!"LEXENTRY:\tCARRER\tCARRER\tTYPE\tDET_PRE",
  c!"LEXENTRY:\tCARRER DE\tCARRER\tTYPE\tDET_PRE",
  c!"LEXENTRY:\tCARRER DE LA\tCARRER\tTYPE\tDET_PRE",
  c!"LEXENTRY:\tCARRER DE LES\tCARRER\tTYPE\tDET_PRE",
  c!"LEXENTRY:\tCARRETERA\tCARRETERA\tTYPE\tATT_PRE,DET_PRE",
  c!"LEXENTRY:\tCARRETERA D'\tCARRETERA\tTYPE\tATT_PRE,DET_PRE",
  c!"LEXENTRY:\tCARRETERA DE\tCARRETERA\tTYPE\tDET_PRE",
  c!"LEXENTRY:\tCARRETERA DE L'\tCARRETERA\tTYPE\tATT_PRE,DET_PRE",
  c!"LEXENTRY:\tCARRETERA DEL\tCARRETERA\tTYPE\tDET_PRE",
  c!"LEXENTRY:\tCO\tCAMINO\tTYPE\tDET_PRE",
  c!"LEXENTRY:\tCO.\tCAMINO\tTYPE\tDET_PRE",
  c!"LEXENTRY:\tCOMERCIANTE\tCOMERCIANTE\tPLACEN\tDETACH",
  c!"LEXENTRY:\tCOOPERATIVA\tCOOPERATIVA\tPLACEN\tDETACH",
  c!"LEXENTRY:\tCTA\tCUESTA\tTYPE\tDET_PRE",
  c!"LEXENTRY:\tCTA.\tCUESTA\tTYPE\tDET_PRE",
  c!"LEXENTRY:\tCTRA\tCARRETERA\tTYPE\tDET_PRE",
  c!"LEXENTRY:\tCTRA.\tCARRETERA\tTYPE\tDET_PRE",
  c!"LEXENTRY:\tCUESTA\tCUESTA\tTYPE\tDET_PRE",
  c!"LEXENTRY:\tCª\tCARRETERA\tTYPE\tDET_PRE",
  c!"LEXENTRY:\tC°\tCAMINO\tTYPE\tDET_PRE",
  c!"LEXENTRY:\tENCAMP\tENCAMP\tCITY\tDETACH",
  c!"LEXENTRY:\tESCALDES ENGODANY\tESCALDES ENGORDANY\tCITY\tDETACH"]

/-- data/sample/andorra.lex:52-94 -/
def entries1 : List Str := [
  c!"LEXENTRY:\tESCALDES-ENGODANY\tESCALDES ENGORDANY\tCITY\tDETACH",
  c!"LEXENTRY:\tESCALDES-ENGORDANY\tESCALDES ENGORDANY\tCITY\tDETACH",
  c!"LEXENTRY:\tFUNDACION\tFUNDACION\tPLACEN\tDETACH",
  c!"LEXENTRY:\tGLORIETA\tGLORIETA\tTYPE\tDET_PRE",
  c!"LEXENTRY:\tGTA\tGLORIETA\tTYPE\tDET_PRE",
  c!"LEXENTRY:\tGTA.\tGLORIETA\tTYPE\tDET_PRE",
  c!"LEXENTRY:\tLA MASSANA\tLA MASSANA\tCITY\tDETACH",
  c!"LEXENTRY:\tORDINO\tORDINO\tCITY\tDETACH",
  c!"LEXENTRY:\tPARC\tPARC\tTYPE\tDET_PRE",
  c!"LEXENTRY:\tPARC DE LA \tPARC\tTYPE\tDET_PRE",
  c!"LEXENTRY:\tPASAJE\tPASAJE\tTYPE\tDET_PRE",
  c!"LEXENTRY:\tPASEO\tPASEO\tTYPE\tDET_PRE",
  c!"LEXENTRY:\tPJE\tPASAJE\tTYPE\tDET_PRE",
  c!"LEXENTRY:\tPJE.\tPASAJE\tTYPE\tDET_PRE",
  c!"LEXENTRY:\tPL\tPLAÇA\tTYPE\tDET_PRE",
  c!"LEXENTRY:\tPL.\tPLAÇA\tTYPE\tDET_PRE",
  c!"LEXENTRY:\tPLAZA\tPLAÇA\tTYPE\tDET_PRE",
  c!"LEXENTRY:\tPLAÇA\tPLAÇA\tTYPE\tDET_PRE",
  c!"LEXENTRY:\tPLAÇA DE\tPLAÇA\tTYPE\tDET_PRE",
  c!"LEXENTRY:\tPS\tPASEO\tTYPE\tDET_PRE",
  c!"LEXENTRY:\tPS.\tPASEO\tTYPE\tDET_PRE",
  c!"LEXENTRY:\tPSO\tPASEO\tTYPE\tDET_PRE",
  c!"LEXENTRY:\tPSO.\tPASEO\tTYPE\tDET_PRE",
  c!"LEXENTRY:\tPZA\tPLAÇA\tTYPE\tDET_PRE",
  c!"LEXENTRY:\tPZA.\tPLAÇA\tTYPE\tDET_PRE",
  c!"LEXENTRY:\tP°\tPASEO\tTYPE\tDET_PRE",
  c!"LEXENTRY:\tRAMBLA\tRAMBLA\tTYPE\tDET_PRE",
  c!"LEXENTRY:\tRBLA\tRAMBLA\tTYPE\tDET_PRE",
  c!"LEXENTRY:\tRBLA.\tRAMBLA\tTYPE\tDET_PRE",
  c!"LEXENTRY:\tRDA\tRONDA\tTYPE\tDET_PRE",
  c!"LEXENTRY:\tRDA.\tRONDA\tTYPE\tDET_PRE",
  c!"LEXENTRY:\tRONDA\tRONDA\tTYPE\tDET_PRE",
  c!"LEXENTRY:\tSA\tSA\tPLACEN\tDETACH",
  c!"LEXENTRY:\tSAE\tSAE\tPLACEN\tDETACH",
  c!"LEXENTRY:\tSAL\tSAL\tPLACEN\tDETACH",
  c!"LEXENTRY:\tSANT JULIÀ DE LÒRIA\tSANT JULIÀ DE LÒRIA\tCITY\tDETACH",
  c!"LEXENTRY:\tSC\tSC\tPLACEN\tDETACH",
  c!"LEXENTRY:\tSCL\tSCL\tPLACEN\tDETACH",
  c!"LEXENTRY:\tSL\tSL\tPLACEN\tDETACH",
  c!"LEXENTRY:\tSNC\tSNC\tPLACEN\tDETACH",
  c!"LEXENTRY:\tSOCIEDAD\tSOCIEDAD\tPLACEN\tDETACH",
  c!"LEXENTRY:\tSRL\tSRL\tPLACEN\tDETACH",
  c!"LEXENTRY:\tTRAVESSIA\tTRAVESSIA\tTYPE\tDET_PRE"]

/-- The text, and what is claimed of it. -/
def lexicon : LexSample where
  header := c!"LEXICON:\tlex-andorra.txt\tCAT\tca_AD"
  body := entries0 ++ entries1
  lang := .CAT
  locale := c!"ca_AD"
  classes := [
    .NATION, .DOUBLE, .CITY, .TYPE, .BOXH, .PLACEN]

set_option maxRecDepth 1000000 in
theorem lexicon_checked : checkLex lexicon [0, 0, 4, 5, 22, 39] = true := by decide +kernel

/-- What of the grammar cannot match. -/
def pair : Pair where
  sample := sample
  lexicon := lexicon
  idle := [
    c!"@housenumber @streetname @unit",
    c!"@postal @city @region @country",
    c!"@city @region @country",
    c!"BUILDT -> BLDNG -> 0.7",
    c!"BUILDT WORD -> BLDNG BLDNG -> 0.6",
    c!"BUILDT WORD WORD -> BLDNG BLDNG BLDNG -> 0.5",
    c!"BUILDT WORD WORD WORD -> BLDNG BLDNG BLDNG BLDNG -> 0.4",
    c!"[unit]",
    c!"UNITH UNITT -> UNITH UNITT -> 0.8",
    c!"UNITH WORD -> UNITH UNIT -> 0.7",
    c!"UNITH NUMBER -> UNITH UNITT -> 0.7",
    c!"UNITH MIXED -> UNITH UNITT -> 0.7",
    c!"UNITH WORD WORD -> UNITH UNITT UNITT -> 0.4",
    c!"[region]",
    c!"PROV -> PROV -> 0.9"]
  null := [.building, .predir, .qual, .suftype, .sufdir, .ruralroute, .extra, .prov, .box, .unit]

/-- What shows it. -/
def pairCert : PairCert where
  dead := [.BUILDT, .PROV, .UNITH, .UNITT]
  barren := [c!"region", c!"unit"]
  reach := [
    c!"ADDRESS", c!"micro", c!"macro", c!"housenumber", c!"streetname", c!"postal", c!"city", c!"country"]

set_option maxRecDepth 100000 in
theorem pair_checked : checkPair pair pairCert = true := by decide +kernel

end AS.Sample.Andorra
