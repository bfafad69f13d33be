import Verif.Lemmas.LexCheck
import Verif.Lemmas.PairCheck
import Verif.Sample.Switzerland
/-
The lexicon data/sample/switzerland.lex (all 721 lines), and what of switzerland.gmr cannot match with it. Written by
tools/lexicons.py.
-/
namespace AS.Sample.Switzerland

/-- data/sample/switzerland.lex:2-51 -/
def entries0 : List Str := [
  c!"LEXENTRY:\tAARGAU\tAG\tPROV\tDETACH",
  c!"LEXENTRY:\tAG\tAG\tPLACEN\tDETACH",
  c!"LEXENTRY:\tAG\tAG\tPROV\tDETACH",
  c!"LEXENTRY:\tAI\tAI\tPROV\tDETACH",
  c!"LEXENTRY:\tAKTIEN\tAKTIEN\tPLACEN\tDETACH",
  c!"LEXENTRY:\tAKTIEN-GESELLSCHAFT\tAKTIEN-GESELLSCHAFT\tPLACEN\tDETACH",
  c!"LEXENTRY:\tAKTIENGESELLSCHAFT\tAKTIENGESELLSCHAFT\tPLACEN\tDETACH",
  c!"LEXENTRY:\tALLEE\tALLEE\tTYPE\tATT_SUF,DET_SUF",
  c!"LEXENTRY:\tALLÉE\tALLÉE\tTYPE\tDET_PRE",
  c!"LEXENTRY:\tALLÉE DE\tALLÉE DE\tTYPE\tDET_PRE",
  c!"LEXENTRY:\tALLÉE DE LA\tALLÉE DE LA\tTYPE\tDET_PRE",
  c!"LEXENTRY:\tALLÉE DES\tALLÉE DES\tTYPE\tDET_PRE",
  c!"LEXENTRY:\tALLÉE DU\tALLÉE DU\tTYPE\tDET_PRE",
  c!"LEXENTRY:\tALLÉE LE\tALLÉE LE\tTYPE\tDET_PRE",
  c!"LEXENTRY:\tANCIEN CHEMIN\tANCIEN CHEMIN\tTYPE\tDET_PRE",
  c!"LEXENTRY:\tANCIEN CHEMIN DE\tANCIEN CHEMIN DE\tTYPE\tDET_PRE",
  c!"LEXENTRY:\tANCIENNE ROUTE\tANCIENNE ROUTE\tTYPE\tDET_PRE",
  c!"LEXENTRY:\tANCIENNE ROUTE DE\tANCIENNE ROUTE DE\tTYPE\tDET_PRE",
  c!"LEXENTRY:\tANSCHLUSSSTELLE\tANSCHLUSSSTELLE\tTYPE\tDET_PRE",
  c!"LEXENTRY:\tAPPENZELL AUSSERRHODEN\tAR\tPROV\tDETACH",
  c!"LEXENTRY:\tAPPENZELL INNER RHODEN\tAI\tPROV\tDETACH",
  c!"LEXENTRY:\tAPPENZELL INNER-RHODEN\tAI\tPROV\tDETACH",
  c!"LEXENTRY:\tAR\tAR\tPROV\tDETACH",
  c!"LEXENTRY:\tAUTOROUTE\tAUTOROUTE\tTYPE\tDET_PRE",
  c!"LEXENTRY:\tAUTOROUTE DE\tAUTOROUTE DE\tTYPE\tDET_PRE",
  c!"LEXENTRY:\tAUTOROUTE DU\tAUTOROUTE DU\tTYPE\tDET_PRE",
  c!"LEXENTRY:\tAUTOSTRADA\tAUTOSTRADA\tTYPE\tDET_PRE",
  c!"LEXENTRY:\tAV\tAVENUE\tTYPE\tDET_PRE,DET_SUF",
  c!"LEXENTRY:\tAV D'\tAVENUE D'\tTYPE\tATT_PRE",
  c!"LEXENTRY:\tAV DE\tAVENUE DE\tTYPE\tDET_PRE",
  c!"LEXENTRY:\tAV DE L'\tAVENUE DE L'\tTYPE\tATT_PRE",
  c!"LEXENTRY:\tAV DE LA\tAVENUE DE LA\tTYPE\tDET_PRE",
  c!"LEXENTRY:\tAV DES\tAVENUE DES\tTYPE\tDET_PRE",
  c!"LEXENTRY:\tAV DU\tAVENUE DU\tTYPE\tDET_PRE",
  c!"LEXENTRY:\tAV.\tAVENUE\tTYPE\tDET_PRE,DET_SUF",
  c!"LEXENTRY:\tAV. D'\tAVENUE D'\tTYPE\tATT_PRE",
  c!"LEXENTRY:\tAV. DE\tAVENUE DE\tTYPE\tDET_PRE",
  c!"LEXENTRY:\tAV. DE L'\tAVENUE DE L'\tTYPE\tATT_PRE",
  c!"LEXENTRY:\tAV. DE LA\tAVENUE DE LA\tTYPE\tDET_PRE",
  c!"LEXENTRY:\tAV. DES\tAVENUE DES\tTYPE\tDET_PRE",
  c!"LEXENTRY:\tAV. DU\tAVENUE DU\tTYPE\tDET_PRE",
  c!"LEXENTRY:\tAVE\tAVENUE\tTYPE\tDET_PRE,DET_SUF",
  c!"LEXENTRY:\tAVE D'\tAVENUE D'\tTYPE\tATT_PRE",
  c!"LEXENTRY:\tAVE DE\tAVENUE DE\tTYPE\tDET_PRE",
  c!"LEXENTRY:\tAVE DE L'\tAVENUE DE L'\tTYPE\tATT_PRE",
  c!"LEXENTRY:\tAVE DE LA\tAVENUE DE LA\tTYPE\tDET_PRE",
  c!"LEXENTRY:\tAVE DES\tAVENUE DES\tTYPE\tDET_PRE",
  c!"LEXENTRY:\tAVE DU\tAVENUE DU\tTYPE\tDET_PRE",
  c!"LEXENTRY:\tAVE.\tAVENUE\tTYPE\tDET_PRE,DET_SUF",
  c!"LEXENTRY:\tAVE. D'\tAVENUE D'\tTYPE\tATT_PRE"]

/-- data/sample/switzerland.lex:52-101 -/
def entries1 : List Str := [
  c!"LEXENTRY:\tAVE. DE\tAVENUE DE\tTYPE\tDET_PRE",
  c!"LEXENTRY:\tAVE. DE L'\tAVENUE DE L'\tTYPE\tATT_PRE",
  c!"LEXENTRY:\tAVE. DE LA\tAVENUE DE LA\tTYPE\tDET_PRE",
  c!"LEXENTRY:\tAVE. DES\tAVENUE DES\tTYPE\tDET_PRE",
  c!"LEXENTRY:\tAVE. DU\tAVENUE DU\tTYPE\tDET_PRE",
  c!"LEXENTRY:\tAVENUE\tAVENUE\tTYPE\tDET_PRE,DET_SUF",
  c!"LEXENTRY:\tAVENUE D'\tAVENUE D'\tTYPE\tATT_PRE",
  c!"LEXENTRY:\tAVENUE DE\tAVENUE DE\tTYPE\tDET_PRE",
  c!"LEXENTRY:\tAVENUE DE L'\tAVENUE DE L'\tTYPE\tATT_PRE",
  c!"LEXENTRY:\tAVENUE DE LA\tAVENUE DE LA\tTYPE\tDET_PRE",
  c!"LEXENTRY:\tAVENUE DES\tAVENUE DES\tTYPE\tDET_PRE",
  c!"LEXENTRY:\tAVENUE DU\tAVENUE DU\tTYPE\tDET_PRE",
  c!"LEXENTRY:\tBACH\tBACH\tTYPE\tATT_SUF,DET_SUF",
  c!"LEXENTRY:\tBASEL LANDSCHAFT\tBL\tPROV\tDETACH",
  c!"LEXENTRY:\tBASEL STADT\tBS\tPROV\tDETACH",
  c!"LEXENTRY:\tBASEL-LANDSCHAFT\tBL\tPROV\tDETACH",
  c!"LEXENTRY:\tBASEL-STADT\tBS\tPROV\tDETACH",
  c!"LEXENTRY:\tBD\tBOULEVARD\tTYPE\tDET_PRE,DET_SUF",
  c!"LEXENTRY:\tBD D'\tBOULEVARD D'\tTYPE\tATT_PRE",
  c!"LEXENTRY:\tBD DE BD. DE\tBOULEVARD DE\tTYPE\tDET_PRE",
  c!"LEXENTRY:\tBD DE LA\tBOULEVARD DE LA\tTYPE\tDET_PRE",
  c!"LEXENTRY:\tBD DES\tBOULEVARD DES\tTYPE\tDET_PRE",
  c!"LEXENTRY:\tBD DU\tBOULEVARD DU\tTYPE\tDET_PRE",
  c!"LEXENTRY:\tBD.\tBOULEVARD\tTYPE\tDET_PRE,DET_SUF",
  c!"LEXENTRY:\tBD. D'\tBOULEVARD D'\tTYPE\tATT_PRE",
  c!"LEXENTRY:\tBD. DE LA\tBOULEVARD DE LA\tTYPE\tDET_PRE",
  c!"LEXENTRY:\tBD. DES\tBOULEVARD DES\tTYPE\tDET_PRE",
  c!"LEXENTRY:\tBD. DU\tBOULEVARD DU\tTYPE\tDET_PRE",
  c!"LEXENTRY:\tBE\tBE\tPROV\tDETACH",
  c!"LEXENTRY:\tBERG\tBERG\tTYPE\tATT_SUF,DET_SUF",
  c!"LEXENTRY:\tBERGWEG\tBERGWEG\tTYPE\tATT_SUF,DET_SUF",
  c!"LEXENTRY:\tBERN\tBE\tPROV\tDETACH",
  c!"LEXENTRY:\tBETRIEB\tBETRIEB\tPLACEN\tDETACH",
  c!"LEXENTRY:\tBGB\tBGB\tPLACEN\tDETACH",
  c!"LEXENTRY:\tBL\tBL\tPROV\tDETACH",
  c!"LEXENTRY:\tBLD\tBOULEVARD\tTYPE\tDET_PRE,DET_SUF",
  c!"LEXENTRY:\tBLD DE\tBOULEVARD DE\tTYPE\tDET_PRE",
  c!"LEXENTRY:\tBLD DE LA\tBOULEVARD DE LA\tTYPE\tDET_PRE",
  c!"LEXENTRY:\tBLD DES\tBOULEVARD DES\tTYPE\tDET_PRE",
  c!"LEXENTRY:\tBLD DU\tBOULEVARD DU\tTYPE\tDET_PRE",
  c!"LEXENTRY:\tBLD.\tBOULEVARD\tTYPE\tDET_PRE,DET_SUF",
  c!"LEXENTRY:\tBLD. DE\tBOULEVARD DE\tTYPE\tDET_PRE",
  c!"LEXENTRY:\tBLD. DE LA\tBOULEVARD DE LA\tTYPE\tDET_PRE",
  c!"LEXENTRY:\tBLD. DES\tBOULEVARD DES\tTYPE\tDET_PRE",
  c!"LEXENTRY:\tBLD. DU\tBOULEVARD DU\tTYPE\tDET_PRE",
  c!"LEXENTRY:\tBOGEN\tBOGEN\tTYPE\tATT_SUF,DET_SUF",
  c!"LEXENTRY:\tBOULEVARD\tBOULEVARD\tTYPE\tDET_PRE,DET_SUF",
  c!"LEXENTRY:\tBOULEVARD D'\tBOULEVARD D'\tTYPE\tATT_PRE",
  c!"LEXENTRY:\tBOULEVARD DE\tBOULEVARD DE\tTYPE\tDET_PRE",
  c!"LEXENTRY:\tBOULEVARD DE LA\tBOULEVARD DE LA\tTYPE\tDET_PRE"]

/-- data/sample/switzerland.lex:102-151 -/
def entries2 : List Str := [
  c!"LEXENTRY:\tBOULEVARD DES\tBOULEVARD DES\tTYPE\tDET_PRE",
  c!"LEXENTRY:\tBOULEVARD DU\tBOULEVARD DU\tTYPE\tDET_PRE",
  c!"LEXENTRY:\tBRETELLE\tBRETELLE\tTYPE\tDET_PRE",
  c!"LEXENTRY:\tBRÜCKE\tBRÜCKE\tTYPE\tATT_SUF,DET_SUF",
  c!"LEXENTRY:\tBS\tBS\tPROV\tDETACH",
  c!"LEXENTRY:\tBURG\tBURG\tTYPE\tATT_SUF,DET_SUF",
  c!"LEXENTRY:\tC.\tCORSO\tTYPE\tDET_PRE",
  c!"LEXENTRY:\tC.DA\tCONTRADA\tTYPE\tDET_PRE",
  c!"LEXENTRY:\tC.DA DEL\tCONTRADA DEL\tTYPE\tDET_PRE",
  c!"LEXENTRY:\tC.SO\tCORSO\tTYPE\tDET_PRE",
  c!"LEXENTRY:\tC.SO.\tCORSO\tTYPE\tDET_PRE",
  c!"LEXENTRY:\tCA'\tCA'\tTYPE\tDET_PRE",
  c!"LEXENTRY:\tCAMPO\tCAMPO\tTYPE\tDET_PRE",
  c!"LEXENTRY:\tCANTON\tCANTON\tTYPE\tDET_PRE",
  c!"LEXENTRY:\tCARREFOUR DE\tCARREFOUR DE\tTYPE\tDET_PRE",
  c!"LEXENTRY:\tCARREFOUR DE L'\tCARREFOUR DE L'\tTYPE\tATT_PRE",
  c!"LEXENTRY:\tCARREFOUR DE LA\tCARREFOUR DE LA\tTYPE\tDET_PRE",
  c!"LEXENTRY:\tCARREFOUR DES\tCARREFOUR DES\tTYPE\tDET_PRE",
  c!"LEXENTRY:\tCARREFOUR DU\tCARREFOUR DU\tTYPE\tDET_PRE",
  c!"LEXENTRY:\tCASE\tCASE\tTYPE\tDET_PRE",
  c!"LEXENTRY:\tCH\tCHAUSSÉE\tTYPE\tDET_PRE",
  c!"LEXENTRY:\tCH\tSWITZERLAND\tNATION\tDETACH",
  c!"LEXENTRY:\tCH DE\tCHAUSSÉE DE\tTYPE\tDET_PRE",
  c!"LEXENTRY:\tCH DE LA\tCHAUSSÉE DE LA\tTYPE\tDET_PRE",
  c!"LEXENTRY:\tCH DES\tCHAUSSÉE DES\tTYPE\tDET_PRE",
  c!"LEXENTRY:\tCH DU\tCHAUSSÉE DU\tTYPE\tDET_PRE",
  c!"LEXENTRY:\tCH.\tCHAUSSÉE\tTYPE\tDET_PRE",
  c!"LEXENTRY:\tCH. DE\tCHAUSSÉE DE\tTYPE\tDET_PRE",
  c!"LEXENTRY:\tCH. DE LA\tCHAUSSÉE DE LA\tTYPE\tDET_PRE",
  c!"LEXENTRY:\tCH. DES\tCHAUSSÉE DES\tTYPE\tDET_PRE",
  c!"LEXENTRY:\tCH. DU\tCHAUSSÉE DU\tTYPE\tDET_PRE",
  c!"LEXENTRY:\tCHAUSSÉE\tCHAUSSÉE\tTYPE\tDET_PRE",
  c!"LEXENTRY:\tCHAUSSÉE DE\tCHAUSSÉE DE\tTYPE\tDET_PRE",
  c!"LEXENTRY:\tCHAUSSÉE DE LA\tCHAUSSÉE DE LA\tTYPE\tDET_PRE",
  c!"LEXENTRY:\tCHAUSSÉE DES\tCHAUSSÉE DES\tTYPE\tDET_PRE",
  c!"LEXENTRY:\tCHAUSSÉE DU\tCHAUSSÉE DU\tTYPE\tDET_PRE",
  c!"LEXENTRY:\tCHE\tSWITZERLAND\tNATION\tDETACH",
  c!"LEXENTRY:\tCHEE\tCHAUSSÉE\tTYPE\tDET_PRE",
  c!"LEXENTRY:\tCHEE DE\tCHAUSSÉE DE\tTYPE\tDET_PRE",
  c!"LEXENTRY:\tCHEE DE LA\tCHAUSSÉE DE LA\tTYPE\tDET_PRE",
  c!"LEXENTRY:\tCHEE DES\tCHAUSSÉE DES\tTYPE\tDET_PRE",
  c!"LEXENTRY:\tCHEE DU\tCHAUSSÉE DU\tTYPE\tDET_PRE",
  c!"LEXENTRY:\tCHEE.\tCHAUSSÉE\tTYPE\tDET_PRE",
  c!"LEXENTRY:\tCHEE. DE\tCHAUSSÉE DE\tTYPE\tDET_PRE",
  c!"LEXENTRY:\tCHEE. DE LA\tCHAUSSÉE DE LA\tTYPE\tDET_PRE",
  c!"LEXENTRY:\tCHEE. DES\tCHAUSSÉE DES\tTYPE\tDET_PRE",
  c!"LEXENTRY:\tCHEE. DU\tCHAUSSÉE DU\tTYPE\tDET_PRE",
  c!"LEXENTRY:\tCHEMIN\tCHEMIN\tTYPE\tDET_PRE",
  c!"LEXENTRY:\tCHEMIN AU\tCHEMIN AU\tTYPE\tDET_PRE",
  c!"LEXENTRY:\tCHEMIN AUX\tCHEMIN AUX\tTYPE\tDET_PRE"]

/-- data/sample/switzerland.lex:152-201 -/
def entries3 : List Str := [
  c!"LEXENTRY:\tCHEMIN D'\tCHEMIN D'\tTYPE\tATT_PRE",
  c!"LEXENTRY:\tCHEMIN DE\tCHEMIN DE\tTYPE\tDET_PRE",
  c!"LEXENTRY:\tCHEMIN DE L'\tCHEMIN DE L'\tTYPE\tATT_PRE",
  c!"LEXENTRY:\tCHEMIN DE LA\tCHEMIN DE LA\tTYPE\tDET_PRE",
  c!"LEXENTRY:\tCHEMIN DES\tCHEMIN DES\tTYPE\tDET_PRE",
  c!"LEXENTRY:\tCHEMIN DU\tCHEMIN DU\tTYPE\tDET_PRE",
  c!"LEXENTRY:\tCHEMIN LES\tCHEMIN LES\tTYPE\tDET_PRE",
  c!"LEXENTRY:\tCHEMIN À\tCHEMIN À\tTYPE\tDET_PRE",
  c!"LEXENTRY:\tCHÉE\tCHAUSSÉE\tTYPE\tDET_PRE",
  c!"LEXENTRY:\tCHÉE DE\tCHAUSSÉE DE\tTYPE\tDET_PRE",
  c!"LEXENTRY:\tCHÉE DE LA\tCHAUSSÉE DE LA\tTYPE\tDET_PRE",
  c!"LEXENTRY:\tCHÉE DES\tCHAUSSÉE DES\tTYPE\tDET_PRE",
  c!"LEXENTRY:\tCHÉE DU\tCHAUSSÉE DU\tTYPE\tDET_PRE",
  c!"LEXENTRY:\tCHÉE.\tCHAUSSÉE\tTYPE\tDET_PRE",
  c!"LEXENTRY:\tCHÉE. DE\tCHAUSSÉE DE\tTYPE\tDET_PRE",
  c!"LEXENTRY:\tCHÉE. DE LA\tCHAUSSÉE DE LA\tTYPE\tDET_PRE",
  c!"LEXENTRY:\tCHÉE. DES\tCHAUSSÉE DES\tTYPE\tDET_PRE",
  c!"LEXENTRY:\tCHÉE. DU\tCHAUSSÉE DU\tTYPE\tDET_PRE",
  c!"LEXENTRY:\tCITÉ\tCITÉ\tTYPE\tDET_PRE",
  c!"LEXENTRY:\tCITÉ DU\tCITÉ DU\tTYPE\tDET_PRE",
  c!"LEXENTRY:\tCLOS\tCLOS\tTYPE\tDET_PRE",
  c!"LEXENTRY:\tCLOS AUX\tCLOS AUX\tTYPE\tDET_PRE",
  c!"LEXENTRY:\tCLOS DE\tCLOS DE\tTYPE\tDET_PRE",
  c!"LEXENTRY:\tCLOS DE L'\tCLOS DE L'\tTYPE\tATT_PRE",
  c!"LEXENTRY:\tCLOS DE LA\tCLOS DE LA\tTYPE\tDET_PRE",
  c!"LEXENTRY:\tCLOS DES\tCLOS DES\tTYPE\tDET_PRE",
  c!"LEXENTRY:\tCLOS DU\tCLOS DU\tTYPE\tDET_PRE",
  c!"LEXENTRY:\tCO\tCO\tPLACEN\tDETACH",
  c!"LEXENTRY:\tCOIN\tCOIN\tTYPE\tDET_PRE",
  c!"LEXENTRY:\tCOIN D'\tCOIN D'\tTYPE\tATT_PRE",
  c!"LEXENTRY:\tCOIN DU\tCOIN DU\tTYPE\tDET_PRE",
  c!"LEXENTRY:\tCONTRADA\tCONTRADA\tTYPE\tDET_PRE",
  c!"LEXENTRY:\tCONTRADA DEL\tCONTRADA DEL\tTYPE\tDET_PRE",
  c!"LEXENTRY:\tCORSO\tCORSO\tTYPE\tDET_PRE",
  c!"LEXENTRY:\tCORTE\tCORTE\tTYPE\tDET_PRE",
  c!"LEXENTRY:\tCORTE DEI\tCORTE DEI\tTYPE\tDET_PRE",
  c!"LEXENTRY:\tCOSTA\tCOSTA\tTYPE\tDET_PRE",
  c!"LEXENTRY:\tCOTEAU DE\tCOTEAU DE\tTYPE\tDET_PRE",
  c!"LEXENTRY:\tCOUR\tCOUR\tTYPE\tDET_PRE",
  c!"LEXENTRY:\tCOUR AUX\tCOUR AUX\tTYPE\tDET_PRE",
  c!"LEXENTRY:\tCOUR D'\tCOUR D'\tTYPE\tATT_PRE",
  c!"LEXENTRY:\tCOUR DE LA\tCOUR DE LA\tTYPE\tDET_PRE",
  c!"LEXENTRY:\tCOUR DES\tCOUR DES\tTYPE\tDET_PRE",
  c!"LEXENTRY:\tCOURS\tCOURS\tTYPE\tDET_PRE",
  c!"LEXENTRY:\tCOURS DE\tCOURS DE\tTYPE\tDET_PRE",
  c!"LEXENTRY:\tCOURS DES\tCOURS DES\tTYPE\tDET_PRE",
  c!"LEXENTRY:\tCP\tPostfach\tBOXH\tDETACH",
  c!"LEXENTRY:\tCROIX\tCROIX\tTYPE\tDET_PRE",
  c!"LEXENTRY:\tCSO\tCORSO\tTYPE\tDET_PRE",
  c!"LEXENTRY:\tCSO.\tCORSO\tTYPE\tDET_PRE"]

/-- data/sample/switzerland.lex:202-251 -/
def entries4 : List Str := [
  c!"LEXENTRY:\tCase Postale\tPostfach\tBOXH\tDETACH",
  c!"LEXENTRY:\tCasella Postale\tPostfach\tBOXH\tDETACH",
  c!"LEXENTRY:\tCÔTE\tCÔTE\tTYPE\tDET_PRE",
  c!"LEXENTRY:\tCÔTE DE\tCÔTE DE\tTYPE\tDET_PRE",
  c!"LEXENTRY:\tCÔTE DES\tCÔTE DES\tTYPE\tDET_PRE",
  c!"LEXENTRY:\tDAMM\tDAMM\tTYPE\tATT_SUF,DET_SUF",
  c!"LEXENTRY:\tDIGUE DE LA\tDIGUE DE LA\tTYPE\tDET_PRE",
  c!"LEXENTRY:\tDIGUE DES\tDIGUE DES\tTYPE\tDET_PRE",
  c!"LEXENTRY:\tDIGUE DU\tDIGUE DU\tTYPE\tDET_PRE",
  c!"LEXENTRY:\tDOMAINE\tDOMAINE\tTYPE\tDET_PRE",
  c!"LEXENTRY:\tDOMAINE DE\tDOMAINE DE\tTYPE\tDET_PRE",
  c!"LEXENTRY:\tDOMAINE DES\tDOMAINE DES\tTYPE\tDET_PRE",
  c!"LEXENTRY:\tEG\tEG\tPLACEN\tDETACH",
  c!"LEXENTRY:\tEINZELFIRMA\tEINZELFIRMA\tPLACEN\tDETACH",
  c!"LEXENTRY:\tEINZELUNTERNEHMEN\tEINZELUNTERNEHMEN\tPLACEN\tDETACH",
  c!"LEXENTRY:\tENCLOS\tENCLOS\tTYPE\tDET_PRE",
  c!"LEXENTRY:\tENGETRAGENER\tENGETRAGENER\tPLACEN\tDETACH",
  c!"LEXENTRY:\tESCALIER\tESCALIER\tTYPE\tDET_PRE",
  c!"LEXENTRY:\tESCALIER DE\tESCALIER DE\tTYPE\tDET_PRE",
  c!"LEXENTRY:\tESCALIER DE L'\tESCALIER DE L'\tTYPE\tATT_PRE",
  c!"LEXENTRY:\tESCALIER DE LA\tESCALIER DE LA\tTYPE\tDET_PRE",
  c!"LEXENTRY:\tESCALIER DES\tESCALIER DES\tTYPE\tDET_PRE",
  c!"LEXENTRY:\tESCALIER DU\tESCALIER DU\tTYPE\tDET_PRE",
  c!"LEXENTRY:\tESPLANADE\tESPLANADE\tTYPE\tDET_PRE",
  c!"LEXENTRY:\tESPLANADE DU\tESPLANADE DU\tTYPE\tDET_PRE",
  c!"LEXENTRY:\tEV\tEV\tPLACEN\tDETACH",
  c!"LEXENTRY:\tFAUBOURG\tFAUBOURG\tTYPE\tDET_PRE",
  c!"LEXENTRY:\tFAUBOURG DE\tFAUBOURG DE\tTYPE\tDET_PRE",
  c!"LEXENTRY:\tFAUBOURG DE L'\tFAUBOURG DE L'\tTYPE\tATT_PRE",
  c!"LEXENTRY:\tFAUBOURG DE LA\tFAUBOURG DE LA\tTYPE\tDET_PRE",
  c!"LEXENTRY:\tFAUBOURG DES\tFAUBOURG DES\tTYPE\tDET_PRE",
  c!"LEXENTRY:\tFAUBOURG DU\tFAUBOURG DU\tTYPE\tDET_PRE",
  c!"LEXENTRY:\tFELD\tFELD\tTYPE\tATT_SUF,DET_SUF",
  c!"LEXENTRY:\tFIRMA\tFIRMA\tPLACEN\tDETACH",
  c!"LEXENTRY:\tFR\tFR\tPROV\tDETACH",
  c!"LEXENTRY:\tFRIBOURG\tFR\tPROV\tDETACH",
  c!"LEXENTRY:\tGALERIE\tGALERIE\tTYPE\tDET_PRE",
  c!"LEXENTRY:\tGALERIE DE\tGALERIE DE\tTYPE\tDET_PRE",
  c!"LEXENTRY:\tGALLERIA\tGALLERIA\tTYPE\tDET_PRE",
  c!"LEXENTRY:\tGALLERIA DEL\tGALLERIA DEL\tTYPE\tDET_PRE",
  c!"LEXENTRY:\tGANG\tGANG\tTYPE\tATT_SUF",
  c!"LEXENTRY:\tGARTEN\tGARTEN\tTYPE\tATT_SUF,DET_SUF",
  c!"LEXENTRY:\tGASSE\tGASSE\tTYPE\tATT_SUF,DET_SUF",
  c!"LEXENTRY:\tGBR\tGBR\tPLACEN\tDETACH",
  c!"LEXENTRY:\tGE\tGE\tPROV\tDETACH",
  c!"LEXENTRY:\tGENEVA\tGE\tPROV\tDETACH",
  c!"LEXENTRY:\tGENEVA\tGENEVA\tCITY\tDETACH",
  c!"LEXENTRY:\tGENOSSENSCHAFT\tGENOSSENSCHAFT\tPLACEN\tDETACH",
  c!"LEXENTRY:\tGESELLSCHAFT\tGESELLSCHAFT\tPLACEN\tDETACH",
  c!"LEXENTRY:\tGIARDINI\tGIARDINI\tTYPE\tDET_PRE"]

/-- data/sample/switzerland.lex:252-301 -/
def entries5 : List Str := [
  c!"LEXENTRY:\tGL\tGL\tPROV\tDETACH",
  c!"LEXENTRY:\tGLARUS\tGL\tPROV\tDETACH",
  c!"LEXENTRY:\tGMBH\tGMBH\tPLACEN\tDETACH",
  c!"LEXENTRY:\tGR\tGR\tPROV\tDETACH",
  c!"LEXENTRY:\tGRABEN\tGRABEN\tTYPE\tATT_SUF,DET_SUF",
  c!"LEXENTRY:\tGRAUBUNDEN\tGR\tPROV\tDETACH",
  c!"LEXENTRY:\tGÄSSCHEN\tGÄSSCHEN\tTYPE\tATT_SUF",
  c!"LEXENTRY:\tHAMEAU\tHAMEAU\tTYPE\tDET_PRE",
  c!"LEXENTRY:\tHAMEAU DE\tHAMEAU DE\tTYPE\tDET_PRE",
  c!"LEXENTRY:\tHANDELSGESELLSCHAFT\tHANDELSGESELLSCHAFT\tPLACEN\tDETACH",
  c!"LEXENTRY:\tHEIDE\tHEIDE\tTYPE\tDET_SUF",
  c!"LEXENTRY:\tHOF\tHOF\tTYPE\tATT_SUF,DET_SUF",
  c!"LEXENTRY:\tHORST\tHORST\tTYPE\tDET_SUF",
  c!"LEXENTRY:\tHÖHE\tHÖHE\tTYPE\tATT_SUF,DET_SUF",
  c!"LEXENTRY:\tIMP\tIMPASSE\tTYPE\tDET_PRE",
  c!"LEXENTRY:\tIMP DE\tIMPASSE DE\tTYPE\tDET_PRE",
  c!"LEXENTRY:\tIMP DE LA\tIMPASSE DE LA\tTYPE\tDET_PRE",
  c!"LEXENTRY:\tIMP DES\tIMPASSE DES\tTYPE\tDET_PRE",
  c!"LEXENTRY:\tIMP DU\tIMPASSE DU\tTYPE\tDET_PRE",
  c!"LEXENTRY:\tIMP.\tIMPASSE\tTYPE\tDET_PRE",
  c!"LEXENTRY:\tIMP. DE\tIMPASSE DE\tTYPE\tDET_PRE",
  c!"LEXENTRY:\tIMP. DE LA\tIMPASSE DE LA\tTYPE\tDET_PRE",
  c!"LEXENTRY:\tIMP. DES\tIMPASSE DES\tTYPE\tDET_PRE",
  c!"LEXENTRY:\tIMP. DU\tIMPASSE DU\tTYPE\tDET_PRE",
  c!"LEXENTRY:\tIMPASSE\tIMPASSE\tTYPE\tDET_PRE",
  c!"LEXENTRY:\tIMPASSE DE\tIMPASSE DE\tTYPE\tDET_PRE",
  c!"LEXENTRY:\tIMPASSE DE L'\tIMPASSE DE L'\tTYPE\tATT_PRE",
  c!"LEXENTRY:\tIMPASSE DE LA\tIMPASSE DE LA\tTYPE\tDET_PRE",
  c!"LEXENTRY:\tIMPASSE DES\tIMPASSE DES\tTYPE\tDET_PRE",
  c!"LEXENTRY:\tIMPASSE DU\tIMPASSE DU\tTYPE\tDET_PRE",
  c!"LEXENTRY:\tJARDIN\tJARDIN\tTYPE\tDET_PRE",
  c!"LEXENTRY:\tJETÉE D'\tJETÉE D'\tTYPE\tATT_PRE",
  c!"LEXENTRY:\tJETÉE DE LA\tJETÉE DE LA\tTYPE\tDET_PRE",
  c!"LEXENTRY:\tJETÉE DES\tJETÉE DES\tTYPE\tDET_PRE",
  c!"LEXENTRY:\tJU\tJU\tPROV\tDETACH",
  c!"LEXENTRY:\tJURA\tJU\tPROV\tDETACH",
  c!"LEXENTRY:\tKAI\tKAI\tTYPE\tDET_SUF",
  c!"LEXENTRY:\tKANAL\tKANAL\tTYPE\tDET_SUF",
  c!"LEXENTRY:\tKG\tKG\tPLACEN\tDETACH",
  c!"LEXENTRY:\tKGAA\tKGAA\tPLACEN\tDETACH",
  c!"LEXENTRY:\tKOMMANDITGESELLSCHAFT\tKOMMANDITGESELLSCHAFT\tPLACEN\tDETACH",
  c!"LEXENTRY:\tLANDSTRASSE\tLANDSTRASSE\tTYPE\tDET_SUF",
  c!"LEXENTRY:\tLARGO\tLARGO\tTYPE\tDET_PRE",
  c!"LEXENTRY:\tLE CLOS DE\tLE CLOS DE\tTYPE\tDET_PRE",
  c!"LEXENTRY:\tLE CLOS DU\tLE CLOS DU\tTYPE\tDET_PRE",
  c!"LEXENTRY:\tLES JARDINS\tLES JARDINS\tTYPE\tDET_PRE",
  c!"LEXENTRY:\tLGO\tLARGO\tTYPE\tDET_PRE",
  c!"LEXENTRY:\tLGO.\tLARGO\tTYPE\tDET_PRE",
  c!"LEXENTRY:\tLU\tLU\tPROV\tDETACH",
  c!"LEXENTRY:\tLUZERN\tLU\tPROV\tDETACH"]

/-- data/sample/switzerland.lex:302-351 -/
def entries6 : List Str := [
  c!"LEXENTRY:\tMARKT\tMARKT\tTYPE\tATT_SUF,DET_SUF",
  c!"LEXENTRY:\tMBH\tMBH\tPLACEN\tDETACH",
  c!"LEXENTRY:\tMONT\tMONTÉE\tTYPE\tDET_PRE",
  c!"LEXENTRY:\tMONT DES\tMONTÉE DES\tTYPE\tDET_PRE",
  c!"LEXENTRY:\tMONT DU\tMONTÉE DU\tTYPE\tDET_PRE",
  c!"LEXENTRY:\tMONTAGNE\tMONTÉE\tTYPE\tDET_PRE",
  c!"LEXENTRY:\tMONTAGNE DES\tMONTÉE DES\tTYPE\tDET_PRE",
  c!"LEXENTRY:\tMONTAGNE DU\tMONTÉE DU\tTYPE\tDET_PRE",
  c!"LEXENTRY:\tMONTÉE\tMONTÉE\tTYPE\tDET_PRE",
  c!"LEXENTRY:\tMONTÉE DES\tMONTÉE DES\tTYPE\tDET_PRE",
  c!"LEXENTRY:\tMONTÉE DU\tMONTÉE DU\tTYPE\tDET_PRE",
  c!"LEXENTRY:\tMT\tMONTÉE\tTYPE\tDET_PRE",
  c!"LEXENTRY:\tMT DES\tMONTÉE DES\tTYPE\tDET_PRE",
  c!"LEXENTRY:\tMT DU\tMONTÉE DU\tTYPE\tDET_PRE",
  c!"LEXENTRY:\tMT.\tMONTÉE\tTYPE\tDET_PRE",
  c!"LEXENTRY:\tMT. DES\tMONTÉE DES\tTYPE\tDET_PRE",
  c!"LEXENTRY:\tMT. DU\tMONTÉE DU\tTYPE\tDET_PRE",
  c!"LEXENTRY:\tNE\tNE\tPROV\tDETACH",
  c!"LEXENTRY:\tNEUCHÂTEL\tNE\tPROV\tDETACH",
  c!"LEXENTRY:\tNIDWALDEN\tNW\tPROV\tDETACH",
  c!"LEXENTRY:\tNW\tNW\tPROV\tDETACH",
  c!"LEXENTRY:\tOBWALDEN\tOW\tPROV\tDETACH",
  c!"LEXENTRY:\tOHG\tOHG\tPLACEN\tDETACH",
  c!"LEXENTRY:\tOW\tOW\tPROV\tDETACH",
  c!"LEXENTRY:\tP.\tPIAZZA\tTYPE\tDET_PRE",
  c!"LEXENTRY:\tP.LE\tPIAZZALE\tTYPE\tDET_PRE",
  c!"LEXENTRY:\tP.LE.\tPIAZZALE\tTYPE\tDET_PRE",
  c!"LEXENTRY:\tP.ZA\tPIAZZA\tTYPE\tDET_PRE",
  c!"LEXENTRY:\tP.ZA.\tPIAZZA\tTYPE\tDET_PRE",
  c!"LEXENTRY:\tPARC\tPARC\tTYPE\tDET_PRE",
  c!"LEXENTRY:\tPARC DES\tPARC DES\tTYPE\tDET_PRE",
  c!"LEXENTRY:\tPARC DU\tPARC DU\tTYPE\tDET_PRE",
  c!"LEXENTRY:\tPARK\tPARK\tTYPE\tATT_SUF,DET_SUF",
  c!"LEXENTRY:\tPASSAGE\tPASSAGE\tTYPE\tATT_SUF,DET_PRE,DET_SUF",
  c!"LEXENTRY:\tPASSAGE DE\tPASSAGE DE\tTYPE\tDET_PRE",
  c!"LEXENTRY:\tPASSAGE DE L'\tPASSAGE DE L'\tTYPE\tATT_PRE",
  c!"LEXENTRY:\tPASSAGE DE LA\tPASSAGE DE LA\tTYPE\tDET_PRE",
  c!"LEXENTRY:\tPASSAGE DES\tPASSAGE DES\tTYPE\tDET_PRE",
  c!"LEXENTRY:\tPASSAGE DU\tPASSAGE DU\tTYPE\tDET_PRE",
  c!"LEXENTRY:\tPASSAGGIO\tPASSAGGIO\tTYPE\tDET_PRE",
  c!"LEXENTRY:\tPASSEGGIATA\tPASSEGGIATA\tTYPE\tDET_PRE",
  c!"LEXENTRY:\tPASSERELLE\tPASSERELLE\tTYPE\tDET_PRE",
  c!"LEXENTRY:\tPASSERELLE DE\tPASSERELLE DE\tTYPE\tDET_PRE",
  c!"LEXENTRY:\tPASSERELLE DE L'\tPASSERELLE DE L'\tTYPE\tATT_PRE",
  c!"LEXENTRY:\tPASSERELLE DE LA\tPASSERELLE DE LA\tTYPE\tDET_PRE",
  c!"LEXENTRY:\tPASSERELLE DES\tPASSERELLE DES\tTYPE\tDET_PRE",
  c!"LEXENTRY:\tPASSERELLE DU\tPASSERELLE DU\tTYPE\tDET_PRE",
  c!"LEXENTRY:\tPASSO DEL\tPASSO DEL\tTYPE\tDET_PRE",
  c!"LEXENTRY:\tPASSO DELLA\tPASSO DELLA\tTYPE\tDET_PRE",
  c!"LEXENTRY:\tPATT\tPATT\tTYPE\tATT_SUF"]

/-- data/sample/switzerland.lex:352-401 -/
def entries7 : List Str := [
  c!"LEXENTRY:\tPF\tPostfach\tBOXH\tDETACH",
  c!"LEXENTRY:\tPFAD\tPFAD\tTYPE\tATT_SUF",
  c!"LEXENTRY:\tPIANO DI\tPIANO DI\tTYPE\tDET_PRE",
  c!"LEXENTRY:\tPIAZZA\tPIAZZA\tTYPE\tDET_PRE",
  c!"LEXENTRY:\tPIAZZA DEI\tPIAZZA DEI\tTYPE\tDET_PRE",
  c!"LEXENTRY:\tPIAZZA DEL\tPIAZZA DEL\tTYPE\tDET_PRE",
  c!"LEXENTRY:\tPIAZZA DELLA\tPIAZZA DELLA\tTYPE\tDET_PRE",
  c!"LEXENTRY:\tPIAZZA DELLE\tPIAZZA DELLE\tTYPE\tDET_PRE",
  c!"LEXENTRY:\tPIAZZA DI\tPIAZZA DI\tTYPE\tDET_PRE",
  c!"LEXENTRY:\tPIAZZALE\tPIAZZALE\tTYPE\tDET_PRE",
  c!"LEXENTRY:\tPIAZZALE DEI\tPIAZZALE DEI\tTYPE\tDET_PRE",
  c!"LEXENTRY:\tPIAZZALE DELLA\tPIAZZALE DELLA\tTYPE\tDET_PRE",
  c!"LEXENTRY:\tPIAZZALE DI\tPIAZZALE DI\tTYPE\tDET_PRE",
  c!"LEXENTRY:\tPIAZZETTA\tPIAZZETTA\tTYPE\tDET_PRE",
  c!"LEXENTRY:\tPIAZZETTA DEI\tPIAZZETTA DEI\tTYPE\tDET_PRE",
  c!"LEXENTRY:\tPIAZZETTA DEL\tPIAZZETTA DEL\tTYPE\tDET_PRE",
  c!"LEXENTRY:\tPIAZZETTA DELLA\tPIAZZETTA DELLA\tTYPE\tDET_PRE",
  c!"LEXENTRY:\tPIAZZETTA DI\tPIAZZETTA DI\tTYPE\tDET_PRE",
  c!"LEXENTRY:\tPL\tPLACE\tTYPE\tDET_PRE",
  c!"LEXENTRY:\tPL\tPLATZ\tTYPE\tDET_SUF",
  c!"LEXENTRY:\tPL DE\tPLACE DE\tTYPE\tDET_PRE",
  c!"LEXENTRY:\tPL DE LA\tPLACE DE LA\tTYPE\tDET_PRE",
  c!"LEXENTRY:\tPL DES\tPLACE DES\tTYPE\tDET_PRE",
  c!"LEXENTRY:\tPL DU\tPLACE DU\tTYPE\tDET_PRE",
  c!"LEXENTRY:\tPL.\tPLACE\tTYPE\tDET_PRE",
  c!"LEXENTRY:\tPL.\tPLATZ\tTYPE\tATT_SUF,DET_SUF",
  c!"LEXENTRY:\tPL. DE\tPLACE DE\tTYPE\tDET_PRE",
  c!"LEXENTRY:\tPL. DE LA\tPLACE DE LA\tTYPE\tDET_PRE",
  c!"LEXENTRY:\tPL. DES\tPLACE DES\tTYPE\tDET_PRE",
  c!"LEXENTRY:\tPL. DU\tPLACE DU\tTYPE\tDET_PRE",
  c!"LEXENTRY:\tPLACE\tPLACE\tTYPE\tDET_PRE",
  c!"LEXENTRY:\tPLACE D'\tPLACE D'\tTYPE\tATT_PRE",
  c!"LEXENTRY:\tPLACE DE\tPLACE DE\tTYPE\tDET_PRE",
  c!"LEXENTRY:\tPLACE DE L'\tPLACE DE L'\tTYPE\tATT_PRE",
  c!"LEXENTRY:\tPLACE DE LA\tPLACE DE LA\tTYPE\tDET_PRE",
  c!"LEXENTRY:\tPLACE DES\tPLACE DES\tTYPE\tDET_PRE",
  c!"LEXENTRY:\tPLACE DU\tPLACE DU\tTYPE\tDET_PRE",
  c!"LEXENTRY:\tPLACETTE\tPLACETTE\tTYPE\tDET_PRE",
  c!"LEXENTRY:\tPLACETTE DU\tPLACETTE DU\tTYPE\tDET_PRE",
  c!"LEXENTRY:\tPLAINE D'\tPLAINE D'\tTYPE\tATT_PRE",
  c!"LEXENTRY:\tPLAINE DE\tPLAINE DE\tTYPE\tDET_PRE",
  c!"LEXENTRY:\tPLATEAU DE\tPLATEAU DE\tTYPE\tDET_PRE",
  c!"LEXENTRY:\tPLATZ\tPLATZ\tTYPE\tATT_SUF,DET_SUF",
  c!"LEXENTRY:\tPONT\tPONT\tTYPE\tDET_PRE",
  c!"LEXENTRY:\tPONT D'\tPONT D'\tTYPE\tATT_PRE",
  c!"LEXENTRY:\tPONT DE\tPONT DE\tTYPE\tDET_PRE",
  c!"LEXENTRY:\tPONT DE L'\tPONT DE L'\tTYPE\tATT_PRE",
  c!"LEXENTRY:\tPONT DE LA\tPONT DE LA\tTYPE\tDET_PRE",
  c!"LEXENTRY:\tPONT DES\tPONT DES\tTYPE\tDET_PRE",
  c!"LEXENTRY:\tPONT DU\tPONT DU\tTYPE\tDET_PRE"]

/-- data/sample/switzerland.lex:402-451 -/
def entries8 : List Str := [
  c!"LEXENTRY:\tPONTE\tPONTE\tTYPE\tDET_PRE",
  c!"LEXENTRY:\tPORT DE\tPORT DE\tTYPE\tDET_PRE",
  c!"LEXENTRY:\tPORT À\tPORT À\tTYPE\tDET_PRE",
  c!"LEXENTRY:\tPORTE DE\tPORTE DE\tTYPE\tDET_PRE",
  c!"LEXENTRY:\tPORTE DU\tPORTE DU\tTYPE\tDET_PRE",
  c!"LEXENTRY:\tPROMENADE\tPROMENADE\tTYPE\tATT_SUF,DET_PRE,DET_SUF",
  c!"LEXENTRY:\tPROMENADE D'\tPROMENADE D'\tTYPE\tATT_PRE",
  c!"LEXENTRY:\tPROMENADE DE\tPROMENADE DE\tTYPE\tDET_PRE",
  c!"LEXENTRY:\tPROMENADE DE L'\tPROMENADE DE L'\tTYPE\tATT_PRE",
  c!"LEXENTRY:\tPROMENADE DE LA\tPROMENADE DE LA\tTYPE\tDET_PRE",
  c!"LEXENTRY:\tPROMENADE DES\tPROMENADE DES\tTYPE\tDET_PRE",
  c!"LEXENTRY:\tPROMENADE DU\tPROMENADE DU\tTYPE\tDET_PRE",
  c!"LEXENTRY:\tPostfach\tPostfach\tBOXH\tDETACH",
  c!"LEXENTRY:\tQU\tQUARTIER\tTYPE\tDET_PRE",
  c!"LEXENTRY:\tQU DE\tQUARTIER DE\tTYPE\tDET_PRE",
  c!"LEXENTRY:\tQU DE LA\tQUARTIER DE LA\tTYPE\tDET_PRE",
  c!"LEXENTRY:\tQU DES\tQUARTIER DES\tTYPE\tDET_PRE",
  c!"LEXENTRY:\tQU DU\tQUARTIER DU\tTYPE\tDET_PRE",
  c!"LEXENTRY:\tQU.\tQUARTIER\tTYPE\tDET_PRE",
  c!"LEXENTRY:\tQU. DE\tQUARTIER DE\tTYPE\tDET_PRE",
  c!"LEXENTRY:\tQU. DE LA\tQUARTIER DE LA\tTYPE\tDET_PRE",
  c!"LEXENTRY:\tQU. DES\tQUARTIER DES\tTYPE\tDET_PRE",
  c!"LEXENTRY:\tQU. DU\tQUARTIER DU\tTYPE\tDET_PRE",
  c!"LEXENTRY:\tQUAI\tQUAI\tTYPE\tDET_PRE",
  c!"LEXENTRY:\tQUAI D'\tQUAI D'\tTYPE\tATT_PRE",
  c!"LEXENTRY:\tQUAI DE\tQUAI DE\tTYPE\tDET_PRE",
  c!"LEXENTRY:\tQUAI DE L'\tQUAI DE L'\tTYPE\tATT_PRE",
  c!"LEXENTRY:\tQUAI DE LA\tQUAI DE LA\tTYPE\tDET_PRE",
  c!"LEXENTRY:\tQUAI DES\tQUAI DES\tTYPE\tDET_PRE",
  c!"LEXENTRY:\tQUAI DU\tQUAI DU\tTYPE\tDET_PRE",
  c!"LEXENTRY:\tQUARTIER\tQUARTIER\tTYPE\tDET_PRE",
  c!"LEXENTRY:\tQUARTIER DE\tQUARTIER DE\tTYPE\tDET_PRE",
  c!"LEXENTRY:\tQUARTIER DE LA\tQUARTIER DE LA\tTYPE\tDET_PRE",
  c!"LEXENTRY:\tQUARTIER DES\tQUARTIER DES\tTYPE\tDET_PRE",
  c!"LEXENTRY:\tQUARTIER DU\tQUARTIER DU\tTYPE\tDET_PRE",
  c!"LEXENTRY:\tR\tRUE\tTYPE\tDET_PRE",
  c!"LEXENTRY:\tR DE\tRUE DE\tTYPE\tDET_PRE",
  c!"LEXENTRY:\tR DE LA\tRUE DE LA\tTYPE\tDET_PRE",
  c!"LEXENTRY:\tR DES\tRUE DES\tTYPE\tDET_PRE",
  c!"LEXENTRY:\tR DU\tRUE DU\tTYPE\tDET_PRE",
  c!"LEXENTRY:\tR LE\tRUE LE\tTYPE\tDET_PRE",
  c!"LEXENTRY:\tR À\tRUE À\tTYPE\tDET_PRE",
  c!"LEXENTRY:\tR.\tRUE\tTYPE\tDET_PRE",
  c!"LEXENTRY:\tR. DE\tRUE DE\tTYPE\tDET_PRE",
  c!"LEXENTRY:\tR. DE LA\tRUE DE LA\tTYPE\tDET_PRE",
  c!"LEXENTRY:\tR. DES\tRUE DES\tTYPE\tDET_PRE",
  c!"LEXENTRY:\tR. DU\tRUE DU\tTYPE\tDET_PRE",
  c!"LEXENTRY:\tR. LE\tRUE LE\tTYPE\tDET_PRE",
  c!"LEXENTRY:\tR. À\tRUE À\tTYPE\tDET_PRE",
  c!"LEXENTRY:\tRAMPE\tRAMPE\tTYPE\tDET_PRE"]

/-- data/sample/switzerland.lex:452-501 -/
def entries9 : List Str := [
  c!"LEXENTRY:\tRAMPE DE\tRAMPE DE\tTYPE\tDET_PRE",
  c!"LEXENTRY:\tRAMPE DE LA\tRAMPE DE LA\tTYPE\tDET_PRE",
  c!"LEXENTRY:\tRAMPE DU\tRAMPE DU\tTYPE\tDET_PRE",
  c!"LEXENTRY:\tREMPART DU\tREMPART DU\tTYPE\tDET_PRE",
  c!"LEXENTRY:\tRING\tRING\tTYPE\tATT_SUF,DET_SUF",
  c!"LEXENTRY:\tRIVA\tRIVA\tTYPE\tDET_PRE",
  c!"LEXENTRY:\tROCADE\tROCADE\tTYPE\tDET_PRE",
  c!"LEXENTRY:\tROND-POINT\tROND-POINT\tTYPE\tDET_PRE",
  c!"LEXENTRY:\tROND-POINT DE\tROND-POINT DE\tTYPE\tDET_PRE",
  c!"LEXENTRY:\tROND-POINT DES\tROND-POINT DES\tTYPE\tDET_PRE",
  c!"LEXENTRY:\tROND-POINT DU\tROND-POINT DU\tTYPE\tDET_PRE",
  c!"LEXENTRY:\tROUTE\tROUTE\tTYPE\tDET_PRE",
  c!"LEXENTRY:\tROUTE AUX\tROUTE AUX\tTYPE\tDET_PRE",
  c!"LEXENTRY:\tROUTE D'\tROUTE D'\tTYPE\tATT_PRE",
  c!"LEXENTRY:\tROUTE DE\tROUTE DE\tTYPE\tDET_PRE",
  c!"LEXENTRY:\tROUTE DE L'\tROUTE DE L'\tTYPE\tATT_PRE",
  c!"LEXENTRY:\tROUTE DE LA\tROUTE DE LA\tTYPE\tDET_PRE",
  c!"LEXENTRY:\tROUTE DES\tROUTE DES\tTYPE\tDET_PRE",
  c!"LEXENTRY:\tROUTE DU\tROUTE DU\tTYPE\tDET_PRE",
  c!"LEXENTRY:\tROUTE À\tROUTE À\tTYPE\tDET_PRE",
  c!"LEXENTRY:\tRTE\tROUTE\tTYPE\tDET_PRE",
  c!"LEXENTRY:\tRTE AUX\tROUTE AUX\tTYPE\tDET_PRE",
  c!"LEXENTRY:\tRTE DE\tROUTE DE\tTYPE\tDET_PRE",
  c!"LEXENTRY:\tRTE DE LA\tROUTE DE LA\tTYPE\tDET_PRE",
  c!"LEXENTRY:\tRTE DES\tROUTE DES\tTYPE\tDET_PRE",
  c!"LEXENTRY:\tRTE DU\tROUTE DU\tTYPE\tDET_PRE",
  c!"LEXENTRY:\tRTE À\tROUTE À\tTYPE\tDET_PRE",
  c!"LEXENTRY:\tRTE.\tROUTE\tTYPE\tDET_PRE",
  c!"LEXENTRY:\tRTE. AUX\tROUTE AUX\tTYPE\tDET_PRE",
  c!"LEXENTRY:\tRTE. DE\tROUTE DE\tTYPE\tDET_PRE",
  c!"LEXENTRY:\tRTE. DE LA\tROUTE DE LA\tTYPE\tDET_PRE",
  c!"LEXENTRY:\tRTE. DES\tROUTE DES\tTYPE\tDET_PRE",
  c!"LEXENTRY:\tRTE. DU\tROUTE DU\tTYPE\tDET_PRE",
  c!"LEXENTRY:\tRTE. À\tROUTE À\tTYPE\tDET_PRE",
  c!"LEXENTRY:\tRUE\tRUE\tTYPE\tDET_PRE",
  c!"LEXENTRY:\tRUE D'\tRUE D'\tTYPE\tATT_PRE",
  c!"LEXENTRY:\tRUE DE\tRUE DE\tTYPE\tDET_PRE",
  c!"LEXENTRY:\tRUE DE L'\tRUE DE L'\tTYPE\tATT_PRE",
  c!"LEXENTRY:\tRUE DE LA\tRUE DE LA\tTYPE\tDET_PRE",
  c!"LEXENTRY:\tRUE DES\tRUE DES\tTYPE\tDET_PRE",
  c!"LEXENTRY:\tRUE DU\tRUE DU\tTYPE\tDET_PRE",
  c!"LEXENTRY:\tRUE L'\tRUE L'\tTYPE\tATT_PRE",
  c!"LEXENTRY:\tRUE LE\tRUE LE\tTYPE\tDET_PRE",
  c!"LEXENTRY:\tRUE À\tRUE À\tTYPE\tDET_PRE",
  c!"LEXENTRY:\tRUELLE\tRUELLE\tTYPE\tDET_PRE",
  c!"LEXENTRY:\tRUELLE AUX\tRUELLE AUX\tTYPE\tDET_PRE",
  c!"LEXENTRY:\tRUELLE DE\tRUELLE DE\tTYPE\tDET_PRE",
  c!"LEXENTRY:\tRUELLE DE L'\tRUELLE DE L'\tTYPE\tATT_PRE",
  c!"LEXENTRY:\tRUELLE DE LA\tRUELLE DE LA\tTYPE\tDET_PRE",
  c!"LEXENTRY:\tRUELLE DES\tRUELLE DES\tTYPE\tDET_PRE"]

/-- data/sample/switzerland.lex:502-551 -/
def entries10 : List Str := [
  c!"LEXENTRY:\tRUELLE DU\tRUELLE DU\tTYPE\tDET_PRE",
  c!"LEXENTRY:\tRUELLE À\tRUELLE À\tTYPE\tDET_PRE",
  c!"LEXENTRY:\tRÉSIDENCE\tRÉSIDENCE\tTYPE\tDET_PRE",
  c!"LEXENTRY:\tRÉSIDENCE DE LA\tRÉSIDENCE DE LA\tTYPE\tDET_PRE",
  c!"LEXENTRY:\tRÉSIDENCE DES\tRÉSIDENCE DES\tTYPE\tDET_PRE",
  c!"LEXENTRY:\tSALITA\tSALITA\tTYPE\tDET_PRE",
  c!"LEXENTRY:\tSALITA AI\tSALITA AI\tTYPE\tDET_PRE",
  c!"LEXENTRY:\tSALITA AL\tSALITA AL\tTYPE\tDET_PRE",
  c!"LEXENTRY:\tSALITA ALLA\tSALITA ALLA\tTYPE\tDET_PRE",
  c!"LEXENTRY:\tSALITA ALLE\tSALITA ALLE\tTYPE\tDET_PRE",
  c!"LEXENTRY:\tSALITA DEGLI\tSALITA DEGLI\tTYPE\tDET_PRE",
  c!"LEXENTRY:\tSALITA DEI\tSALITA DEI\tTYPE\tDET_PRE",
  c!"LEXENTRY:\tSALITA DEL\tSALITA DEL\tTYPE\tDET_PRE",
  c!"LEXENTRY:\tSALITA DELLA\tSALITA DELLA\tTYPE\tDET_PRE",
  c!"LEXENTRY:\tSALITA DELLE\tSALITA DELLE\tTYPE\tDET_PRE",
  c!"LEXENTRY:\tSALITA DI\tSALITA DI\tTYPE\tDET_PRE",
  c!"LEXENTRY:\tSANKT GALLEN\tSG\tPROV\tDETACH",
  c!"LEXENTRY:\tSCALETTA\tSCALETTA\tTYPE\tDET_PRE",
  c!"LEXENTRY:\tSCALINATA\tSCALINATA\tTYPE\tDET_PRE",
  c!"LEXENTRY:\tSCALINATA DEI\tSCALINATA DEI\tTYPE\tDET_PRE",
  c!"LEXENTRY:\tSCALINATA DEL\tSCALINATA DEL\tTYPE\tDET_PRE",
  c!"LEXENTRY:\tSCALINATA DELL'\tSCALINATA DELL'\tTYPE\tATT_PRE",
  c!"LEXENTRY:\tSCALINATA DELLA\tSCALINATA DELLA\tTYPE\tDET_PRE",
  c!"LEXENTRY:\tSCHAFFHAUSEN\tSH\tPROV\tDETACH",
  c!"LEXENTRY:\tSCHWEIZ\tSWITZERLAND\tNATION\tDETACH",
  c!"LEXENTRY:\tSCHWYZ\tSZ\tPROV\tDETACH",
  c!"LEXENTRY:\tSENTIER\tSENTIER\tTYPE\tDET_PRE",
  c!"LEXENTRY:\tSENTIER D'\tSENTIER D'\tTYPE\tATT_PRE",
  c!"LEXENTRY:\tSENTIER DE\tSENTIER DE\tTYPE\tDET_PRE",
  c!"LEXENTRY:\tSENTIER DE L'\tSENTIER DE L'\tTYPE\tATT_PRE",
  c!"LEXENTRY:\tSENTIER DE LA\tSENTIER DE LA\tTYPE\tDET_PRE",
  c!"LEXENTRY:\tSENTIER DES\tSENTIER DES\tTYPE\tDET_PRE",
  c!"LEXENTRY:\tSENTIER DU\tSENTIER DU\tTYPE\tDET_PRE",
  c!"LEXENTRY:\tSENTIERO\tSENTIERO\tTYPE\tDET_PRE",
  c!"LEXENTRY:\tSENTIERO DEL\tSENTIERO DEL\tTYPE\tDET_PRE",
  c!"LEXENTRY:\tSENTIERS DES\tSENTIERS DES\tTYPE\tDET_PRE",
  c!"LEXENTRY:\tSG\tSG\tPROV\tDETACH",
  c!"LEXENTRY:\tSH\tSH\tPROV\tDETACH",
  c!"LEXENTRY:\tSO\tSO\tPROV\tDETACH",
  c!"LEXENTRY:\tSOLOTHURN\tSO\tPROV\tDETACH",
  c!"LEXENTRY:\tSOTTOPASSAGGIO\tSOTTOPASSAGGIO\tTYPE\tDET_PRE",
  c!"LEXENTRY:\tSQ\tSQUARE\tTYPE\tDET_PRE",
  c!"LEXENTRY:\tSQ DE\tSQUARE DE\tTYPE\tDET_PRE",
  c!"LEXENTRY:\tSQ DE LA\tSQUARE DE LA\tTYPE\tDET_PRE",
  c!"LEXENTRY:\tSQ DES\tSQUARE DES\tTYPE\tDET_PRE",
  c!"LEXENTRY:\tSQ DU\tSQUARE DU\tTYPE\tDET_PRE",
  c!"LEXENTRY:\tSQ.\tSQUARE\tTYPE\tDET_PRE",
  c!"LEXENTRY:\tSQ. DE\tSQUARE DE\tTYPE\tDET_PRE",
  c!"LEXENTRY:\tSQ. DE LA\tSQUARE DE LA\tTYPE\tDET_PRE",
  c!"LEXENTRY:\tSQ. DES\tSQUARE DES\tTYPE\tDET_PRE"]

/-- data/sample/switzerland.lex:552-601 -/
def entries11 : List Str := [
  c!"LEXENTRY:\tSQ. DU\tSQUARE DU\tTYPE\tDET_PRE",
  c!"LEXENTRY:\tSQUARE\tSQUARE\tTYPE\tDET_PRE",
  c!"LEXENTRY:\tSQUARE DE\tSQUARE DE\tTYPE\tDET_PRE",
  c!"LEXENTRY:\tSQUARE DE L'\tSQUARE DE L'\tTYPE\tATT_PRE",
  c!"LEXENTRY:\tSQUARE DE LA\tSQUARE DE LA\tTYPE\tDET_PRE",
  c!"LEXENTRY:\tSQUARE DES\tSQUARE DES\tTYPE\tDET_PRE",
  c!"LEXENTRY:\tSQUARE DU\tSQUARE DU\tTYPE\tDET_PRE",
  c!"LEXENTRY:\tSTAFFEL\tSTAFFEL\tTYPE\tATT_SUF,DET_SUF",
  c!"LEXENTRY:\tSTEG\tSTEG\tTYPE\tATT_SUF,DET_SUF",
  c!"LEXENTRY:\tSTEIG\tSTEIG\tTYPE\tATT_SUF,DET_SUF",
  c!"LEXENTRY:\tSTEIN\tSTEIN\tTYPE\tATT_SUF,DET_SUF",
  c!"LEXENTRY:\tSTIEG\tSTIEG\tTYPE\tATT_SUF,DET_SUF",
  c!"LEXENTRY:\tSTIEGE\tSTIEGE\tTYPE\tATT_SUF,DET_SUF",
  c!"LEXENTRY:\tSTIFTUNG\tSTIFTUNG\tPLACEN\tDETACH",
  c!"LEXENTRY:\tSTR\tSTRASSE\tTYPE\tATT_SUF,DET_PRE,DET_SUF",
  c!"LEXENTRY:\tSTR.\tSTRASSE\tTYPE\tATT_SUF,DET_PRE,DET_SUF",
  c!"LEXENTRY:\tSTRADA\tSTRADA\tTYPE\tDET_PRE",
  c!"LEXENTRY:\tSTRADA AI\tSTRADA AI\tTYPE\tDET_PRE",
  c!"LEXENTRY:\tSTRADA ANTICA\tSTRADA ANTICA\tTYPE\tDET_PRE",
  c!"LEXENTRY:\tSTRADA DA\tSTRADA DA\tTYPE\tDET_PRE",
  c!"LEXENTRY:\tSTRADA DAL\tSTRADA DAL\tTYPE\tDET_PRE",
  c!"LEXENTRY:\tSTRADA DEGLI\tSTRADA DEGLI\tTYPE\tDET_PRE",
  c!"LEXENTRY:\tSTRADA DEI\tSTRADA DEI\tTYPE\tDET_PRE",
  c!"LEXENTRY:\tSTRADA DEL\tSTRADA DEL\tTYPE\tDET_PRE",
  c!"LEXENTRY:\tSTRADA DELL'\tSTRADA DELL'\tTYPE\tATT_PRE",
  c!"LEXENTRY:\tSTRADA DELLA\tSTRADA DELLA\tTYPE\tDET_PRE",
  c!"LEXENTRY:\tSTRADA DELLE\tSTRADA DELLE\tTYPE\tDET_PRE",
  c!"LEXENTRY:\tSTRADA DI\tSTRADA DI\tTYPE\tDET_PRE",
  c!"LEXENTRY:\tSTRADA PER\tSTRADA PER\tTYPE\tDET_PRE",
  c!"LEXENTRY:\tSTRADELLA\tSTRADELLA\tTYPE\tDET_PRE",
  c!"LEXENTRY:\tSTRADONE\tSTRADONE\tTYPE\tDET_PRE",
  c!"LEXENTRY:\tSTRASSE\tSTRASSE\tTYPE\tATT_SUF,DET_PRE,DET_SUF",
  c!"LEXENTRY:\tSUISSE\tSWITZERLAND\tNATION\tDETACH",
  c!"LEXENTRY:\tSUIZA\tSWITZERLAND\tNATION\tDETACH",
  c!"LEXENTRY:\tSUÍÇA\tSWITZERLAND\tNATION\tDETACH",
  c!"LEXENTRY:\tSVEITS\tSWITZERLAND\tNATION\tDETACH",
  c!"LEXENTRY:\tSVEITSI\tSWITZERLAND\tNATION\tDETACH",
  c!"LEXENTRY:\tSVIZZERA\tSWITZERLAND\tNATION\tDETACH",
  c!"LEXENTRY:\tSVYCARSKO\tSWITZERLAND\tNATION\tDETACH",
  c!"LEXENTRY:\tSWITZERLAND\tSWITZERLAND\tNATION\tDETACH",
  c!"LEXENTRY:\tSZ\tSZ\tPROV\tDETACH",
  c!"LEXENTRY:\tTAL\tTAL\tTYPE\tATT_SUF",
  c!"LEXENTRY:\tTERRASSE DE\tTERRASSE DE\tTYPE\tDET_PRE",
  c!"LEXENTRY:\tTG\tTG\tPROV\tDETACH",
  c!"LEXENTRY:\tTHURGAU\tTG\tPROV\tDETACH",
  c!"LEXENTRY:\tTI\tTI\tPROV\tDETACH",
  c!"LEXENTRY:\tTICINO\tTI\tPROV\tDETACH",
  c!"LEXENTRY:\tTOR\tTOR\tTYPE\tATT_SUF",
  c!"LEXENTRY:\tTRAVERSA\tTRAVERSA\tTYPE\tDET_PRE",
  c!"LEXENTRY:\tTREPPE\tTREPPE\tTYPE\tATT_SUF"]

/-- data/sample/switzerland.lex:602-651 -/
def entries12 : List Str := [
  c!"LEXENTRY:\tTUNNEL\tTUNNEL\tTYPE\tATT_SUF,DET_SUF",
  c!"LEXENTRY:\tTUNNEL D'\tTUNNEL D'\tTYPE\tATT_PRE",
  c!"LEXENTRY:\tTUNNEL DE\tTUNNEL DE\tTYPE\tDET_PRE",
  c!"LEXENTRY:\tTUNNEL DE LA\tTUNNEL DE LA\tTYPE\tDET_PRE",
  c!"LEXENTRY:\tTUNNEL DES\tTUNNEL DES\tTYPE\tDET_PRE",
  c!"LEXENTRY:\tTUNNEL DU\tTUNNEL DU\tTYPE\tDET_PRE",
  c!"LEXENTRY:\tUR\tUR\tPROV\tDETACH",
  c!"LEXENTRY:\tURI\tUR\tPROV\tDETACH",
  c!"LEXENTRY:\tV\tVIA\tTYPE\tDET_PRE",
  c!"LEXENTRY:\tV AI\tVIA AI\tTYPE\tDET_PRE",
  c!"LEXENTRY:\tV AL\tVIA AL\tTYPE\tDET_PRE",
  c!"LEXENTRY:\tV ALLA\tVIA ALLA\tTYPE\tDET_PRE",
  c!"LEXENTRY:\tV ALLE\tVIA ALLE\tTYPE\tDET_PRE",
  c!"LEXENTRY:\tV DA\tVIA DA\tTYPE\tDET_PRE",
  c!"LEXENTRY:\tV DAL\tVIA DAL\tTYPE\tDET_PRE",
  c!"LEXENTRY:\tV DEGLI\tVIA DEGLI\tTYPE\tDET_PRE",
  c!"LEXENTRY:\tV DEI\tVIA DEI\tTYPE\tDET_PRE",
  c!"LEXENTRY:\tV DEL\tVIA DEL\tTYPE\tDET_PRE",
  c!"LEXENTRY:\tV DELLA\tVIA DELLA\tTYPE\tDET_PRE",
  c!"LEXENTRY:\tV DELLE\tVIA DELLE\tTYPE\tDET_PRE",
  c!"LEXENTRY:\tV DI\tVIA DI\tTYPE\tDET_PRE",
  c!"LEXENTRY:\tV IN\tVIA IN\tTYPE\tDET_PRE",
  c!"LEXENTRY:\tV PONTE\tVIA PONTE\tTYPE\tDET_PRE",
  c!"LEXENTRY:\tV PRIVATA\tVIA PRIVATA\tTYPE\tDET_PRE",
  c!"LEXENTRY:\tV SOTTO\tVIA SOTTO\tTYPE\tDET_PRE",
  c!"LEXENTRY:\tV SOTTO I\tVIA SOTTO I\tTYPE\tDET_PRE",
  c!"LEXENTRY:\tV.\tVIA\tTYPE\tDET_PRE",
  c!"LEXENTRY:\tV. AI\tVIA AI\tTYPE\tDET_PRE",
  c!"LEXENTRY:\tV. AL\tVIA AL\tTYPE\tDET_PRE",
  c!"LEXENTRY:\tV. ALLA\tVIA ALLA\tTYPE\tDET_PRE",
  c!"LEXENTRY:\tV. ALLE\tVIA ALLE\tTYPE\tDET_PRE",
  c!"LEXENTRY:\tV. DA\tVIA DA\tTYPE\tDET_PRE",
  c!"LEXENTRY:\tV. DAL\tVIA DAL\tTYPE\tDET_PRE",
  c!"LEXENTRY:\tV. DEGLI\tVIA DEGLI\tTYPE\tDET_PRE",
  c!"LEXENTRY:\tV. DEI\tVIA DEI\tTYPE\tDET_PRE",
  c!"LEXENTRY:\tV. DEL\tVIA DEL\tTYPE\tDET_PRE",
  c!"LEXENTRY:\tV. DELLA\tVIA DELLA\tTYPE\tDET_PRE",
  c!"LEXENTRY:\tV. DELLE\tVIA DELLE\tTYPE\tDET_PRE",
  c!"LEXENTRY:\tV. DI\tVIA DI\tTYPE\tDET_PRE",
  c!"LEXENTRY:\tV. IN\tVIA IN\tTYPE\tDET_PRE",
  c!"LEXENTRY:\tV. PONTE\tVIA PONTE\tTYPE\tDET_PRE",
  c!"LEXENTRY:\tV. PRIVATA\tVIA PRIVATA\tTYPE\tDET_PRE",
  c!"LEXENTRY:\tV. SOTTO\tVIA SOTTO\tTYPE\tDET_PRE",
  c!"LEXENTRY:\tV. SOTTO I\tVIA SOTTO I\tTYPE\tDET_PRE",
  c!"LEXENTRY:\tV.LE\tVIALE\tTYPE\tDET_PRE",
  c!"LEXENTRY:\tV.LE AL\tVIALE AL\tTYPE\tDET_PRE",
  c!"LEXENTRY:\tV.LE DEI\tVIALE DEI\tTYPE\tDET_PRE",
  c!"LEXENTRY:\tV.LE.\tVIALE\tTYPE\tDET_PRE",
  c!"LEXENTRY:\tV.LE. AL\tVIALE AL\tTYPE\tDET_PRE",
  c!"LEXENTRY:\tV.LE. DEI\tVIALE DEI\tTYPE\tDET_PRE"]

/-- data/sample/switzerland.lex:652-701 -/
def entries13 : List Str := [
  c!"LEXENTRY:\tVALAIS\tVS\tPROV\tDETACH",
  c!"LEXENTRY:\tVALLETTA\tVALLETTA\tTYPE\tDET_PRE",
  c!"LEXENTRY:\tVALLON DE\tVALLON DE\tTYPE\tDET_PRE",
  c!"LEXENTRY:\tVAUD\tVD\tPROV\tDETACH",
  c!"LEXENTRY:\tVD\tVD\tPROV\tDETACH",
  c!"LEXENTRY:\tVEB\tVEB\tPLACEN\tDETACH",
  c!"LEXENTRY:\tVENELLE\tVENELLE\tTYPE\tDET_PRE",
  c!"LEXENTRY:\tVENELLE DES\tVENELLE DES\tTYPE\tDET_PRE",
  c!"LEXENTRY:\tVENELLE DU\tVENELLE DU\tTYPE\tDET_PRE",
  c!"LEXENTRY:\tVEREIN\tVEREIN\tPLACEN\tDETACH",
  c!"LEXENTRY:\tVIA\tVIA\tTYPE\tDET_PRE",
  c!"LEXENTRY:\tVIA AI\tVIA AI\tTYPE\tDET_PRE",
  c!"LEXENTRY:\tVIA AL\tVIA AL\tTYPE\tDET_PRE",
  c!"LEXENTRY:\tVIA ALL'\tVIA ALL'\tTYPE\tATT_PRE",
  c!"LEXENTRY:\tVIA ALLA\tVIA ALLA\tTYPE\tDET_PRE",
  c!"LEXENTRY:\tVIA ALLE\tVIA ALLE\tTYPE\tDET_PRE",
  c!"LEXENTRY:\tVIA D'\tVIA D'\tTYPE\tATT_PRE",
  c!"LEXENTRY:\tVIA DA\tVIA DA\tTYPE\tDET_PRE",
  c!"LEXENTRY:\tVIA DAL\tVIA DAL\tTYPE\tDET_PRE",
  c!"LEXENTRY:\tVIA DEGLI\tVIA DEGLI\tTYPE\tDET_PRE",
  c!"LEXENTRY:\tVIA DEI\tVIA DEI\tTYPE\tDET_PRE",
  c!"LEXENTRY:\tVIA DEL\tVIA DEL\tTYPE\tDET_PRE",
  c!"LEXENTRY:\tVIA DELL'\tVIA DELL'\tTYPE\tATT_PRE",
  c!"LEXENTRY:\tVIA DELLA\tVIA DELLA\tTYPE\tDET_PRE",
  c!"LEXENTRY:\tVIA DELLE\tVIA DELLE\tTYPE\tDET_PRE",
  c!"LEXENTRY:\tVIA DI\tVIA DI\tTYPE\tDET_PRE",
  c!"LEXENTRY:\tVIA IN\tVIA IN\tTYPE\tDET_PRE",
  c!"LEXENTRY:\tVIA PONTE\tVIA PONTE\tTYPE\tDET_PRE",
  c!"LEXENTRY:\tVIA PRIVATA\tVIA PRIVATA\tTYPE\tDET_PRE",
  c!"LEXENTRY:\tVIA SOTTO\tVIA SOTTO\tTYPE\tDET_PRE",
  c!"LEXENTRY:\tVIA SOTTO I\tVIA SOTTO I\tTYPE\tDET_PRE",
  c!"LEXENTRY:\tVIALE\tVIALE\tTYPE\tDET_PRE",
  c!"LEXENTRY:\tVIALE AL\tVIALE AL\tTYPE\tDET_PRE",
  c!"LEXENTRY:\tVIALE DEI\tVIALE DEI\tTYPE\tDET_PRE",
  c!"LEXENTRY:\tVIALE DELL'\tVIALE DELL'\tTYPE\tATT_PRE",
  c!"LEXENTRY:\tVICOLO\tVICOLO\tTYPE\tDET_PRE",
  c!"LEXENTRY:\tVICOLO AL\tVICOLO AL\tTYPE\tDET_PRE",
  c!"LEXENTRY:\tVICOLO DEGLI\tVICOLO DEGLI\tTYPE\tDET_PRE",
  c!"LEXENTRY:\tVICOLO DEI\tVICOLO DEI\tTYPE\tDET_PRE",
  c!"LEXENTRY:\tVICOLO DEL\tVICOLO DEL\tTYPE\tDET_PRE",
  c!"LEXENTRY:\tVICOLO DELL'\tVICOLO DELL'\tTYPE\tATT_PRE",
  c!"LEXENTRY:\tVICOLO DELLA\tVICOLO DELLA\tTYPE\tDET_PRE",
  c!"LEXENTRY:\tVICOLO DELLE\tVICOLO DELLE\tTYPE\tDET_PRE",
  c!"LEXENTRY:\tVICOLO DI\tVICOLO DI\tTYPE\tDET_PRE",
  c!"LEXENTRY:\tVIEUX CHEMIN\tVIEUX CHEMIN\tTYPE\tDET_PRE",
  c!"LEXENTRY:\tVILLAGE\tVILLAGE\tTYPE\tDET_PRE",
  c!"LEXENTRY:\tVILLAGGIO\tVILLAGGIO\tTYPE\tDET_PRE",
  c!"LEXENTRY:\tVILLAS\tVILLAS\tTYPE\tDET_PRE",
  c!"LEXENTRY:\tVIOTTOLO\tVIOTTOLO\tTYPE\tDET_PRE",
  c!"LEXENTRY:\tVL\tVIALE\tTYPE\tDET_PRE"]

/-- data/sample/switzerland.lex:702-721 -/
def entries14 : List Str := [
  c!"LEXENTRY:\tVL AL\tVIALE AL\tTYPE\tDET_PRE",
  c!"LEXENTRY:\tVL DEI\tVIALE DEI\tTYPE\tDET_PRE",
  c!"LEXENTRY:\tVL.\tVIALE\tTYPE\tDET_PRE",
  c!"LEXENTRY:\tVL. AL\tVIALE AL\tTYPE\tDET_PRE",
  c!"LEXENTRY:\tVL. DEI\tVIALE DEI\tTYPE\tDET_PRE",
  c!"LEXENTRY:\tVOIE\tVOIE\tTYPE\tDET_PRE",
  c!"LEXENTRY:\tVOLKSEIGNER\tVOLKSEIGNER\tPLACEN\tDETACH",
  c!"LEXENTRY:\tVOLTA\tVOLTA\tTYPE\tDET_PRE",
  c!"LEXENTRY:\tVS\tVS\tPROV\tDETACH",
  c!"LEXENTRY:\tWEG\tWEG\tTYPE\tATT_PRE,ATT_SUF,DET_PRE,DET_SUF",
  c!"LEXENTRY:\tWIESE\tWIESE\tTYPE\tATT_SUF",
  c!"LEXENTRY:\tWIESEN\tWIESEN\tTYPE\tATT_SUF",
  c!"LEXENTRY:\tWINKEL\tWINKEL\tTYPE\tATT_SUF,DET_SUF",
  c!"LEXENTRY:\tZG\tZG\tPROV\tDETACH",
  c!"LEXENTRY:\tZH\tZH\tPROV\tDETACH",
  c!"LEXENTRY:\tZUG\tZG\tPROV\tDETACH",
  c!"LEXENTRY:\tZWITSERLAND\tSWITZERLAND\tNATION\tDETACH",
  c!"LEXENTRY:\tZÜRICH\tZH\tPROV\tDETACH",
  c!"LEXENTRY:\tÉCHANGEUR D'\tÉCHANGEUR D'\tTYPE\tATT_PRE",
  c!"LEXENTRY:\tÉCHANGEUR DE LA\tÉCHANGEUR DE LA\tTYPE\tDET_PRE"]

/-- The text, and what is claimed of it. -/
def lexicon : LexSample where
  header := c!"LEXICON:\tlex-switzerland.txt\tGER\tgsw_CH"
  body := entries0 ++ entries1 ++ entries2 ++ entries3 ++ entries4 ++ entries5 ++ entries6 ++ entries7 ++ entries8
     ++ entries9 ++ entries10 ++ entries11 ++ entries12 ++ entries13 ++ entries14
  lang := .GER
  locale := c!"gsw_CH"
  classes := [
    .PROV, .PLACEN, .TYPE, .NATION, .BOXH, .CITY]

set_option maxRecDepth 1000000 in
theorem lexicon_checked : checkLex lexicon [0, 1, 7, 121, 196, 246] = true := by decide +kernel

/-- What of the grammar cannot match. -/
def pair : Pair where
  sample := sample
  lexicon := lexicon
  idle := [
    c!"@streetname @housenumber @unit",
    c!"DIRECT -> CITY -> 0.5",
    c!"[unit]",
    c!"UNITH UNITT -> UNITH UNITT -> 0.8",
    c!"UNITH WORD -> UNITH UNIT -> 0.7",
    c!"UNITH NUMBER -> UNITH UNITT -> 0.7",
    c!"UNITH MIXED -> UNITH UNITT -> 0.7",
    c!"UNITH WORD WORD -> UNITH UNITT UNITT -> 0.4"]
  null := [.building, .predir, .qual, .sufdir, .ruralroute, .extra, .unit]

/-- What shows it. -/
def pairCert : PairCert where
  dead := [.DIRECT, .UNITH, .UNITT]
  barren := [c!"unit"]
  reach := [
    c!"ADDRESS", c!"micro", c!"macro", c!"pobox", c!"streetname", c!"housenumber", c!"postal", c!"citywords",
    c!"region", c!"country", c!"city"]

set_option maxRecDepth 100000 in
theorem pair_checked : checkPair pair pairCert = true := by decide +kernel

end AS.Sample.Switzerland
