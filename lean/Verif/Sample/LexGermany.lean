import Verif.Lemmas.LexCheck
import Verif.Lemmas.PairCheck
import Verif.Sample.Germany
/-
The lexicon data/sample/germany.lex (all 471 lines), and what of germany.gmr cannot match with it. Written by
tools/lexicons.py.
-/
namespace AS.Sample.Germany

/-- data/sample/germany.lex:2-51 -/
def entries0 : List Str := [
  c!"LEXENTRY:\tCITYBERG\tCITYBERG\tCITY\tDETACH\r",
  c!"LEXENTRY:\tA. d.\tAn der\tSTOPWORD\tDETACH\r",
  c!"LEXENTRY:\tA. d.\tAn dem\tSTOPWORD\tDETACH\r",
  c!"LEXENTRY:\tA. d.\tAuf dem\tSTOPWORD\tDETACH\r",
  c!"LEXENTRY:\tA. d.\tAuf der\tSTOPWORD\tDETACH\r",
  c!"LEXENTRY:\tAG\tAG\tPLACEN\tDETACH\r",
  c!"LEXENTRY:\tAKTIEN\tAKTIEN\tPLACEN\tDETACH\r",
  c!"LEXENTRY:\tAKTIEN-GESELLSCHAFT\tAKTIEN-GESELLSCHAFT\tPLACEN\tDETACH\r",
  c!"LEXENTRY:\tAKTIENGESELLSCHAFT\tAKTIENGESELLSCHAFT\tPLACEN\tDETACH\r",
  c!"LEXENTRY:\tALLEE\tALLEE\tTYPE\tATT_SUF,DET_SUF\r",
  c!"LEXENTRY:\tAllgemeines Krankenhaus\tAllgemeines Krankenhaus\tBUILDT\tDETACH\r",
  c!"LEXENTRY:\tAKH\tAllgemeines Krankenhaus\tBUILDT\tDETACH\r",
  c!"LEXENTRY:\tAltstoffsammelzentrum\tAltstoffsammelzentrum\tBUILDT\tDETACH\r",
  c!"LEXENTRY:\tASZ\tAltstoffsammelzentrum\tBUILDT\tDETACH\r",
  c!"LEXENTRY:\tANSCHLUSSSTELLE\tANSCHLUSSSTELLE\tTYPE\tDET_PRE\r",
  c!"LEXENTRY:\tAUTOBAHNDREIECK\tAUTOBAHNDREIECK\tTYPE\tDET_PRE\r",
  c!"LEXENTRY:\tAUTOBAHNKREUZ\tAUTOBAHNKREUZ\tTYPE\tDET_PRE\r",
  c!"LEXENTRY:\tAVENUE\tAVENUE\tTYPE\tDET_SUF\r",
  c!"LEXENTRY:\tAbzweigung\tAbzweigung\tWORD\tDETACH\r",
  c!"LEXENTRY:\tAbzwg\tAbzweigung\tWORD\tDETACH\r",
  c!"LEXENTRY:\tAm\tAm\tSTOPWORD\tDETACH\r",
  c!"LEXENTRY:\tAn\tAn\tSTOPWORD\tDETACH\r",
  c!"LEXENTRY:\tAn dem\tAn dem\tSTOPWORD\tDETACH\r",
  c!"LEXENTRY:\tAn der\tAn der\tSTOPWORD\tDETACH\r",
  c!"LEXENTRY:\tAuf\tAuf\tSTOPWORD\tDETACH\r",
  c!"LEXENTRY:\tAuf dem\tAuf dem\tSTOPWORD\tDETACH\r",
  c!"LEXENTRY:\tAuf der\tAuf der\tSTOPWORD\tDETACH\r",
  c!"LEXENTRY:\tAuss.\tAussiedlerhof\tWORD\tDETACH\r",
  c!"LEXENTRY:\tAuss.Hof\tAussiedlerhof\tWORD\tDETACH\r",
  c!"LEXENTRY:\tAussiedl. Hof\tAussiedlerhof\tWORD\tDETACH\r",
  c!"LEXENTRY:\tAussiedlerhof\tAussiedlerhof\tWORD\tDETACH\r",
  c!"LEXENTRY:\tB.\tBerg\tTYPE, WORD\tATT_SUF, DET_SUF\r",
  c!"LEXENTRY:\tBACH\tBACH\tTYPE,WORD\tATT_SUF,DETACH,DET_SUF\r",
  c!"LEXENTRY:\tBADEN-WÜRTTEMBERG\tBADEN-WÜRTTEMBERG\tPROV\tDETACH\r",
  c!"LEXENTRY:\tBADEN-WURTTEMBERG\tBADEN-WURTTEMBERG\tPROV\tDETACH\r",
  c!"LEXENTRY:\tBAVARIA\tBAYERN\tPROV\tDETACH\r",
  c!"LEXENTRY:\tBAYERN\tBAYERN\tPROV\tDETACH\r",
  c!"LEXENTRY:\tBD\tBOULEVARD\tTYPE\tATT_SUF\r",
  c!"LEXENTRY:\tBD.\tBOULEVARD\tTYPE\tATT_SUF\r",
  c!"LEXENTRY:\tB.\tBerg\tTYPE, WORD\tATT_SUF, DET_SUF\r",
  c!"LEXENTRY:\tBg.\tBerg\tTYPE, WORD\tATT_SUF, DET_SUF\r",
  c!"LEXENTRY:\tBERG\tBERG\tTYPE\tATT_SUF,DET_SUF\r",
  c!"LEXENTRY:\tBERGWEG\tBERGWEG\tTYPE\tATT_SUF,DET_SUF\r",
  c!"LEXENTRY:\tBERLIN\tBERLIN\tPROV\tDETACH\r",
  c!"LEXENTRY:\tBETRIEB\tBETRIEB\tPLACEN\tDETACH\r",
  c!"LEXENTRY:\tBGB\tBGB\tPLACEN\tDETACH\r",
  c!"LEXENTRY:\tBOGEN\tBOGEN\tTYPE\tATT_SUF,DET_SUF\r",
  c!"LEXENTRY:\tBOULEVARD\tBOULEVARD\tTYPE\tATT_SUF\r",
  c!"LEXENTRY:\tBRANDENBURG\tBRANDENBURG\tPROV\tDETACH\r",
  c!"LEXENTRY:\tBREMEN\tBREMEN\tPROV\tDETACH\r"]

/-- data/sample/germany.lex:52-101 -/
def entries1 : List Str := [
  c!"LEXENTRY:\tBRUCH\tBRUCH\tTYPE\tATT_SUF\r",
  c!"LEXENTRY:\tBez.\tBezirk\tTYPE, WORD\tATT_SUF, DET_SUF\r",
  c!"LEXENTRY:\tBezirk\tBezirk\tTYPE, WORD\tATT_PRE, ATT_SUF, DET_SUF\r",
  c!"LEXENTRY:\tBr.\tBrücke\tTYPE, WORD\tATT_SUF, DET_SUF\r",
  c!"LEXENTRY:\tBRÜCKE\tBRÜCKE\tTYPE\tATT_SUF,DET_SUF\r",
  c!"LEXENTRY:\tBG\tBundesgymnasium\tWORD\tDETACH\r",
  c!"LEXENTRY:\tBundesgymnasium\tBundesgymnasium\tWORD\tDETACH\r",
  c!"LEXENTRY:\tBPD\tBundespolizeidirektion\tWORD\tDETACH\r",
  c!"LEXENTRY:\tBundespolizeidirektion\tBundespolizeidirektion\tWORD\tDETACH\r",
  c!"LEXENTRY:\tBRG\tBundesrealgymnasium\tWORD\tDETACH\r",
  c!"LEXENTRY:\tBundesrealgymnasium\tBundesrealgymnasium\tWORD\tDETACH\r",
  c!"LEXENTRY:\tBg.\tBurg\tBUILDT\tATT_SUF, DET_SUF\r",
  c!"LEXENTRY:\tBURG\tBURG\tTYPE\tATT_SUF,DET_SUF\r",
  c!"LEXENTRY:\tbgld.\tBurgenländische\tWORD\tATT_PRE, ATT_SUF, DET_SUF\r",
  c!"LEXENTRY:\tBurgenländische\tBurgenländische\tWORD\tATT_PRE, ATT_SUF, DET_SUF\r",
  c!"LEXENTRY:\tBurgenländisches\tBurgenländische\tWORD\tATT_PRE, ATT_SUF, DET_SUF\r",
  c!"LEXENTRY:\tBurgenländischer\tBurgenländische\tWORD\tATT_PRE, ATT_SUF, DET_SUF\r",
  c!"LEXENTRY:\tBahnhof\tBahnhof\tWORD\tDETACH\r",
  c!"LEXENTRY:\tBei\tBei\tSTOPWORD\tDETACH\r",
  c!"LEXENTRY:\tBgm.\tBürgermeister\tWORD\tDETACH\r",
  c!"LEXENTRY:\tBürgermeister\tBürgermeister\tWORD\tATT_PRE, ATT_SUF, DET_SUF\r",
  c!"LEXENTRY:\tBhf\tBahnhof\tWORD\tDETACH\r",
  c!"LEXENTRY:\tBhf.\tBahnhof\tWORD\tDETACH\r",
  c!"LEXENTRY:\tBr.\tBrücke\tWORD\tDETACH\r",
  c!"LEXENTRY:\tBrücke\tBrücke\tWORD\tDETACH\r",
  c!"LEXENTRY:\tBung.siedl.\tBungalowsiedlung\tWORD\tDETACH\r",
  c!"LEXENTRY:\tBungalow Siedlung\tBungalowsiedlung\tWORD\tDETACH\r",
  c!"LEXENTRY:\tBungalowsiedlung\tBungalowsiedlung\tWORD\tDETACH\r",
  c!"LEXENTRY:\tBÜHL\tBÜHL\tTYPE\tATT_SUF\r",
  c!"LEXENTRY:\tBÜHL \tBÜHL\tTYPE\tATT_SUF\r",
  c!"LEXENTRY:\tBürgermeister\tBürgermeister\tWORD\tDETACH\r",
  c!"LEXENTRY:\tCH\tCHAUSSEE\tTYPE\tATT_PRE,ATT_SUF\r",
  c!"LEXENTRY:\tCH.\tCHAUSSEE\tTYPE\tATT_PRE,ATT_SUF\r",
  c!"LEXENTRY:\tCHAUSSEE\tCHAUSSEE\tTYPE\tATT_PRE,ATT_SUF\r",
  c!"LEXENTRY:\tCO\tCO\tPLACEN\tDETACH\r",
  c!"LEXENTRY:\tDAMM\tDAMM\tTYPE\tATT_SUF,DET_SUF\r",
  c!"LEXENTRY:\tDE\tGERMANY\tNATION\tDETACH\r",
  c!"LEXENTRY:\tDEICH\tDEICH\tTYPE\tATT_SUF\r",
  c!"LEXENTRY:\tDenkmal\tDenkmal\tWORD\tATT_PRE, ATT_SUF, DET_SUF\r",
  c!"LEXENTRY:\tDkm.\tDenkmal\tWORD\tATT_SUF, DET_SUF\r",
  c!"LEXENTRY:\tDEU\tGERMANY\tNATION\tDETACH\r",
  c!"LEXENTRY:\tDeutsche\tDeutsche\tWORD\tATT_PRE, ATT_SUF, DET_SUF\r",
  c!"LEXENTRY:\tDeutscher\tDeutsche\tWORD\tATT_PRE, ATT_SUF, DET_SUF\r",
  c!"LEXENTRY:\tDeutsches\tDeutsche\tWORD\tATT_PRE, ATT_SUF, DET_SUF\r",
  c!"LEXENTRY:\tDf.\tDorf\tWORD\tATT_SUF, DET_SUF\r",
  c!"LEXENTRY:\tDRIVE\tDRIVE\tTYPE\tDET_SUF\r",
  c!"LEXENTRY:\tDir\tDirektor\tWORD\tDETACH\r",
  c!"LEXENTRY:\tDir.\tDirektor\tWORD\tDETACH\r",
  c!"LEXENTRY:\tDirektor\tDirektor\tWORD\tDETACH\r",
  c!"LEXENTRY:\tDoktor\tDoktor\tWORD\tATT_SUF, DET_SUF\r"]

/-- data/sample/germany.lex:102-151 -/
def entries2 : List Str := [
  c!"LEXENTRY:\tDom.\tDominik\tWORD\tDETACH\r",
  c!"LEXENTRY:\tDominik\tDominik\tWORD\tDETACH\r",
  c!"LEXENTRY:\tDorf\tDorf\tWORD\tATT_PRE, ATT_SUF, DET_SUF\r",
  c!"LEXENTRY:\tDr.\tDoktor\tWORD\tATT_SUF, DET_SUF\r",
  c!"LEXENTRY:\tDritte\tDritte\tORD,WORD\tDETACH\r",
  c!"LEXENTRY:\tDritter\tDritte\tORD,WORD\tDETACH\r",
  c!"LEXENTRY:\tDrittes\tDritte\tORD,WORD\tDETACH\r",
  c!"LEXENTRY:\tDt.\tDeutsche\tWORD\tATT_SUF, DET_SUF\r",
  c!"LEXENTRY:\tDt\tDeutsche\tWORD\tATT_SUF, DET_SUF\r",
  c!"LEXENTRY:\tDt.\tDeutsch\tWORD\tATT_PRE, ATT_SUF, DET_SUF\r",
  c!"LEXENTRY:\tEG\tEG\tPLACEN\tDETACH\r",
  c!"LEXENTRY:\tEINZELFIRMA\tEINZELFIRMA\tPLACEN\tDETACH\r",
  c!"LEXENTRY:\tEINZELUNTERNEHMEN\tEINZELUNTERNEHMEN\tPLACEN\tDETACH\r",
  c!"LEXENTRY:\tENGETRAGENER\tENGETRAGENER\tPLACEN\tDETACH\r",
  c!"LEXENTRY:\tEV\tEV\tPLACEN\tDETACH\r",
  c!"LEXENTRY:\tEhem.\tEhemaliges\tWORD\tDETACH\r",
  c!"LEXENTRY:\tEhemalige\tEhemaliges\tWORD\tDETACH, DET_PRE\r",
  c!"LEXENTRY:\tEhemaliger\tEhemaliges\tWORD\tDETACH\r",
  c!"LEXENTRY:\tEhemaliges\tEhemaliges\tWORD\tDETACH\r",
  c!"LEXENTRY:\tEvang.\tEvangelische\tWORD\tDETACH\r",
  c!"LEXENTRY:\tEvangelische\tEvangelische\tWORD\tDETACH\r",
  c!"LEXENTRY:\tEvgl.\tEvangelische\tWORD\tDETACH\r",
  c!"LEXENTRY:\tFabrik \tFabrik\tBUILDH\tATT_PRE, ATT_SUF, DET_SUF\r",
  c!"LEXENTRY:\tFb.\tFabrik\tBUILDH\tATT_SUF, DET_SUF\r",
  c!"LEXENTRY:\tFELD\tFELD\tTYPE\tATT_SUF,DET_SUF\r",
  c!"LEXENTRY:\tFIRMA\tFIRMA\tPLACEN\tDETACH\r",
  c!"LEXENTRY:\tFREIBURG\tFREIBURG\tCITY\tDETACH\r",
  c!"LEXENTRY:\tForsth.\tForsthaus\tWORD\tDETACH\r",
  c!"LEXENTRY:\tForsthaus\tForsthaus\tWORD\tDETACH\r",
  c!"LEXENTRY:\tFreih.\tFreiherr\tWORD\tDETACH\r",
  c!"LEXENTRY:\tFreiherr\tFreiherr\tWORD\tDETACH\r",
  c!"LEXENTRY:\tFriedr.\tFriedrich\tWORD\tDETACH\r",
  c!"LEXENTRY:\tFriedrich\tFriedrich\tWORD\tDETACH\r",
  c!"LEXENTRY:\tG.\tGasse\tTYPE, WORD\tATT_SUF, DET_SUF\r",
  c!"LEXENTRY:\tG.\tGroße\tWORD\tATT_PRE, DET_PRE\r",
  c!"LEXENTRY:\tGANG\tGANG\tTYPE\tATT_SUF\r",
  c!"LEXENTRY:\tGARTEN\tGARTEN\tTYPE\tATT_SUF,DET_SUF\r",
  c!"LEXENTRY:\tGASSE\tGASSE\tTYPE\tATT_SUF,DET_SUF\r",
  c!"LEXENTRY:\tGasthaus\tGasthaus\tWORD\tDET_PRE, DET_SUF\r",
  c!"LEXENTRY:\tGasthof\tGasthof\tWORD\tDET_PRE, DET_SUF\r",
  c!"LEXENTRY:\tGBR\tGBR\tPLACEN\tDETACH\r",
  c!"LEXENTRY:\tGde\tGemeinde\tWORD\tDET_PRE, ATT_PRE\r",
  c!"LEXENTRY:\tGemeinde\tGemeinde\tWORD\tDET_PRE, ATT_PRE\r",
  c!"LEXENTRY:\tGENOSSENSCHAFT\tGENOSSENSCHAFT\tPLACEN\tDETACH\r",
  c!"LEXENTRY:\tGERMANY\tGERMANY\tNATION\tDETACH\r",
  c!"LEXENTRY:\tGESELLSCHAFT\tGESELLSCHAFT\tPLACEN\tDETACH\r",
  c!"LEXENTRY:\tGh\tGasthaus\tWORD\tDET_PRE, DET_SUF\r",
  c!"LEXENTRY:\tGhf\tGasthof\tWORD\tDET_PRE, DET_SUF\r",
  c!"LEXENTRY:\tGMBH\tGMBH\tPLACEN\tDETACH\r",
  c!"LEXENTRY:\tGRABEN\tGRABEN\tTYPE\tATT_SUF,DET_SUF\r"]

/-- data/sample/germany.lex:152-201 -/
def entries3 : List Str := [
  c!"LEXENTRY:\tGebr.\tGebrüder\tWORD\tDETACH\r",
  c!"LEXENTRY:\tGebrüder\tGebrüder\tWORD\tDETACH\r",
  c!"LEXENTRY:\tGeschw.\tGeschwister\tWORD\tDETACH\r",
  c!"LEXENTRY:\tGeschwister\tGeschwister\tWORD\tDETACH\r",
  c!"LEXENTRY:\tGew.\tGewerbegebiet\tWORD\tDETACH\r",
  c!"LEXENTRY:\tGewerbegebiet\tGewerbegebiet\tWORD\tDETACH\r",
  c!"LEXENTRY:\tGr.\tGroße\tWORD\tDETACH\r",
  c!"LEXENTRY:\tGr\tGraben\tTYPE, WORD\tATT_SUF, DET_SUF\r",
  c!"LEXENTRY:\tGraben\tGraben\tTYPE, WORD\tATT_PRE, ATT_SUF, DET_SUF\r",
  c!"LEXENTRY:\tGroße\tGroße\tWORD\tDETACH\r",
  c!"LEXENTRY:\tGroßer\tGroße\tWORD\tATT_PRE, DET_PRE\r",
  c!"LEXENTRY:\tGroßes\tGroße\tWORD\tATT_PRE, DET_PRE\r",
  c!"LEXENTRY:\tGroßer\tGroße\tWORD\tATT_PRE, DET_PRE\r",
  c!"LEXENTRY:\tGÄSSCHEN\tGÄSSCHEN\tTYPE\tATT_SUF\r",
  c!"LEXENTRY:\tH.\tHohe\tDIRECT\tDETACH\r",
  c!"LEXENTRY:\tH.\tHöhle\tWORD\tDETACH\r",
  c!"LEXENTRY:\tHAFEN\tHAFEN\tTYPE\tATT_SUF\r",
  c!"LEXENTRY:\tHAK\tHandelsakademie\tPLACEN\tDETACH\r",
  c!"LEXENTRY:\tHaltestelle\tHaltestelle\tWORD\tDETACH\r",
  c!"LEXENTRY:\tHAMBURG\tHAMBURG\tPROV\tDETACH\r",
  c!"LEXENTRY:\tHandelsschule\tHandelsschule\tPLACEN\tDETACH\r",
  c!"LEXENTRY:\tHandelsakademie\tHandelsakademie\tPLACEN\tDETACH\r",
  c!"LEXENTRY:\tHANDELSGESELLSCHAFT\tHANDELSGESELLSCHAFT\tPLACEN\tDETACH\r",
  c!"LEXENTRY:\tHASCH\tHandelsschule\tPLACEN\tDETACH\r",
  c!"LEXENTRY:\tHauptbahnhof\tHauptbahnhof\tBUILDT\tDETACH\r",
  c!"LEXENTRY:\tHAUS\tHAUS\tUNITH\tDETACH\r",
  c!"LEXENTRY:\tHbf\tHauptbahnhof\tBUILDT\tDETACH\r",
  c!"LEXENTRY:\tHEIDE\tHEIDE\tTYPE\tDET_SUF\r",
  c!"LEXENTRY:\tHeiliges\tHeilige\tWORD\tDETACH\r",
  c!"LEXENTRY:\tHeilige\tHeilige\tWORD\tDETACH\r",
  c!"LEXENTRY:\tHeiliger\tHeilige\tWORD\tDETACH\r",
  c!"LEXENTRY:\tHESSE\tHESSEN\tPROV\tDETACH\r",
  c!"LEXENTRY:\tHESSEN\tHESSEN\tPROV\tDETACH\r",
  c!"LEXENTRY:\tHint\tHintere\tDIRECT\tDETACH\r",
  c!"LEXENTRY:\tHintere\tHintere\tDIRECT\tDETACH\r",
  c!"LEXENTRY:\tHinterer\tHintere\tDIRECT\tDETACH\r",
  c!"LEXENTRY:\tHinteres\tHintere\tDIRECT\tDETACH\r",
  c!"LEXENTRY:\tHl\tHeilige\tWORD\tDETACH\r",
  c!"LEXENTRY:\tHOF\tHOF\tTYPE\tATT_SUF,DET_SUF\r",
  c!"LEXENTRY:\tHoher\tHohe\tDIRECT\tDETACH\r",
  c!"LEXENTRY:\tHohes\tHohe\tDIRECT\tDETACH\r",
  c!"LEXENTRY:\tHohe\tHohe\tDIRECT\tDETACH\r",
  c!"LEXENTRY:\tHORST\tHORST\tTYPE\tATT_SUF,DET_SUF\r",
  c!"LEXENTRY:\tHs\tHaus\tWORD\tDETACH\r",
  c!"LEXENTRY:\tHst\tHaltestelle\tWORD\tDETACH\r",
  c!"LEXENTRY:\tHt\tHintere\tDIRECT\tDETACH\r",
  c!"LEXENTRY:\tHtt\tHütte\tWORD\tDETACH\r",
  c!"LEXENTRY:\tHÖHE\tHÖHE\tTYPE\tATT_SUF,DET_SUF\r",
  c!"LEXENTRY:\tHöhle\tHöhle\tWORD\tDETACH\r",
  c!"LEXENTRY:\tHütte\tHütte\tWORD\tDETACH\r"]

/-- data/sample/germany.lex:202-251 -/
def entries4 : List Str := [
  c!"LEXENTRY:\ti\tim\tSTOPWORD\tDETACH\r",
  c!"LEXENTRY:\ti\tin\tSTOPWORD\tDETACH\r",
  c!"LEXENTRY:\tI. d.\tIn der\tSTOPWORD\tDETACH\r",
  c!"LEXENTRY:\tII\tZweite\tORD,WORD\tDETACH\r",
  c!"LEXENTRY:\tII.\tZweite\tORD,WORD\tDETACH\r",
  c!"LEXENTRY:\tIII\tDritte\tORD,WORD\tDETACH\r",
  c!"LEXENTRY:\tIII.\tDritte\tORD,WORD\tDETACH\r",
  c!"LEXENTRY:\tim\tim\tSTOPWORD\tDETACH\r",
  c!"LEXENTRY:\tIn\tIn\tSTOPWORD\tDETACH\r",
  c!"LEXENTRY:\tIn der\tIn der\tSTOPWORD\tDETACH\r",
  c!"LEXENTRY:\tInt\tinternationale\tWORD\tDETACH\r",
  c!"LEXENTRY:\tinternationale\tinternationale\tWORD\tDETACH\r",
  c!"LEXENTRY:\tinternationales\tinternationale\tWORD\tDETACH\r",
  c!"LEXENTRY:\tinternationaler\tinternationale\tWORD\tDETACH\r",
  c!"LEXENTRY:\tJagdhaus\tJagdhaus\tBUILDT\tDETACH\r",
  c!"LEXENTRY:\tJagdhütte\tJagdhütte\tBUILDT\tDETACH\r",
  c!"LEXENTRY:\tJh\tJagdhaus\tBUILDT\tDETACH\r",
  c!"LEXENTRY:\tJhtt\tJagdhütte\tBUILDT\tDETACH\r",
  c!"LEXENTRY:\tJoh.\tJohannes\tWORD\tDETACH\r",
  c!"LEXENTRY:\tJohann\tJohannes\tWORD\tDETACH\r",
  c!"LEXENTRY:\tJohannes\tJohannes\tWORD\tDETACH\r",
  c!"LEXENTRY:\tKa\tKläranlage\tWORD\tDETACH\r",
  c!"LEXENTRY:\tKAI\tKAI\tTYPE\tATT_SUF\r",
  c!"LEXENTRY:\tKAMP\tKAMP\tTYPE\tATT_SUF\r",
  c!"LEXENTRY:\tKANAL\tKANAL\tTYPE\tATT_SUF,DET_SUF\r",
  c!"LEXENTRY:\tKap\tKapelle\tBUILDT\tDETACH\r",
  c!"LEXENTRY:\tKapelle\tKapelle\tBUILDT\tDETACH\r",
  c!"LEXENTRY:\tKastralgemeinde\tKastralgemeinde\tWORD\tDETACH\r",
  c!"LEXENTRY:\tKath.\tKatholische\tWORD\tDETACH\r",
  c!"LEXENTRY:\tKatholisches\tKatholische\tWORD\tDETACH\r",
  c!"LEXENTRY:\tKatholische\tKatholische\tWORD\tDETACH\r",
  c!"LEXENTRY:\tKEHRE\tKEHRE\tTYPE\tATT_SUF,DET_SUF\r",
  c!"LEXENTRY:\tKl\tKleine\tWORD\tDET_PRE\r",
  c!"LEXENTRY:\tKl\tKlein\tWORD\tDET_PRE, ATT_PRE\r",
  c!"LEXENTRY:\tKläranlage\tKläranlage\tWORD\tDETACH\r",
  c!"LEXENTRY:\tKlein\tKlein\tWORD\tDET_PRE, ATT_PRE\r",
  c!"LEXENTRY:\tKleine\tKleine\tWORD\tDET_PRE\r",
  c!"LEXENTRY:\tKleines\tKleine\tWORD\tDET_PRE\r",
  c!"LEXENTRY:\tKleiner\tKleine\tWORD\tDET_PRE\r",
  c!"LEXENTRY:\tKG\tKG\tPLACEN\tDETACH\r",
  c!"LEXENTRY:\tKg\tKastralgemeinde\tWORD\tDETACH\r",
  c!"LEXENTRY:\tKg\tKogel\tWORD\tDETACH\r",
  c!"LEXENTRY:\tKga\tKleingartenanlage\tWORD\tDETACH\r",
  c!"LEXENTRY:\tKGAA\tKGAA\tPLACEN\tDETACH\r",
  c!"LEXENTRY:\tKgv\tKleeingartenverein\tWORD\tDETACH\r",
  c!"LEXENTRY:\tKh\tKrankenhaus\tBUILDT\tDETACH\r",
  c!"LEXENTRY:\tKleingartenanlage\tKleingartenanlage\tWORD\tDETACH\r",
  c!"LEXENTRY:\tKleeingartenverein\tKleeingartenverein\tWORD\tDETACH\r",
  c!"LEXENTRY:\tKOMMANDITGESELLSCHAFT\tKOMMANDITGESELLSCHAFT\tPLACEN\tDETACH\r",
  c!"LEXENTRY:\tKogel\tKogel\tWORD\tDETACH\r"]

/-- data/sample/germany.lex:252-301 -/
def entries5 : List Str := [
  c!"LEXENTRY:\tKOPPEL\tKOPPEL\tTYPE\tATT_SUF\r",
  c!"LEXENTRY:\tKpl\tKapelle\tBUILDT\tDETACH\r",
  c!"LEXENTRY:\tKrankenhaus\tKrankenhaus\tBUILDT\tDETACH\r",
  c!"LEXENTRY:\tKreuz\tKreuz\tTYPE, WORD\tDETACH\r",
  c!"LEXENTRY:\tKz\tKreuz\tTYPE, WORD\tDETACH\r",
  c!"LEXENTRY:\tLandeskrankenhaus\tLandeskrankenhaus\tBUILDT\tDETACH\r",
  c!"LEXENTRY:\tLANDSTRASSE\tLANDSTRASSE\tTYPE\tDET_SUF\r",
  c!"LEXENTRY:\tLkh\tLandeskrankenhaus\tBUILDT\tDETACH\r",
  c!"LEXENTRY:\tLOWER SAXONY\tNIEDERSACHSEN\tPROV\tDETACH\r",
  c!"LEXENTRY:\tLuth.\tLuther\tWORD\tDETACH\r",
  c!"LEXENTRY:\tLuther\tLuther\tWORD\tDETACH\r",
  c!"LEXENTRY:\tLutherische\tLuther\tWORD\tDETACH\r",
  c!"LEXENTRY:\tMa\tMaria\tWORD\tDETACH\r",
  c!"LEXENTRY:\tMaria\tMaria\tWORD\tDETACH\r",
  c!"LEXENTRY:\tMARKT\tMARKT\tTYPE, WORD\tATT_SUF,DET_SUF\r",
  c!"LEXENTRY:\tMBH\tMBH\tPLACEN\tDETACH\r",
  c!"LEXENTRY:\tMECHELEBERG POMERANIA\tMECKLENBURG-VORPOMMERN\tPROV\tDETACH\r",
  c!"LEXENTRY:\tMECKLENBURG-VORPOMMERN\tMECKLENBURG-VORPOMMERN\tPROV\tDETACH\r",
  c!"LEXENTRY:\tMkt\tMarkt\tTYPE, WORD\tDET_PRE, DET_SUF\r",
  c!"LEXENTRY:\tMOOR\tMOOR\tTYPE\tATT_SUF\r",
  c!"LEXENTRY:\tMVA\tMüllverbrennungsanlage\tWORD\tDETACH\r",
  c!"LEXENTRY:\tMüllverbrennungsanlage\tMüllverbrennungsanlage\tWORD\tDETACH\r",
  c!"LEXENTRY:\tNationalpark\tNationalpark\tWORD\tDETACH\r",
  c!"LEXENTRY:\tNaturschutzgebiet\tNaturschutzgebiet\tWORD\tDETACH\r",
  c!"LEXENTRY:\tNd\tNiedere\tDIRECT\tDET_PRE\r",
  c!"LEXENTRY:\tNiedere\tNiedere\tDIRECT\tDET_PRE\r",
  c!"LEXENTRY:\tNiederer\tNiedere\tDIRECT\tDET_PRE\r",
  c!"LEXENTRY:\tNiederes\tNiedere\tDIRECT\tDET_PRE\r",
  c!"LEXENTRY:\tNIEDERSACHSEN\tNIEDERSACHSEN\tPROV\tDETACH\r",
  c!"LEXENTRY:\tNORDRHEIN-WESTFALEN\tNORDRHEIN-WESTFALEN\tPROV\tDETACH\r",
  c!"LEXENTRY:\tNORDRHEIN-WESTPHALEN\tNORDRHEIN-WESTFALEN\tPROV\tDETACH\r",
  c!"LEXENTRY:\tNORTH RHINE-WESTPHALIA\tNORDRHEIN-WESTFALEN\tPROV\tDETACH\r",
  c!"LEXENTRY:\tNeu Sankt\tNeu Sankt\tWORD\tDETACH\r",
  c!"LEXENTRY:\tNeu St.\tNeu Sankt\tWORD\tDETACH\r",
  c!"LEXENTRY:\tNik.\tNikolaus\tWORD\tDETACH\r",
  c!"LEXENTRY:\tNikolaus\tNikolaus\tWORD\tDETACH\r",
  c!"LEXENTRY:\tNp\tNationalpark\tWORD\tDETACH\r",
  c!"LEXENTRY:\tNr\tNummer\tWORD\tDETACH\r",
  c!"LEXENTRY:\tNSG\tNaturschutzgebiet\tWORD\tDETACH\r",
  c!"LEXENTRY:\tNummer\tNummer\tWORD\tDETACH\r",
  c!"LEXENTRY:\tnördl\tnördliche\tDIRECT\tDET_PRE\r",
  c!"LEXENTRY:\tnördliche\tnördliche\tDIRECT\tDET_PRE\r",
  c!"LEXENTRY:\tnördlicher\tnördliche\tDIRECT\tDET_PRE\r",
  c!"LEXENTRY:\tnördliches\tnördliche\tDIRECT\tDET_PRE\r",
  c!"LEXENTRY:\tOHG\tOHG\tPLACEN\tDETACH\r",
  c!"LEXENTRY:\tOb.\tObere\tWORD\tDETACH\r",
  c!"LEXENTRY:\tOberbürgermeister\tOberbürgermeister\tWORD\tDETACH\r",
  c!"LEXENTRY:\tObere\tObere\tWORD\tDETACH\r",
  c!"LEXENTRY:\tOberer\tObere\tWORD\tDETACH\r",
  c!"LEXENTRY:\tOberes\tObere\tWORD\tDETACH\r"]

/-- data/sample/germany.lex:302-351 -/
def entries6 : List Str := [
  c!"LEXENTRY:\töstl.\tÖstliche\tDIRECT\tDET_PRE\r",
  c!"LEXENTRY:\tÖstliche\tÖstliche\tDIRECT\tDET_PRE\r",
  c!"LEXENTRY:\tÖstlicher\tÖstliche\tDIRECT\tDET_PRE\r",
  c!"LEXENTRY:\tÖstliches\tÖstliche\tDIRECT\tDET_PRE\r",
  c!"LEXENTRY:\tP\tPater\tWORD\tDETACH\r",
  c!"LEXENTRY:\tP.\tPfad\tTYPE, WORD\tATT_SUF, DET_SUF\r",
  c!"LEXENTRY:\tPARK\tPARK\tTYPE\tATT_SUF,DET_SUF\r",
  c!"LEXENTRY:\tPASSAGE\tPASSAGE\tTYPE\tATT_SUF,DET_SUF\r",
  c!"LEXENTRY:\tPFAD\tPFAD\tTYPE\tATT_SUF,DET_SUF\r",
  c!"LEXENTRY:\tPLATZ\tPLATZ\tTYPE\tATT_PRE,ATT_SUF,DET_PRE,DET_SUF\r",
  c!"LEXENTRY:\tPROMENADE\tPROMENADE\tTYPE\tATT_SUF,DET_SUF\r",
  c!"LEXENTRY:\tPfarrer\tPfarrer\tWORD\tDETACH\r",
  c!"LEXENTRY:\tPfr.\tPfarrer\tWORD\tDETACH\r",
  c!"LEXENTRY:\tPl.\tPlatz\tPLACEN,WORD\tDETACH\r",
  c!"LEXENTRY:\tPlatz\tPlatz\tPLACEN,WORD\tDETACH\r",
  c!"LEXENTRY:\tPOSTFACH\tPOSTFACH\tBOXH\tDETACH\r",
  c!"LEXENTRY:\tProf\tProfessor\tWORD\tDETACH\r",
  c!"LEXENTRY:\tProfessor\tProfessor\tWORD\tDETACH\r",
  c!"LEXENTRY:\tQ\tQuelle\tWORD\tDETACH\r",
  c!"LEXENTRY:\tQu\tQuelle\tWORD\tDETACH\r",
  c!"LEXENTRY:\tQuelle\tQuelle\tWORD\tDETACH\r",
  c!"LEXENTRY:\tRes\tReservoir\tWORD\tDETACH\r",
  c!"LEXENTRY:\tReservoir\tReservoir\tWORD\tDETACH\r",
  c!"LEXENTRY:\tRh\tRhein\tWORD\tDETACH\r",
  c!"LEXENTRY:\tRhein\tRhein\tWORD\tDETACH\r",
  c!"LEXENTRY:\tRHEINLAND-PFALZ\tRHEINLAND-PFALZ\tPROV\tDETACH\r",
  c!"LEXENTRY:\tRHINELAND-PALATINATE\tRHEINLAND-PFALZ\tPROV\tDETACH\r",
  c!"LEXENTRY:\tRING\tRING\tTYPE\tATT_SUF,DET_SUF\r",
  c!"LEXENTRY:\tROAD\tROAD\tTYPE\tDET_SUF\r",
  c!"LEXENTRY:\tRob.\tRobert\tWORD\tDETACH\r",
  c!"LEXENTRY:\tRobert\tRobert\tWORD\tDETACH\r",
  c!"LEXENTRY:\tRöm.\tRömisch\tWORD\tDETACH\r",
  c!"LEXENTRY:\tRömisch\tRömisch\tWORD\tDETACH\r",
  c!"LEXENTRY:\tS\tSee\tWORD\tDET_SUF\r",
  c!"LEXENTRY:\tSAARLAND\tSAARLAND\tPROV\tDETACH\r",
  c!"LEXENTRY:\tSACHSEN\tSACHSEN\tPROV\tDETACH\r",
  c!"LEXENTRY:\tSACHSEN-ANHALT\tSACHSEN-ANHALT\tPROV\tDETACH\r",
  c!"LEXENTRY:\tSAXONY\tSACHSEN\tPROV\tDETACH\r",
  c!"LEXENTRY:\tSAXONY-ANHALT\tSACHSEN-ANHALT\tPROV\tDETACH\r",
  c!"LEXENTRY:\tSCHLESWIG-HOLSTEIN\tSCHLESWIG-HOLSTEIN\tPROV\tDETACH\r",
  c!"LEXENTRY:\tSchl\tSchloss\tBUILDT\tDETACH\r",
  c!"LEXENTRY:\tSchloss\tSchloss\tBUILDT\tDETACH\r",
  c!"LEXENTRY:\tSdlg\tSiedlung\tPLACEN\tDETACH\r",
  c!"LEXENTRY:\tSee\tSee\tWORD\tATT_PRE, DET_SUF\r",
  c!"LEXENTRY:\tSiedlung\tSiedlung\tPLACEN\tDETACH\r",
  c!"LEXENTRY:\tSp\tSpitze\tWORD\tDETACH\r",
  c!"LEXENTRY:\tSpitze\tSpitze\tWORD\tDETACH\r",
  c!"LEXENTRY:\tSTAFFEL\tSTAFFEL\tTYPE\tDET_SUF\r",
  c!"LEXENTRY:\tStb\tSteinbruch\tWORD\tDETACH\r",
  c!"LEXENTRY:\tSTEG\tSTEG\tTYPE\tDET_SUF\r"]

/-- data/sample/germany.lex:352-401 -/
def entries7 : List Str := [
  c!"LEXENTRY:\tSTEIG\tSTEIG\tTYPE\tATT_SUF,DET_SUF\r",
  c!"LEXENTRY:\tSTEIGE\tSTEIGE\tTYPE\tATT_SUF,DET_SUF\r",
  c!"LEXENTRY:\tSTEIN\tSTEIN\tTYPE\tATT_SUF,DET_SUF\r",
  c!"LEXENTRY:\tSteinbruch\tSteinbruch\tWORD\tDETACH\r",
  c!"LEXENTRY:\tStg\tStiege\tTYPE, WORD\tDETACH\r",
  c!"LEXENTRY:\tSTIEG\tSTIEG\tTYPE\tATT_SUF\r",
  c!"LEXENTRY:\tSTIEGE\tSTIEGE\tTYPE\tATT_SUF,DET_SUF\r",
  c!"LEXENTRY:\tSTIFTUNG\tSTIFTUNG\tPLACEN\tDETACH\r",
  c!"LEXENTRY:\tSTR\tSTRASSE\tTYPE\tATT_SUF,DET_PRE,DET_SUF\r",
  c!"LEXENTRY:\tSTR.\tSTRASSE\tTYPE\tATT_SUF,DET_PRE,DET_SUF\r",
  c!"LEXENTRY:\tSTRASSE\tSTRASSE\tTYPE\tATT_SUF,DET_PRE,DET_SUF\r",
  c!"LEXENTRY:\tSTRAßE\tSTRASSE\tTYPE\tATT_SUF,DET_PRE,DET_SUF\r",
  c!"LEXENTRY:\tSTREET\tSTREET\tTYPE\tDET_SUF\r",
  c!"LEXENTRY:\tSan.\tSanitäts\tWORD\tDETACH\r",
  c!"LEXENTRY:\tSanitäts\tSanitäts\tWORD\tDETACH\r",
  c!"LEXENTRY:\tSanitäts-Dr.\tSanitäts\tWORD\tDETACH\r",
  c!"LEXENTRY:\tSanitäts-Rat\tSanitäts\tWORD\tDETACH\r",
  c!"LEXENTRY:\tSankt\tSankt\tWORD\tDETACH\r",
  c!"LEXENTRY:\tSeb.\tSebastian\tWORD\tDETACH\r",
  c!"LEXENTRY:\tSebastian\tSebastian\tWORD\tDETACH\r",
  c!"LEXENTRY:\tSt.\tSankt\tWORD\tDETACH\r",
  c!"LEXENTRY:\tSüdl\tSüdliche\tDIRECT\tDET_PRE\r",
  c!"LEXENTRY:\tSüdliche\tSüdliche\tDIRECT\tDET_PRE\r",
  c!"LEXENTRY:\tSüdlicher\tSüdliche\tDIRECT\tDET_PRE\r",
  c!"LEXENTRY:\tSüdliches\tSüdliche\tDIRECT\tDET_PRE\r",
  c!"LEXENTRY:\tT\tTeich\tWORD\tDET_SUF\r",
  c!"LEXENTRY:\tTAL\tTAL\tTYPE\tATT_SUF\r",
  c!"LEXENTRY:\tTEICH\tTEICH\tTYPE\tATT_SUF\r",
  c!"LEXENTRY:\tTHURINGIA\tTHÜRINGEN\tPROV\tDETACH\r",
  c!"LEXENTRY:\tTHÜRINGEN\tTHÜRINGEN\tPROV\tDETACH\r",
  c!"LEXENTRY:\tTOR\tTOR\tTYPE\tATT_SUF,DET_SUF\r",
  c!"LEXENTRY:\tTREPPE\tTREPPE\tTYPE\tATT_SUF\r",
  c!"LEXENTRY:\tTruppenübungsplatz\tTruppenübungsplatz\tWORD\tDETACH\r",
  c!"LEXENTRY:\tTUNNEL\tTUNNEL\tTYPE\tATT_SUF,DET_SUF\r",
  c!"LEXENTRY:\tTüpl\tTruppenübungsplatz\tWORD\tDETACH\r",
  c!"LEXENTRY:\tU\tUnterer\tWORD\tDETACH\r",
  c!"LEXENTRY:\tUFER\tUFER\tTYPE\tATT_SUF\r",
  c!"LEXENTRY:\tUKH\tUnfallkrankenhaus\tBUILDT\tDETACH\r",
  c!"LEXENTRY:\tUnfallkrankenhaus\tUnfallkrankenhaus\tBUILDT\tDETACH\r",
  c!"LEXENTRY:\tUni\tUniversität\tBUILDT\tDETACH\r",
  c!"LEXENTRY:\tUniversität\tUniversität\tBUILDT\tDETACH\r",
  c!"LEXENTRY:\tUnt\tUntere\tDIRECT\tDET_PRE\r",
  c!"LEXENTRY:\tUntere\tUnterer\tWORD\tDETACH\r",
  c!"LEXENTRY:\tUnterer\tUnterer\tWORD\tDETACH\r",
  c!"LEXENTRY:\tUnteres\tUnterer\tWORD\tDETACH\r",
  c!"LEXENTRY:\tV.\tVon\tSTOPWORD\tDETACH\r",
  c!"LEXENTRY:\tV\tVan\tWORD\tDETACH\r",
  c!"LEXENTRY:\tV. d.\tVon der\tSTOPWORD\tDETACH\r",
  c!"LEXENTRY:\tV. d.\tVor der\tSTOPWORD\tDETACH\r",
  c!"LEXENTRY:\tV. d.\tVan der\tSTOPWORD\tDETACH\r"]

/-- data/sample/germany.lex:402-451 -/
def entries8 : List Str := [
  c!"LEXENTRY:\tVan\tVan\tWORD\tDETACH\r",
  c!"LEXENTRY:\tVEB\tVEB\tPLACEN\tDETACH\r",
  c!"LEXENTRY:\tVEREIN\tVEREIN\tPLACEN\tDETACH\r",
  c!"LEXENTRY:\tVOLKSEIGNER\tVOLKSEIGNER\tPLACEN\tDETACH\r",
  c!"LEXENTRY:\tVerl.\tVerlängerung\tWORD\tDETACH\r",
  c!"LEXENTRY:\tVerlängerung\tVerlängerung\tWORD\tDETACH\r",
  c!"LEXENTRY:\tVon\tVon\tSTOPWORD\tDETACH\r",
  c!"LEXENTRY:\tVs\tVolksschule\tBUILDT\tDETACH\r",
  c!"LEXENTRY:\tW.\tWald\tWORD\tATT_PRE, DET_SUF, ATT_SUF\r",
  c!"LEXENTRY:\tW.\tWeg\tTYPE, WORD\tATT_SUF, DET_SUF, DET_PRE\r",
  c!"LEXENTRY:\tWald\tWald\tWORD\tATT_PRE, DET_SUF, ATT_SUF\r",
  c!"LEXENTRY:\tWALL\tWALL\tTYPE\tATT_SUF\r",
  c!"LEXENTRY:\tWasserfall\tWasserfall\tWORD\tDETACH\r",
  c!"LEXENTRY:\tWAY\tWAY\tTYPE\tDET_SUF\r",
  c!"LEXENTRY:\tWEG\tWEG\tTYPE\tATT_PRE,ATT_SUF,DET_PRE,DET_SUF\r",
  c!"LEXENTRY:\tWestl\tWestliche\tDIRECT\tDET_PRE\r",
  c!"LEXENTRY:\tWestliche\tWestliche\tDIRECT\tDET_PRE\r",
  c!"LEXENTRY:\tWestlicher\tWestliche\tDIRECT\tDET_PRE\r",
  c!"LEXENTRY:\tWestliches\tWestliche\tDIRECT\tDET_PRE\r",
  c!"LEXENTRY:\tWh\tWirtshaus\tBUILDT\tDETACH\r",
  c!"LEXENTRY:\tWIESE\tWIESE\tTYPE\tATT_SUF\r",
  c!"LEXENTRY:\tWIESEN\tWIESEN\tTYPE\tATT_SUF\r",
  c!"LEXENTRY:\tWINKEL\tWINKEL\tTYPE\tATT_SUF,DET_SUF\r",
  c!"LEXENTRY:\tWirtshaus\tWirtshaus\tBUILDT\tDETACH\r",
  c!"LEXENTRY:\tWOHNUNG\tWOHNUNG\tUNITH\tDETACH\r",
  c!"LEXENTRY:\tWs\tWiese\tWORD\tDETACH\r",
  c!"LEXENTRY:\tWsf\tWasserfall\tWORD\tDETACH\r",
  c!"LEXENTRY:\tWssf\tWasserfall\tWORD\tDETACH\r",
  c!"LEXENTRY:\tZ.\tZum\tSTOPWORD\tDETACH\r",
  c!"LEXENTRY:\tZEILE\tZEILE\tTYPE\tATT_SUF,DET_SUF\r",
  c!"LEXENTRY:\tZum\tZum\tSTOPWORD\tDETACH\r",
  c!"LEXENTRY:\tZweite\tZweite\tORD,WORD\tDETACH\r",
  c!"LEXENTRY:\tZweiter\tZweite\tORD,WORD\tDETACH\r",
  c!"LEXENTRY:\tZweites\tZweite\tORD,WORD\tDETACH\r",
  c!"LEXENTRY:\tÜ.\tÜber\tWORD\tDETACH\r",
  c!"LEXENTRY:\tÜber\tÜber\tWORD\tDETACH\r",
  c!"LEXENTRY:\tBADEN-WÜRTTEMBERG\tBADEN-WÜRTTEMBERG\tPROV,WORD\tDETACH\r",
  c!"LEXENTRY:\tBADEN WÜRTTEMBERG\tBADEN-WÜRTTEMBERG\tPROV,WORD\tDETACH\r",
  c!"LEXENTRY:\tBAYERN\tBAYERN\tPROV,WORD\tDETACH\r",
  c!"LEXENTRY:\tBAYERN\tBAVARIA\tPROV,WORD\tDETACH\r",
  c!"LEXENTRY:\tBERLIN\tBERLIN \tPROV,WORD\tDETACH\r",
  c!"LEXENTRY:\tBRANDENBURG\tBRANDENBURG\tPROV,WORD\tDETACH\r",
  c!"LEXENTRY:\tBREMEN\tBREMEN\tPROV,WORD\tDETACH\r",
  c!"LEXENTRY:\tHAMBURG\tHAMBURG\tPROV,WORD\tDETACH\r",
  c!"LEXENTRY:\tHESSEN\tHESSEN\tPROV,WORD\tDETACH\r",
  c!"LEXENTRY:\tHESSE\tHESSEN\tPROV,WORD\tDETACH\r",
  c!"LEXENTRY:\tMECKLENBURG-VORPOMMERN\tMECKLENBURG-VORPOMMERN\tPROV,WORD\tDETACH\r",
  c!"LEXENTRY:\tMECKLENBURG VORPOMMERN\tMECKLENBURG-VORPOMMERN\tPROV,WORD\tDETACH\r",
  c!"LEXENTRY:\tMECHELEBERG POMERANIA\tMECKLENBURG-VORPOMMERN\tPROV,WORD\tDETACH\r",
  c!"LEXENTRY:\tNIEDERSACHSEN\tNIEDERSACHSEN\tPROV,WORD\tDETACH\r"]

/-- data/sample/germany.lex:452-471 -/
def entries9 : List Str := [
  c!"LEXENTRY:\tLOWER SAXONY\tNIEDERSACHSEN\tPROV,WORD\tDETACH\r",
  c!"LEXENTRY:\tNORDRHEIN-WESTFALEN\tNORDRHEIN-WESTFALEN\tPROV,WORD\tDETACH\r",
  c!"LEXENTRY:\tNORDRHEIN WESTFALEN\tNORDRHEIN-WESTFALEN\tPROV,WORD\tDETACH\r",
  c!"LEXENTRY:\tNORTH RHINE-WESTPHALIA\tNORDRHEIN-WESTFALEN\tPROV,WORD\tDETACH\r",
  c!"LEXENTRY:\tNORTH RHINE WESTPHALIA\tNORDRHEIN-WESTFALEN\tPROV,WORD\tDETACH\r",
  c!"LEXENTRY:\tRHEINLAND-PFALZ\tRHEINLAND-PFALZ\tPROV,WORD\tDETACH\r",
  c!"LEXENTRY:\tRHEINLAND PFALZ\tRHEINLAND-PFALZ\tPROV,WORD\tDETACH\r",
  c!"LEXENTRY:\tRHINELAND-PALATINATE\tRHEINLAND-PFALZ\tPROV,WORD\tDETACH\r",
  c!"LEXENTRY:\tRHINELAND PALATINATE\tRHEINLAND-PFALZ\tPROV,WORD\tDETACH\r",
  c!"LEXENTRY:\tSAARLAND\tSAARLAND\tPROV,WORD\tDETACH\r",
  c!"LEXENTRY:\tSACHSEN\tSACHSEN\tPROV,WORD\tDETACH\r",
  c!"LEXENTRY:\tSAXONY\tSACHSEN\tPROV,WORD\tDETACH\r",
  c!"LEXENTRY:\tSACHSEN-ANHALT\tSACHSEN-ANHALT\tPROV,WORD\tDETACH\r",
  c!"LEXENTRY:\tSACHSEN ANHALT\tSACHSEN-ANHALT\tPROV,WORD\tDETACH\r",
  c!"LEXENTRY:\tSAXONY-ANHALT\tSACHSEN-ANHALT\tPROV,WORD\tDETACH\r",
  c!"LEXENTRY:\tSAXONY ANHALT\tSACHSEN-ANHALT\tPROV,WORD\tDETACH\r",
  c!"LEXENTRY:\tSCHLESWIG-HOLSTEIN\tSCHLESWIG-HOLSTEIN\tPROV,WORD\tDETACH\r",
  c!"LEXENTRY:\tSCHLESWIG HOLSTEIN\tSCHLESWIG-HOLSTEIN\tPROV,WORD\tDETACH\r",
  c!"LEXENTRY:\tTHÜRINGEN\tTHÜRINGEN\tPROV,WORD\tDETACH\r",
  c!"LEXENTRY:\tTHURINGIA\tTHÜRINGEN\tPROV,WORD\tDETACH\r"]

/-- The text, and what is claimed of it. -/
def lexicon : LexSample where
  header := c!"LEXICON:\tlex-germany.txt\tGER\tde_DE\t\r"
  body := entries0 ++ entries1 ++ entries2 ++ entries3 ++ entries4 ++ entries5 ++ entries6 ++ entries7 ++ entries8
     ++ entries9
  lang := .GER
  locale := c!"de_DE"
  classes := [
    .CITY, .STOPWORD, .PLACEN, .TYPE, .BUILDT, .WORD, .PROV, .NATION, .ORD, .BUILDH, .DIRECT, .UNITH, .BOXH]

set_option maxRecDepth 1000000 in
theorem lexicon_checked : checkLex lexicon [0, 1, 5, 9, 10, 18, 33, 86, 104, 122, 164, 175, 315] = true := by decide +kernel

/-- What of the grammar cannot match. -/
def pair : Pair where
  sample := sample
  lexicon := lexicon
  idle := [
    c!"UNITH UNITT -> UNITH UNITT -> 0.8"]
  null := [.building, .predir, .qual, .pretype, .sufdir, .ruralroute]

/-- What shows it. -/
def pairCert : PairCert where
  dead := [.UNITT]
  barren := []
  reach := [
    c!"ADDRESS", c!"micro", c!"macro", c!"streetname", c!"housenumber", c!"unit", c!"pobox", c!"postal",
    c!"citywords", c!"region", c!"country", c!"city"]

set_option maxRecDepth 100000 in
theorem pair_checked : checkPair pair pairCert = true := by decide +kernel

end AS.Sample.Germany
