import Verif.Lemmas.FormData
import Verif.Spec.FormTable
import Verif.Spec.ApartTable
/-
The checks of the forms with an expression. Written by tools/forms.py.
-/
namespace AS.ApartChecks
set_option maxRecDepth 100000

theorem andorra : checkApart FormData.andorra FormTable.andorra ApartTable.andorra = true := by decide +kernel

theorem australia : checkApart FormData.australia FormTable.australia ApartTable.australia = true := by decide +kernel

theorem austria : checkApart FormData.austria FormTable.austria ApartTable.austria = true := by decide +kernel

theorem belgium : checkApart FormData.belgium FormTable.belgium ApartTable.belgium = true := by decide +kernel

theorem canada : checkApart FormData.canada FormTable.canada ApartTable.canada = true := by decide +kernel

theorem denmark : checkApart FormData.denmark FormTable.denmark ApartTable.denmark = true := by decide +kernel

theorem finland : checkApart FormData.finland FormTable.finland ApartTable.finland = true := by decide +kernel

theorem france : checkApart FormData.france FormTable.france ApartTable.france = true := by decide +kernel

theorem germany : checkApart FormData.germany FormTable.germany ApartTable.germany = true := by decide +kernel

theorem greatbritain : checkApart FormData.greatbritain FormTable.greatbritain ApartTable.greatbritain = true := by decide +kernel

theorem ireland : checkApart FormData.ireland FormTable.ireland ApartTable.ireland = true := by decide +kernel

theorem italy : checkApart FormData.italy FormTable.italy ApartTable.italy = true := by decide +kernel

theorem liechtenstein : checkApart FormData.liechtenstein FormTable.liechtenstein ApartTable.liechtenstein = true := by decide +kernel

theorem luxembourg : checkApart FormData.luxembourg FormTable.luxembourg ApartTable.luxembourg = true := by decide +kernel

theorem monaco : checkApart FormData.monaco FormTable.monaco ApartTable.monaco = true := by decide +kernel

theorem netherlands : checkApart FormData.netherlands FormTable.netherlands ApartTable.netherlands = true := by decide +kernel

theorem newzealand : checkApart FormData.newzealand FormTable.newzealand ApartTable.newzealand = true := by decide +kernel

theorem norway : checkApart FormData.norway FormTable.norway ApartTable.norway = true := by decide +kernel

theorem portugal : checkApart FormData.portugal FormTable.portugal ApartTable.portugal = true := by decide +kernel

theorem sanMarino : checkApart FormData.sanMarino FormTable.sanMarino ApartTable.sanMarino = true := by decide +kernel

theorem spain : checkApart FormData.spain FormTable.spain ApartTable.spain = true := by decide +kernel

theorem sweden : checkApart FormData.sweden FormTable.sweden ApartTable.sweden = true := by decide +kernel

theorem switzerland : checkApart FormData.switzerland FormTable.switzerland ApartTable.switzerland = true := by decide +kernel

theorem usa : checkApart FormData.usa FormTable.usa ApartTable.usa = true := by decide +kernel

theorem vatican : checkApart FormData.vatican FormTable.vatican ApartTable.vatican = true := by decide +kernel

end AS.ApartChecks
