import Verif.Lemmas.FormData
import Verif.Spec.FormTable
/-
The checks of the forms. Written by tools/forms.py.
-/
namespace AS.FormChecks
set_option maxRecDepth 100000

theorem andorra : codes Sample.Andorra.sample FormData.andorra = true ∧ checkForms FormData.andorra FormTable.andorra = true :=
  ⟨by decide +kernel, by decide +kernel⟩

theorem australia : codes Sample.Australia.sample FormData.australia = true ∧ checkForms FormData.australia FormTable.australia = true :=
  ⟨by decide +kernel, by decide +kernel⟩

theorem austria : codes Sample.Austria.sample FormData.austria = true ∧ checkForms FormData.austria FormTable.austria = true :=
  ⟨by decide +kernel, by decide +kernel⟩

theorem belgium : codes Sample.Belgium.sample FormData.belgium = true ∧ checkForms FormData.belgium FormTable.belgium = true :=
  ⟨by decide +kernel, by decide +kernel⟩

theorem canada : codes Sample.Canada.sample FormData.canada = true ∧ checkForms FormData.canada FormTable.canada = true :=
  ⟨by decide +kernel, by decide +kernel⟩

theorem denmark : codes Sample.Denmark.sample FormData.denmark = true ∧ checkForms FormData.denmark FormTable.denmark = true :=
  ⟨by decide +kernel, by decide +kernel⟩

theorem finland : codes Sample.Finland.sample FormData.finland = true ∧ checkForms FormData.finland FormTable.finland = true :=
  ⟨by decide +kernel, by decide +kernel⟩

theorem france : codes Sample.France.sample FormData.france = true ∧ checkForms FormData.france FormTable.france = true :=
  ⟨by decide +kernel, by decide +kernel⟩

theorem germany : codes Sample.Germany.sample FormData.germany = true ∧ checkForms FormData.germany FormTable.germany = true :=
  ⟨by decide +kernel, by decide +kernel⟩

theorem greatbritain : codes Sample.Greatbritain.sample FormData.greatbritain = true ∧ checkForms FormData.greatbritain FormTable.greatbritain = true :=
  ⟨by decide +kernel, by decide +kernel⟩

theorem ireland : codes Sample.Ireland.sample FormData.ireland = true ∧ checkForms FormData.ireland FormTable.ireland = true :=
  ⟨by decide +kernel, by decide +kernel⟩

theorem italy : codes Sample.Italy.sample FormData.italy = true ∧ checkForms FormData.italy FormTable.italy = true :=
  ⟨by decide +kernel, by decide +kernel⟩

theorem liechtenstein : codes Sample.Liechtenstein.sample FormData.liechtenstein = true ∧ checkForms FormData.liechtenstein FormTable.liechtenstein = true :=
  ⟨by decide +kernel, by decide +kernel⟩

theorem luxembourg : codes Sample.Luxembourg.sample FormData.luxembourg = true ∧ checkForms FormData.luxembourg FormTable.luxembourg = true :=
  ⟨by decide +kernel, by decide +kernel⟩

theorem monaco : codes Sample.Monaco.sample FormData.monaco = true ∧ checkForms FormData.monaco FormTable.monaco = true :=
  ⟨by decide +kernel, by decide +kernel⟩

theorem netherlands : codes Sample.Netherlands.sample FormData.netherlands = true ∧ checkForms FormData.netherlands FormTable.netherlands = true :=
  ⟨by decide +kernel, by decide +kernel⟩

theorem newzealand : codes Sample.Newzealand.sample FormData.newzealand = true ∧ checkForms FormData.newzealand FormTable.newzealand = true :=
  ⟨by decide +kernel, by decide +kernel⟩

theorem norway : codes Sample.Norway.sample FormData.norway = true ∧ checkForms FormData.norway FormTable.norway = true :=
  ⟨by decide +kernel, by decide +kernel⟩

theorem portugal : codes Sample.Portugal.sample FormData.portugal = true ∧ checkForms FormData.portugal FormTable.portugal = true :=
  ⟨by decide +kernel, by decide +kernel⟩

theorem sanMarino : codes Sample.SanMarino.sample FormData.sanMarino = true ∧ checkForms FormData.sanMarino FormTable.sanMarino = true :=
  ⟨by decide +kernel, by decide +kernel⟩

theorem spain : codes Sample.Spain.sample FormData.spain = true ∧ checkForms FormData.spain FormTable.spain = true :=
  ⟨by decide +kernel, by decide +kernel⟩

theorem sweden : codes Sample.Sweden.sample FormData.sweden = true ∧ checkForms FormData.sweden FormTable.sweden = true :=
  ⟨by decide +kernel, by decide +kernel⟩

theorem switzerland : codes Sample.Switzerland.sample FormData.switzerland = true ∧ checkForms FormData.switzerland FormTable.switzerland = true :=
  ⟨by decide +kernel, by decide +kernel⟩

theorem usa : codes Sample.Usa.sample FormData.usa = true ∧ checkForms FormData.usa FormTable.usa = true :=
  ⟨by decide +kernel, by decide +kernel⟩

theorem vatican : codes Sample.Vatican.sample FormData.vatican = true ∧ checkForms FormData.vatican FormTable.vatican = true :=
  ⟨by decide +kernel, by decide +kernel⟩

end AS.FormChecks
