import Verif.Proofs.TrigCert

/-!
# Certificates for the windows 131525 to 197060
-/

namespace Verif.TrigCert

theorem chunk32 : chunk 131525 4096 = true := by decide +kernel

theorem chunk33 : chunk 135621 4096 = true := by decide +kernel

theorem chunk34 : chunk 139717 4096 = true := by decide +kernel

theorem chunk35 : chunk 143813 4096 = true := by decide +kernel

theorem chunk36 : chunk 147909 4096 = true := by decide +kernel

theorem chunk37 : chunk 152005 4096 = true := by decide +kernel

theorem chunk38 : chunk 156101 4096 = true := by decide +kernel

theorem chunk39 : chunk 160197 4096 = true := by decide +kernel

theorem chunk40 : chunk 164293 4096 = true := by decide +kernel

theorem chunk41 : chunk 168389 4096 = true := by decide +kernel

theorem chunk42 : chunk 172485 4096 = true := by decide +kernel

theorem chunk43 : chunk 176581 4096 = true := by decide +kernel

theorem chunk44 : chunk 180677 4096 = true := by decide +kernel

theorem chunk45 : chunk 184773 4096 = true := by decide +kernel

theorem chunk46 : chunk 188869 4096 = true := by decide +kernel

theorem chunk47 : chunk 192965 4096 = true := by decide +kernel

end Verif.TrigCert
