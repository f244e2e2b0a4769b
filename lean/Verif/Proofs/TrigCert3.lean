import Verif.Proofs.TrigCert

/-!
# Certificates for the windows 197061 to 262596
-/

namespace Verif.TrigCert

theorem chunk48 : chunk 197061 4096 = true := by decide +kernel

theorem chunk49 : chunk 201157 4096 = true := by decide +kernel

theorem chunk50 : chunk 205253 4096 = true := by decide +kernel

theorem chunk51 : chunk 209349 4096 = true := by decide +kernel

theorem chunk52 : chunk 213445 4096 = true := by decide +kernel

theorem chunk53 : chunk 217541 4096 = true := by decide +kernel

theorem chunk54 : chunk 221637 4096 = true := by decide +kernel

theorem chunk55 : chunk 225733 4096 = true := by decide +kernel

theorem chunk56 : chunk 229829 4096 = true := by decide +kernel

theorem chunk57 : chunk 233925 4096 = true := by decide +kernel

theorem chunk58 : chunk 238021 4096 = true := by decide +kernel

theorem chunk59 : chunk 242117 4096 = true := by decide +kernel

theorem chunk60 : chunk 246213 4096 = true := by decide +kernel

theorem chunk61 : chunk 250309 4096 = true := by decide +kernel

theorem chunk62 : chunk 254405 4096 = true := by decide +kernel

theorem chunk63 : chunk 258501 4096 = true := by decide +kernel

end Verif.TrigCert
