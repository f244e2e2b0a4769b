import Verif.Proofs.TrigCert

/-!
# Certificates for the windows 65989 to 131524
-/

namespace Verif.TrigCert

theorem chunk16 : chunk 65989 4096 = true := by decide +kernel

theorem chunk17 : chunk 70085 4096 = true := by decide +kernel

theorem chunk18 : chunk 74181 4096 = true := by decide +kernel

theorem chunk19 : chunk 78277 4096 = true := by decide +kernel

theorem chunk20 : chunk 82373 4096 = true := by decide +kernel

theorem chunk21 : chunk 86469 4096 = true := by decide +kernel

theorem chunk22 : chunk 90565 4096 = true := by decide +kernel

theorem chunk23 : chunk 94661 4096 = true := by decide +kernel

theorem chunk24 : chunk 98757 4096 = true := by decide +kernel

theorem chunk25 : chunk 102853 4096 = true := by decide +kernel

theorem chunk26 : chunk 106949 4096 = true := by decide +kernel

theorem chunk27 : chunk 111045 4096 = true := by decide +kernel

theorem chunk28 : chunk 115141 4096 = true := by decide +kernel

theorem chunk29 : chunk 119237 4096 = true := by decide +kernel

theorem chunk30 : chunk 123333 4096 = true := by decide +kernel

theorem chunk31 : chunk 127429 4096 = true := by decide +kernel

end Verif.TrigCert
