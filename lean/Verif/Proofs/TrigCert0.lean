import Verif.Proofs.TrigCert

/-!
# Certificates for the windows 453 to 65988
-/

namespace Verif.TrigCert

theorem chunk0 : chunk 453 4096 = true := by decide +kernel

theorem chunk1 : chunk 4549 4096 = true := by decide +kernel

theorem chunk2 : chunk 8645 4096 = true := by decide +kernel

theorem chunk3 : chunk 12741 4096 = true := by decide +kernel

theorem chunk4 : chunk 16837 4096 = true := by decide +kernel

theorem chunk5 : chunk 20933 4096 = true := by decide +kernel

theorem chunk6 : chunk 25029 4096 = true := by decide +kernel

theorem chunk7 : chunk 29125 4096 = true := by decide +kernel

theorem chunk8 : chunk 33221 4096 = true := by decide +kernel

theorem chunk9 : chunk 37317 4096 = true := by decide +kernel

theorem chunk10 : chunk 41413 4096 = true := by decide +kernel

theorem chunk11 : chunk 45509 4096 = true := by decide +kernel

theorem chunk12 : chunk 49605 4096 = true := by decide +kernel

theorem chunk13 : chunk 53701 4096 = true := by decide +kernel

theorem chunk14 : chunk 57797 4096 = true := by decide +kernel

theorem chunk15 : chunk 61893 4096 = true := by decide +kernel

end Verif.TrigCert
