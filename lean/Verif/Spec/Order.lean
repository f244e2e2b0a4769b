import Verif.Spec.Float
import Mathlib.Data.EReal.Basic

/-!
# Specification: the extended real number denoted by a bit pattern that is not NaN
-/

namespace Verif.Spec

/-- The extended real value of a bit pattern (meaningful if it is not a NaN). -/
noncomputable def extVal (N : ℕ) : EReal :=
  if IsInf N then (if signBit N = 0 then ⊤ else ⊥) else ((val N : ℝ) : EReal)

/-- The rank of a bit pattern in the IEEE 754 `totalOrder`: negative patterns (sign bit set)
come first, in decreasing order of their magnitude bits, then the positive patterns in
increasing order. So -NaN < -inf < negative numbers < -0 < +0 < positive numbers < inf < NaN. -/
def totalRank (N : ℕ) : ℤ :=
  if signBit N = 0 then ((N % 2 ^ 255 : ℕ) : ℤ) else -1 - ((N % 2 ^ 255 : ℕ) : ℤ)

end Verif.Spec
