import Mathlib.Data.Real.Basic
import Mathlib.Algebra.Order.Field.Basic

/-!
# Specification of IEEE 754 binary256

A bit pattern is a natural number `N < 2^256`: 1 sign bit, 19 exponent bits (bias 262143),
236 fraction bits. This file defines, without reference to the model, the number a pattern
denotes and what it means for a pattern to be the correctly rounded result for a real number.
-/

namespace Verif.Spec

/-- The sign bit (bit 255). -/
def signBit (N : ℕ) : ℕ := N / 2 ^ 255 % 2

/-- The 19 exponent bits. -/
def expField (N : ℕ) : ℕ := N / 2 ^ 236 % 2 ^ 19

/-- The 236 fraction bits. -/
def fracField (N : ℕ) : ℕ := N % 2 ^ 236

def IsNaN (N : ℕ) : Prop := expField N = 524287 ∧ fracField N ≠ 0
def IsInf (N : ℕ) : Prop := expField N = 524287 ∧ fracField N = 0
def IsFin (N : ℕ) : Prop := expField N ≠ 524287
def IsZero (N : ℕ) : Prop := expField N = 0 ∧ fracField N = 0
def IsSubnormal (N : ℕ) : Prop := expField N = 0 ∧ fracField N ≠ 0
def IsNormal (N : ℕ) : Prop := expField N ≠ 0 ∧ expField N ≠ 524287

instance (N : ℕ) : Decidable (IsNaN N) := by unfold IsNaN; infer_instance
instance (N : ℕ) : Decidable (IsInf N) := by unfold IsInf; infer_instance
instance (N : ℕ) : Decidable (IsFin N) := by unfold IsFin; infer_instance
instance (N : ℕ) : Decidable (IsZero N) := by unfold IsZero; infer_instance
instance (N : ℕ) : Decidable (IsSubnormal N) := by unfold IsSubnormal; infer_instance
instance (N : ℕ) : Decidable (IsNormal N) := by unfold IsNormal; infer_instance

/-- The integral significand: with the hidden bit for normal numbers. -/
def significandOf (N : ℕ) : ℕ :=
  if expField N = 0 then fracField N else 2 ^ 236 + fracField N

/-- The exponent of the unit in the last place. -/
def quantumExp (N : ℕ) : ℤ := (if expField N = 0 then 1 else (expField N : ℤ)) - 262143 - 236

/-- The real number denoted by a finite bit pattern. -/
noncomputable def val (N : ℕ) : ℝ :=
  (-1) ^ signBit N * significandOf N * (2 : ℝ) ^ quantumExp N

/-- The rounding overflow threshold: the largest finite value `(2 - 2^-236) * 2^262143` plus
half a unit in its last place. -/
noncomputable def overflowThreshold : ℝ := (2 - (2 : ℝ) ^ (-237 : ℤ)) * 2 ^ (262143 : ℤ)

/-- `IsRNE q N`: the bit pattern `N` is the result of rounding the real number `q` to
binary256, to nearest, ties to even (IEEE 754 `roundTiesToEven`). For `q = 0` the sign of the
zero is left open (it is specified separately). -/
structure IsRNE (q : ℝ) (N : ℕ) : Prop where
  /-- it is a 256-bit pattern -/
  lt : N < 2 ^ 256
  /-- from the overflow threshold on, the result is infinite -/
  inf : overflowThreshold ≤ |q| → IsInf N
  /-- otherwise it is finite -/
  fin : |q| < overflowThreshold → IsFin N
  /-- no finite binary256 number is nearer -/
  nearest : |q| < overflowThreshold →
    ∀ M, M < 2 ^ 256 → IsFin M → |val N - q| ≤ |val M - q|
  /-- if another number is equally near, then the last bit of the result is 0 -/
  even : |q| < overflowThreshold →
    ∀ M, M < 2 ^ 256 → IsFin M → |val M - q| = |val N - q| → val M ≠ val N → N % 2 = 0
  /-- positive numbers give results with positive sign -/
  pos : 0 < q → signBit N = 0
  /-- negative numbers give results with negative sign -/
  neg : q < 0 → signBit N = 1

end Verif.Spec
