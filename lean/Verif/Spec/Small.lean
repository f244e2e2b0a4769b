import Mathlib.Data.Real.Basic
import Mathlib.Algebra.Order.Field.Basic

/-!
# Specification of the smaller IEEE 754 binary formats

Parameterized by the number `eb` of exponent bits and `fb` of fraction bits: binary32 is
`eb = 8, fb = 23`, binary64 is `eb = 11, fb = 52`.
-/

namespace Verif.Spec.Small

variable (eb fb : ℕ)

def sign (N : ℕ) : ℕ := N / 2 ^ (eb + fb) % 2
def exponent (N : ℕ) : ℕ := N / 2 ^ fb % 2 ^ eb
def fraction (N : ℕ) : ℕ := N % 2 ^ fb

def IsNaN (N : ℕ) : Prop := exponent eb fb N = 2 ^ eb - 1 ∧ fraction fb N ≠ 0
def IsInf (N : ℕ) : Prop := exponent eb fb N = 2 ^ eb - 1 ∧ fraction fb N = 0
def IsFin (N : ℕ) : Prop := exponent eb fb N ≠ 2 ^ eb - 1

/-- The value of a finite pattern. -/
noncomputable def val (N : ℕ) : ℝ :=
  (-1) ^ sign eb fb N *
    (if exponent eb fb N = 0 then (fraction fb N : ℝ) else 2 ^ fb + (fraction fb N : ℝ)) *
    (2 : ℝ) ^ ((if exponent eb fb N = 0 then 1 else (exponent eb fb N : ℤ)) -
      (2 ^ (eb - 1) - 1) - (fb : ℤ))

end Verif.Spec.Small
