import Verif.Props.Ln

/-!
# C58: the logarithms are not always correctly rounded
-/

namespace Verif.Props

open Verif Verif.Spec

set_option exponentiation.threshold 2000

/-- A pattern is not the nearest one if the number lies above the midpoint to the successor. -/
theorem not_rne_up {q : ℝ} {N c : ℕ} {e : ℤ} (hN : N + 1 < 2 ^ 255) (hq : |q| < overflowThreshold)
    (h1 : val N = (c : ℝ) * 2 ^ e) (h2 : val (N + 1) = ((c : ℝ) + 1) * 2 ^ e) (hf : IsFin (N + 1))
    (h : ((c : ℝ) + 1 / 2) * 2 ^ e < q) : ¬ IsRNE q N := by
  intro hr
  have := hr.nearest hq (N + 1) (by omega) hf
  have he : (0 : ℝ) < 2 ^ e := by positivity
  rw [h1, h2] at this
  generalize (2 : ℝ) ^ e = E at *
  rw [abs_of_neg (by nlinarith)] at this
  rcases abs_cases (((c : ℝ) + 1) * E - q) with ⟨h3, -⟩ | ⟨h3, -⟩ <;> rw [h3] at this <;> nlinarith

/-- `1 + 6 * 2^-236` -/
def nearOne : F256 := ⟨⟨0x3ffff000000000000000000000000000, 6⟩⟩

theorem ln_nearOne : (F256.ln nearOne).pat = 28922126957035890660562291048176713563819899605546557719509426211090587451387 := by decide +kernel

/-- The logarithm is not always correctly rounded: the result for `1 + 6 * 2^-236` is not the number nearest to the
logarithm. -/
theorem C58_not_nearest : LogDomain nearOne.pat ∧ ¬ IsRNE (Real.log (val nearOne.pat)) (F256.ln nearOne).pat := by
  refine ⟨(logDomain_iff (pat_lt _)).mpr (by decide +kernel), ?_⟩
  have hv : val nearOne.pat = 1 + 6 / 2 ^ 236 := by
    rw [val, show signBit nearOne.pat = 0 by decide +kernel, show significandOf nearOne.pat = 2 ^ 236 + 6 by decide +kernel,
      show quantumExp nearOne.pat = -((236 : ℕ) : ℤ) by decide +kernel, zpow_neg, zpow_natCast, pow_zero, one_mul]
    norm_num
  rw [hv]
  obtain ⟨N, hN⟩ : ∃ N : ℕ, 28922126957035890660562291048176713563819899605546557719509426211090587451387 = N := ⟨_, rfl⟩
  have hc : significandOf N = 6 * 2 ^ 234 - 5 := by rw [← hN]; decide +kernel
  have hz : (0 : ℝ) ≤ 6 / 2 ^ 236 := by positivity
  have hlog := Real.le_log_one_add_of_nonneg hz
  have hup := Real.log_le_sub_one_of_pos (by positivity : (0 : ℝ) < 1 + 6 / 2 ^ 236)
  have hlo := Real.log_nonneg (by norm_num : (1 : ℝ) ≤ 1 + 6 / 2 ^ 236)
  rw [ln_nearOne, hN]
  refine not_rne_up (c := 6 * 2 ^ 234 - 5) (e := -((470 : ℕ) : ℤ)) (by rw [← hN]; decide +kernel) (small_lt_threshold ?_) ?_ ?_
    (by rw [← hN]; decide +kernel) ?_
  · rw [abs_of_nonneg hlo]
    refine hup.trans ?_
    norm_num
  · rw [val, show signBit N = 0 by rw [← hN]; decide +kernel, pow_zero, one_mul, hc,
      show quantumExp N = -((470 : ℕ) : ℤ) by rw [← hN]; decide +kernel]
  · have : significandOf (N + 1) = 6 * 2 ^ 234 - 5 + 1 := by rw [← hN]; decide +kernel
    rw [val, show signBit (N + 1) = 0 by rw [← hN]; decide +kernel, pow_zero, one_mul, this,
      show quantumExp (N + 1) = -((470 : ℕ) : ℤ) by rw [← hN]; decide +kernel, Nat.cast_add, Nat.cast_one]
  · refine lt_of_lt_of_le ?_ hlog
    rw [zpow_neg, zpow_natCast]
    norm_num

end Verif.Props
