import Verif.Proofs.Degrees
import Verif.Proofs.RelErr
import Verif.Proofs.Pi
import Mathlib.Analysis.Real.Pi.Bounds
import Verif.Proofs.Exact

/-!
# C54: conversion between degrees and radians
-/

namespace Verif.Props

open Verif Verif.Spec

set_option exponentiation.threshold 1000

/-- The constant of `to_degrees` is `180/π * 2^250` with an error of less than 269375: its last 18 bits are wrong. -/
theorem M_DEG_err : |(nat256 F256.M_DEG : ℝ) - 180 / Real.pi * 2 ^ 250| ≤ 269375 := by
  obtain ⟨h1, h2⟩ := pi_tight
  have hp := Real.pi_pos
  obtain ⟨m, hm⟩ : ∃ m, nat256 F256.M_DEG = m := ⟨_, rfl⟩
  have c1 : (m - 269375) * (piNum + 1) ≤ 180 * 2 ^ 550 := by rw [← hm]; decide +kernel
  have c2 : 180 * 2 ^ 550 ≤ (m + 269375) * piNum := by rw [← hm]; decide +kernel
  have c0 : 269375 ≤ m := by rw [← hm]; decide +kernel
  rw [hm]
  have c1R : ((m : ℝ) - 269375) * (piNum + 1) ≤ 180 * 2 ^ 550 := by
    have : (((m - 269375) * (piNum + 1) : ℕ) : ℝ) ≤ ((180 * 2 ^ 550 : ℕ) : ℝ) := Nat.cast_le.mpr c1
    rwa [Nat.cast_mul, Nat.cast_sub c0, Nat.cast_add, Nat.cast_one, Nat.cast_mul, Nat.cast_pow, Nat.cast_ofNat,
      Nat.cast_ofNat, Nat.cast_ofNat] at this
  have c2R : (180 : ℝ) * 2 ^ 550 ≤ ((m : ℝ) + 269375) * piNum := by
    have : ((180 * 2 ^ 550 : ℕ) : ℝ) ≤ (((m + 269375) * piNum : ℕ) : ℝ) := Nat.cast_le.mpr c2
    rwa [Nat.cast_mul, Nat.cast_mul, Nat.cast_add, Nat.cast_pow, Nat.cast_ofNat,
      Nat.cast_ofNat, Nat.cast_ofNat] at this
  have c0R : (0 : ℝ) ≤ (m : ℝ) - 269375 := by
    have : ((269375 : ℕ) : ℝ) ≤ m := Nat.cast_le.mpr c0
    rw [Nat.cast_ofNat] at this; linarith
  generalize (piNum : ℝ) = P at *
  have e : (2 : ℝ) ^ 550 = 2 ^ 250 * 2 ^ 300 := by rw [← pow_add]
  have h300 : (0 : ℝ) < 2 ^ 300 := by positivity
  rw [e] at c1R c2R
  generalize (2 : ℝ) ^ 300 = Q at *
  generalize (2 : ℝ) ^ 250 = R at *
  have hQ : Real.pi * Q > 0 := mul_pos hp h300
  have g1 : ((m : ℝ) - 269375) * Real.pi ≤ 180 * R := by
    refine le_of_mul_le_mul_right ?_ h300
    calc ((m : ℝ) - 269375) * Real.pi * Q = ((m : ℝ) - 269375) * (Real.pi * Q) := by ring
      _ ≤ ((m : ℝ) - 269375) * (P + 1) := mul_le_mul_of_nonneg_left h2 c0R
      _ ≤ 180 * R * Q := by linarith
  have g2 : 180 * R ≤ ((m : ℝ) + 269375) * Real.pi := by
    refine le_of_mul_le_mul_right ?_ h300
    calc 180 * R * Q ≤ ((m : ℝ) + 269375) * P := by linarith
      _ ≤ ((m : ℝ) + 269375) * (Real.pi * Q) := mul_le_mul_of_nonneg_left h1 (by linarith)
      _ = _ := by ring
  have e2 : 180 / Real.pi * R = 180 * R / Real.pi := by ring
  rw [e2, abs_le]
  constructor
  · have : 180 * R / Real.pi ≤ (m : ℝ) + 269375 := by rw [div_le_iff₀ hp]; exact g2
    linarith
  · have : (m : ℝ) - 269375 ≤ 180 * R / Real.pi := by rw [le_div_iff₀ hp]; exact g1
    linarith

/-- The constant of `to_radians` is `π/180 * 2^261`, truncated. -/
theorem M_RAD_err : |(nat256 F256.M_RAD : ℝ) - Real.pi / 180 * 2 ^ 261| ≤ 1 := by
  obtain ⟨h1, h2⟩ := pi_tight
  obtain ⟨m, hm⟩ : ∃ m, nat256 F256.M_RAD = m := ⟨_, rfl⟩
  have c1 : m * 180 * 2 ^ 39 ≤ piNum := by rw [← hm]; decide +kernel
  have c2 : piNum + 1 ≤ (m + 1) * 180 * 2 ^ 39 := by rw [← hm]; decide +kernel
  rw [hm]
  have c1R : (m : ℝ) * 180 * 2 ^ 39 ≤ piNum := by exact_mod_cast c1
  have c2R : (piNum : ℝ) + 1 ≤ ((m : ℝ) + 1) * 180 * 2 ^ 39 := by exact_mod_cast c2
  generalize (piNum : ℝ) = P at *
  have e : (2 : ℝ) ^ 300 = 2 ^ 261 * 2 ^ 39 := by rw [← pow_add]
  rw [e] at h1 h2
  generalize (2 : ℝ) ^ 261 = R at *
  rw [abs_le]
  constructor <;> linarith

theorem exp_of_le {x : F256} {k : ℕ} (h : (2 : ℝ) ^ k ≤ |val x.pat| * 2 ^ 262378) :
    ¬ IsZero x.pat ∧ k ≤ expField x.pat - 1 + (significandOf x.pat).log2 := by
  constructor
  · intro h0
    rw [val_zero h0, abs_zero, zero_mul] at h
    have : (0 : ℝ) < 2 ^ k := by positivity
    linarith
  · rw [abs_val] at h
    have h1 : 2 ^ k ≤ mag x.pat := by exact_mod_cast h
    unfold mag at h1
    have h2 : significandOf x.pat < 2 ^ ((significandOf x.pat).log2 + 1) := Nat.lt_log2_self
    have h3 : 2 ^ k < 2 ^ ((significandOf x.pat).log2 + 1 + (expField x.pat - 1)) := by
      rw [pow_add]
      exact lt_of_le_of_lt h1 (Nat.mul_lt_mul_of_pos_right h2 (Nat.two_pow_pos _))
    have := (Nat.pow_lt_pow_iff_right (by norm_num)).mp h3
    omega

/-- From the error of the rounded number to the error of the result. -/
theorem total_error {q q' ε : ℝ} {N : ℕ} (h : IsRNE q' N) (he : |q' - q| ≤ ε * |q|) (hε : ε ≤ 1 / 2 ^ 236)
    (h1 : 2 ^ 236 * (1 + 1 / 2 ^ 200) ≤ |q| * 2 ^ 262378)
    (h2 : |q| * 2 ^ 262378 ≤ (1 - 1 / 2 ^ 200) * 2 ^ (237 + 524285)) :
    IsFin N ∧ |val N - q| ≤ (ε + 17 / 16 / 2 ^ 237) * |q| := by
  have hK : (0 : ℝ) < 2 ^ 262378 := by positivity
  have hq : 0 ≤ |q| := abs_nonneg q
  have a1 : |q'| ≤ (1 + ε) * |q| := by
    have := abs_sub_abs_le_abs_sub q' q
    linarith
  have a2 : (1 - ε) * |q| ≤ |q'| := by
    have := abs_sub_abs_le_abs_sub q q'
    rw [abs_sub_comm] at this
    linarith
  have b1 : 2 ^ 236 ≤ |q'| * 2 ^ 262378 := by
    calc (2 : ℝ) ^ 236 ≤ (1 - 1 / 2 ^ 236) * (2 ^ 236 * (1 + 1 / 2 ^ 200)) := by norm_num
      _ ≤ (1 - ε) * (|q| * 2 ^ 262378) := by
        refine mul_le_mul (by linarith) h1 (by positivity) ?_
        have : (1 : ℝ) / 2 ^ 236 ≤ 1 := by norm_num
        linarith
      _ = (1 - ε) * |q| * 2 ^ 262378 := by ring
      _ ≤ _ := mul_le_mul_of_nonneg_right a2 hK.le
  have b2 : |q'| < overflowThreshold := by
    refine lt_of_mul_lt_mul_right ?_ hK.le
    rw [threshold_eq]
    calc |q'| * 2 ^ 262378 ≤ (1 + ε) * |q| * 2 ^ 262378 := mul_le_mul_of_nonneg_right a1 hK.le
      _ = (1 + ε) * (|q| * 2 ^ 262378) := by ring
      _ ≤ (1 + 1 / 2 ^ 236) * ((1 - 1 / 2 ^ 200) * 2 ^ (237 + 524285)) :=
        mul_le_mul (by linarith) h2 (mul_nonneg hq hK.le) (by positivity)
      _ = ((1 + 1 / 2 ^ 236) * (1 - 1 / 2 ^ 200) * 2 ^ 237) * 2 ^ 524285 := by rw [pow_add]; ring
      _ < _ := by
        refine mul_lt_mul_of_pos_right ?_ (by positivity)
        norm_num
  refine ⟨h.fin b2, ?_⟩
  have c1 := IsRNE.rel_error h b1 b2
  have c2 : |val N - q| ≤ |val N - q'| + |q' - q| := by
    have := abs_add_le (val N - q') (q' - q)
    rwa [sub_add_sub_cancel] at this
  have c3 : |q'| / 2 ^ 237 ≤ 17 / 16 / 2 ^ 237 * |q| := by
    rw [div_le_iff₀ (by positivity)]
    have : (1 + ε) * |q| ≤ 17 / 16 * |q| := mul_le_mul_of_nonneg_right (by
      have : (1 : ℝ) / 2 ^ 236 ≤ 1 / 16 := by norm_num
      linarith) hq
    have e : (17 : ℝ) / 16 / 2 ^ 237 * |q| * 2 ^ 237 = 17 / 16 * |q| := by field_simp
    rw [e]
    linarith
  rw [add_mul]
  linarith

theorem val_ONE_d : val F256.ONE.pat = 1 := by
  rw [val, show signBit F256.ONE.pat = 0 by decide +kernel, show significandOf F256.ONE.pat = 2 ^ 236 by decide +kernel,
    show quantumExp F256.ONE.pat = -236 by decide +kernel, Nat.cast_pow, Nat.cast_ofNat,
    show (-236 : ℤ) = -((236 : ℕ) : ℤ) by norm_num, zpow_neg, zpow_natCast, pow_zero, one_mul]
  exact mul_inv_cancel₀ (by positivity)

/-- C54 (partial), `to_degrees`: from `2^-262147` on and up to overflow the result is finite, has the sign of `x`, and
its relative error is at most `2^-235`. Missing: it is not correctly rounded (`C54_counterexample_degrees`), and zeros,
infinities, NaNs, smaller and larger numbers are not converted properly (`C54_counterexample_special`). -/
theorem C54_degrees_partial (x : F256) (hx : (2 : ℝ) ^ (-262147 : ℤ) ≤ |val x.pat|)
    (hr : |val x.pat * (180 / Real.pi)| ≤ (1 - 1 / 2 ^ 200) * 2 ^ (262144 : ℤ)) :
    IsFin (F256.toDegrees x).pat ∧ signBit (F256.toDegrees x).pat = signBit x.pat ∧
    |val (F256.toDegrees x).pat - val x.pat * (180 / Real.pi)| ≤
      1 / 2 ^ 235 * |val x.pat * (180 / Real.pi)| := by
  have hK : (0 : ℝ) < 2 ^ 262378 := by positivity
  have hp := Real.pi_pos
  have hμ : 0 < 180 / Real.pi := by positivity
  have hx2 : (2 : ℝ) ^ 231 ≤ |val x.pat| * 2 ^ 262378 := by
    have e : (2 : ℝ) ^ (-262147 : ℤ) * 2 ^ 262378 = 2 ^ 231 := by
      rw [← zpow_natCast, ← zpow_natCast, ← zpow_add₀ (by norm_num)]
      rfl
    have := mul_le_mul_of_nonneg_right hx hK.le
    rwa [e] at this
  have hub : |val x.pat * (180 / Real.pi)| * 2 ^ 262378 ≤ (1 - 1 / 2 ^ 200) * 2 ^ (237 + 524285) := by
    have e : (2 : ℝ) ^ (262144 : ℤ) * 2 ^ 262378 = 2 ^ (237 + 524285) := by
      rw [← zpow_natCast, ← zpow_natCast, ← zpow_add₀ (by norm_num)]
      rfl
    have := mul_le_mul_of_nonneg_right hr hK.le
    rwa [mul_assoc, e] at this
  obtain ⟨h0, hT⟩ := exp_of_le hx2
  have hmlo : (2 : ℝ) ^ 255 * (7 / 4) ≤ nat256 F256.M_DEG := by
    have : 2 ^ 253 * 7 ≤ nat256 F256.M_DEG := by decide +kernel
    have h2 : ((2 ^ 253 * 7 : ℕ) : ℝ) ≤ (nat256 F256.M_DEG : ℝ) := Nat.cast_le.mpr this
    rw [Nat.cast_mul, Nat.cast_pow, Nat.cast_ofNat, Nat.cast_ofNat] at h2
    refine le_trans (le_of_eq ?_) h2
    norm_num
  obtain ⟨q', g1, g2, g3⟩ := scaleAngle_spec (m := F256.M_DEG) (k := 250) (μ := 180 / Real.pi) (δ := 269375)
    (ε := 1 / 2 ^ 236) x h0 hμ M_DEG_err (by norm_num) (by decide +kernel)
    (by
      calc (1 : ℝ) / 2 + 269375 / 2 ^ 18 ≤ 1 / 2 ^ 236 * ((2 ^ 255 * (7 / 4) - 269375) / 2 ^ 19) := by norm_num
        _ ≤ _ := by gcongr)
    (by omega) hub
  have hlow : 2 ^ 236 * (1 + 1 / 2 ^ 200) ≤ |val x.pat * (180 / Real.pi)| * 2 ^ 262378 := by
    rw [abs_mul, abs_of_pos hμ, mul_right_comm]
    have : (45 : ℝ) ≤ 180 / Real.pi := by
      rw [le_div_iff₀ hp]; linarith [Real.pi_le_four]
    calc (2 : ℝ) ^ 236 * (1 + 1 / 2 ^ 200) ≤ 2 ^ 231 * 45 := by norm_num
      _ ≤ _ := mul_le_mul hx2 this (by norm_num) (mul_nonneg (abs_nonneg _) hK.le)
  obtain ⟨f1, f2⟩ := total_error g1 g2 le_rfl hlow hub
  refine ⟨f1, g3, f2.trans (mul_le_mul_of_nonneg_right ?_ (abs_nonneg _))⟩
  norm_num

/-- The hypotheses of `C54_degrees_partial` hold for instance for 1. -/
example : (2 : ℝ) ^ (-262147 : ℤ) ≤ |val F256.ONE.pat| ∧
    |val F256.ONE.pat * (180 / Real.pi)| ≤ (1 - 1 / 2 ^ 200) * 2 ^ (262144 : ℤ) := by
  rw [val_ONE_d, abs_one, one_mul]
  constructor
  · exact zpow_le_one_of_nonpos₀ (by norm_num) (by norm_num)
  · have h3 := Real.pi_gt_three
    have hp := Real.pi_pos
    have h1 : 180 / Real.pi ≤ 60 := by rw [div_le_iff₀ hp]; linarith
    have h2 : (2 : ℝ) ^ (7 : ℤ) ≤ 2 ^ (262144 : ℤ) := zpow_le_zpow_right₀ (by norm_num) (by norm_num)
    rw [abs_of_pos (by positivity)]
    have h4 : (1 / 2 : ℝ) ≤ 1 - 1 / 2 ^ 200 := by norm_num
    have h5 : (2 : ℝ) ^ (7 : ℤ) = 128 := by norm_num
    rw [h5] at h2
    generalize (2 : ℝ) ^ (262144 : ℤ) = Z at *
    generalize (1 - 1 / 2 ^ 200 : ℝ) = Y at *
    nlinarith

/-- C54 (partial), `to_radians`: for all numbers from `2^-262136` on the result is finite, has the sign of `x`, and
its relative error is at most `2^-236`. Missing: it is not always correctly rounded (`C54_counterexample_radians`), and
zeros, infinities, NaNs and smaller numbers are not converted properly (`C54_counterexample_special`). -/
theorem C54_radians_partial (x : F256) (hf : IsFin x.pat) (hx : (2 : ℝ) ^ (-262136 : ℤ) ≤ |val x.pat|) :
    IsFin (F256.toRadians x).pat ∧ signBit (F256.toRadians x).pat = signBit x.pat ∧
    |val (F256.toRadians x).pat - val x.pat * (Real.pi / 180)| ≤
      1 / 2 ^ 236 * |val x.pat * (Real.pi / 180)| := by
  have hK : (0 : ℝ) < 2 ^ 262378 := by positivity
  have hp := Real.pi_pos
  have hp3 := Real.pi_gt_three
  have hp4 := Real.pi_le_four
  have hμ : 0 < Real.pi / 180 := by positivity
  have hx2 : (2 : ℝ) ^ 242 ≤ |val x.pat| * 2 ^ 262378 := by
    have e : (2 : ℝ) ^ (-262136 : ℤ) * 2 ^ 262378 = 2 ^ 242 := by
      rw [← zpow_natCast, ← zpow_natCast, ← zpow_add₀ (by norm_num)]
      rfl
    have := mul_le_mul_of_nonneg_right hx hK.le
    rwa [e] at this
  have hub : |val x.pat * (Real.pi / 180)| * 2 ^ 262378 ≤ (1 - 1 / 2 ^ 200) * 2 ^ (237 + 524285) := by
    have h1 := abs_val_lt (pat_lt x) hf
    have h2 := mul_le_mul_of_nonneg_right h1.le hK.le
    rw [threshold_eq] at h2
    rw [abs_mul, abs_of_pos hμ, mul_right_comm]
    calc |val x.pat| * 2 ^ 262378 * (Real.pi / 180) ≤ ((2 : ℝ) ^ 237 - 1 / 2) * 2 ^ 524285 * (1 / 45) :=
          mul_le_mul h2 (by linarith) hμ.le (mul_nonneg (by norm_num) (by positivity))
      _ = (((2 : ℝ) ^ 237 - 1 / 2) * (1 / 45)) * 2 ^ 524285 := by ring
      _ ≤ ((1 - 1 / 2 ^ 200) * 2 ^ 237) * 2 ^ 524285 := mul_le_mul_of_nonneg_right (by norm_num) (by positivity)
      _ = _ := by rw [pow_add]; ring
  obtain ⟨h0, hT⟩ := exp_of_le hx2
  have hmlo : (2 : ℝ) ^ 255 * (11 / 10) ≤ nat256 F256.M_RAD := by
    have : 2 ^ 255 * 11 ≤ nat256 F256.M_RAD * 10 := by decide +kernel
    have h2 : ((2 ^ 255 * 11 : ℕ) : ℝ) ≤ ((nat256 F256.M_RAD * 10 : ℕ) : ℝ) := Nat.cast_le.mpr this
    rw [Nat.cast_mul, Nat.cast_pow, Nat.cast_ofNat, Nat.cast_ofNat, Nat.cast_mul, Nat.cast_ofNat] at h2
    linarith
  obtain ⟨q', g1, g2, g3⟩ := scaleAngle_spec (m := F256.M_RAD) (k := 261) (μ := Real.pi / 180) (δ := 1)
    (ε := 15 / 16 / 2 ^ 237) x h0 hμ M_RAD_err (by norm_num) (by decide +kernel)
    (by
      calc (1 : ℝ) / 2 + 1 / 2 ^ 18 ≤ 15 / 16 / 2 ^ 237 * ((2 ^ 255 * (11 / 10) - 1) / 2 ^ 19) := by norm_num
        _ ≤ _ := by gcongr)
    (by omega) hub
  have hlow : 2 ^ 236 * (1 + 1 / 2 ^ 200) ≤ |val x.pat * (Real.pi / 180)| * 2 ^ 262378 := by
    rw [abs_mul, abs_of_pos hμ, mul_right_comm]
    have : (1.05 / 64 : ℝ) ≤ Real.pi / 180 := by linarith
    calc (2 : ℝ) ^ 236 * (1 + 1 / 2 ^ 200) ≤ 2 ^ 242 * (1.05 / 64) := by norm_num
      _ ≤ _ := mul_le_mul hx2 this (by norm_num) (mul_nonneg (abs_nonneg _) hK.le)
  obtain ⟨f1, f2⟩ := total_error g1 g2 (by norm_num) hlow hub
  refine ⟨f1, g3, f2.trans (mul_le_mul_of_nonneg_right ?_ (abs_nonneg _))⟩
  norm_num

/-- The hypotheses of `C54_radians_partial` hold for instance for 1. -/
example : IsFin F256.ONE.pat ∧ (2 : ℝ) ^ (-262136 : ℤ) ≤ |val F256.ONE.pat| := by
  refine ⟨by decide, ?_⟩
  rw [val_ONE_d, abs_one]
  exact zpow_le_one_of_nonpos₀ (by norm_num) (by norm_num)

/-- A number `N` is not the correctly rounded value of `q` if `q` is below the middle between `N` and its
predecessor. -/
theorem not_rne {q : ℝ} {N c : ℕ} {e : ℤ} (hN : N + 1 < 2 ^ 255) (hq : |q| < overflowThreshold)
    (h1 : val N = (c : ℝ) * 2 ^ e) (h2 : val (N - 1) = ((c : ℝ) - 1) * 2 ^ e) (hf : IsFin (N - 1))
    (h : q < ((c : ℝ) - 1 / 2) * 2 ^ e) : ¬ IsRNE q N := by
  intro hr
  have := hr.nearest hq (N - 1) (by omega) hf
  have he : (0 : ℝ) < 2 ^ e := by positivity
  rw [h1, h2] at this
  generalize (2 : ℝ) ^ e = E at *
  rw [abs_of_pos (by nlinarith)] at this
  rcases abs_cases (((c : ℝ) - 1) * E - q) with ⟨h3, -⟩ | ⟨h3, -⟩ <;> rw [h3] at this <;> nlinarith

theorem small_lt_threshold {q : ℝ} (h : |q| ≤ 128) : |q| < overflowThreshold := by
  unfold overflowThreshold
  have h2 : (2 : ℝ) ^ (8 : ℤ) ≤ 2 ^ (262143 : ℤ) := zpow_le_zpow_right₀ (by norm_num) (by norm_num)
  have h5 : (2 : ℝ) ^ (8 : ℤ) = 256 := by norm_num
  rw [h5] at h2
  have h6 : (1 : ℝ) ≤ 2 - 2 ^ (-237 : ℤ) := by norm_num
  generalize (2 : ℝ) ^ (262143 : ℤ) = Z at *
  nlinarith

/-- Even `1.0.to_degrees()` is not the number nearest to `180/π`. -/
theorem C54_counterexample_degrees :
    ¬ IsRNE (val F256.ONE.pat * (180 / Real.pi)) (F256.toDegrees F256.ONE).pat := by
  rw [val_ONE_d, one_mul]
  have hp := Real.pi_pos
  have hp3 := Real.pi_gt_three
  obtain ⟨N, hN⟩ : ∃ N, (F256.toDegrees F256.ONE).pat = N := ⟨_, rfl⟩
  obtain ⟨c, hc⟩ : ∃ c, significandOf N = c := ⟨_, rfl⟩
  have c1 : 360 * 2 ^ 531 < (2 * c - 1) * piNum := by rw [← hc, ← hN]; decide +kernel
  have c2 : 1 ≤ c := by rw [← hc, ← hN]; decide +kernel
  rw [hN]
  refine not_rne (c := c) (e := -231) (by rw [← hN]; decide +kernel) (small_lt_threshold ?_) ?_ ?_
    (by rw [← hN]; decide +kernel) ?_
  · rw [abs_of_pos (by positivity), div_le_iff₀ hp]; linarith
  · rw [val, show signBit N = 0 by rw [← hN]; decide +kernel, pow_zero, one_mul, hc,
      show quantumExp N = -231 by rw [← hN]; decide +kernel]
  · have : significandOf (N - 1) = c - 1 := by rw [← hc, ← hN]; decide +kernel
    rw [val, show signBit (N - 1) = 0 by rw [← hN]; decide +kernel, pow_zero, one_mul, this,
      show quantumExp (N - 1) = -231 by rw [← hN]; decide +kernel, Nat.cast_sub c2, Nat.cast_one]
  · have h1 := pi_tight.1
    have c1R : (360 : ℝ) * 2 ^ 531 < (2 * (c : ℝ) - 1) * piNum := by
      have : ((360 * 2 ^ 531 : ℕ) : ℝ) < (((2 * c - 1) * piNum : ℕ) : ℝ) := Nat.cast_lt.mpr c1
      rwa [Nat.cast_mul, Nat.cast_mul, Nat.cast_sub (by omega), Nat.cast_mul, Nat.cast_pow, Nat.cast_ofNat,
        Nat.cast_ofNat, Nat.cast_one] at this
    have c2R : (1 : ℝ) ≤ c := by exact_mod_cast c2
    rw [div_lt_iff₀ hp]
    have e : (2 : ℝ) ^ 531 = 2 ^ 231 * 2 ^ 300 := by rw [← pow_add]
    rw [e] at c1R
    rw [show (-231 : ℤ) = -((231 : ℕ) : ℤ) by norm_num, zpow_neg, zpow_natCast]
    have h231 : (0 : ℝ) < 2 ^ 231 := by positivity
    have h300 : (0 : ℝ) < 2 ^ 300 := by positivity
    generalize (2 : ℝ) ^ 231 = E at *
    generalize (2 : ℝ) ^ 300 = Q at *
    rw [mul_right_comm, ← div_eq_mul_inv, lt_div_iff₀ h231]
    have h5 : (2 * (c : ℝ) - 1) * piNum ≤ (2 * (c : ℝ) - 1) * (Real.pi * Q) :=
      mul_le_mul_of_nonneg_left h1 (by linarith)
    have h6 : 360 * E * Q < (2 * (c : ℝ) - 1) * Real.pi * Q := by linarith
    have h7 := lt_of_mul_lt_mul_right h6 h300.le
    linarith

/-- 121 -/
def X121 : F256 := F256.encode 0 0 (U256.new 0 121)

/-- `121.0.to_radians()` is not the number nearest to `121 * π/180`: it is rounded twice. -/
theorem C54_counterexample_radians :
    val X121.pat = 121 ∧ ¬ IsRNE (val X121.pat * (Real.pi / 180)) (F256.toRadians X121).pat := by
  have h121 : val X121.pat = 121 := by
    rw [val, show signBit X121.pat = 0 by decide +kernel, show significandOf X121.pat = 121 * 2 ^ 230 by decide +kernel,
      show quantumExp X121.pat = -230 by decide +kernel, Nat.cast_mul, Nat.cast_pow, Nat.cast_ofNat, Nat.cast_ofNat,
      show (-230 : ℤ) = -((230 : ℕ) : ℤ) by norm_num, zpow_neg, zpow_natCast, pow_zero, one_mul]
    have : (0 : ℝ) < 2 ^ 230 := by positivity
    field_simp
  refine ⟨h121, ?_⟩
  rw [h121]
  have hp := Real.pi_pos
  have hp4 := Real.pi_le_four
  obtain ⟨N, hN⟩ : ∃ N, (F256.toRadians X121).pat = N := ⟨_, rfl⟩
  obtain ⟨c, hc⟩ : ∃ c, significandOf N = c := ⟨_, rfl⟩
  have c1 : 242 * (piNum + 1) < (2 * c - 1) * 180 * 2 ^ 65 := by rw [← hc, ← hN]; decide +kernel
  have c2 : 1 ≤ c := by rw [← hc, ← hN]; decide +kernel
  rw [hN]
  refine not_rne (c := c) (e := -235) (by rw [← hN]; decide +kernel) (small_lt_threshold ?_) ?_ ?_
    (by rw [← hN]; decide +kernel) ?_
  · rw [abs_of_pos (by positivity)]; linarith
  · rw [val, show signBit N = 0 by rw [← hN]; decide +kernel, pow_zero, one_mul, hc,
      show quantumExp N = -235 by rw [← hN]; decide +kernel]
  · have : significandOf (N - 1) = c - 1 := by rw [← hc, ← hN]; decide +kernel
    rw [val, show signBit (N - 1) = 0 by rw [← hN]; decide +kernel, pow_zero, one_mul, this,
      show quantumExp (N - 1) = -235 by rw [← hN]; decide +kernel, Nat.cast_sub c2, Nat.cast_one]
  · have h2 := pi_tight.2
    have c1R : (242 : ℝ) * (piNum + 1) < (2 * (c : ℝ) - 1) * 180 * 2 ^ 65 := by
      have : ((242 * (piNum + 1) : ℕ) : ℝ) < (((2 * c - 1) * 180 * 2 ^ 65 : ℕ) : ℝ) := Nat.cast_lt.mpr c1
      rwa [Nat.cast_mul, Nat.cast_mul, Nat.cast_mul, Nat.cast_sub (by omega), Nat.cast_mul, Nat.cast_pow, Nat.cast_ofNat,
        Nat.cast_ofNat, Nat.cast_one, Nat.cast_add, Nat.cast_one, Nat.cast_ofNat] at this
    have e : (2 : ℝ) ^ 300 = 2 ^ 235 * 2 ^ 65 := by rw [← pow_add]
    rw [e] at h2
    rw [show (-235 : ℤ) = -((235 : ℕ) : ℤ) by norm_num, zpow_neg, zpow_natCast]
    have h235 : (0 : ℝ) < 2 ^ 235 := by positivity
    have h65 : (0 : ℝ) < 2 ^ 65 := by positivity
    generalize (2 : ℝ) ^ 235 = E at *
    generalize (2 : ℝ) ^ 65 = Q at *
    rw [← div_eq_mul_inv, lt_div_iff₀ h235]
    have h6 : 242 * (Real.pi * E) * Q < (2 * (c : ℝ) - 1) * 180 * Q := by linarith
    have h7 := lt_of_mul_lt_mul_right h6 h65.le
    linarith

/-- In a release build, `0.0.to_degrees()` is `2^-233`, the infinities and NaN become finite numbers (and positive
infinity a negative one), `MAX.to_degrees()` is negative, as are the results for the least positive number. -/
theorem C54_counterexample_special :
    val (F256.toDegrees F256.ZERO).pat = 2 ^ (-233 : ℤ) ∧ IsFin (F256.toRadians F256.ZERO).pat ∧
    ¬ IsZero (F256.toRadians F256.ZERO).pat ∧
    (IsFin (F256.toDegrees F256.INFINITY).pat ∧ signBit (F256.toDegrees F256.INFINITY).pat = 1) ∧
    IsFin (F256.toRadians F256.INFINITY).pat ∧
    IsFin (F256.toDegrees F256.NAN).pat ∧ IsFin (F256.toRadians F256.NAN).pat ∧
    (IsFin (F256.toDegrees F256.MAX).pat ∧ signBit (F256.toDegrees F256.MAX).pat = 1) ∧
    signBit (F256.toDegrees F256.MIN_GT_ZERO).pat = 1 ∧ signBit (F256.toRadians F256.MIN_GT_ZERO).pat = 1 := by
  refine ⟨?_, by decide +kernel, by decide +kernel, by decide +kernel, by decide +kernel, by decide +kernel,
    by decide +kernel, by decide +kernel, by decide +kernel, by decide +kernel⟩
  rw [val, show signBit (F256.toDegrees F256.ZERO).pat = 0 by decide +kernel,
    show significandOf (F256.toDegrees F256.ZERO).pat = 2 ^ 236 by decide +kernel,
    show quantumExp (F256.toDegrees F256.ZERO).pat = -469 by decide +kernel, pow_zero, one_mul,
    Nat.cast_pow, Nat.cast_ofNat, ← zpow_natCast, ← zpow_add₀ (by norm_num)]
  rfl

end Verif.Props
