import Verif.Proofs.RelErr
import Verif.Proofs.ExactClose
import Verif.Proofs.New

/-!
# The error of correct rounding in units in the last place
-/

namespace Verif

open Spec

theorem quantumExp_asm {s t M : ℕ} (hM2 : t = 0 ∨ 2 ^ 236 ≤ M) (hM : M ≤ 2 ^ 237)
    (hA : t * 2 ^ 236 + M < INF) : (t : ℤ) - 262378 ≤ quantumExp (s * 2 ^ 255 + (t * 2 ^ 236 + M)) := by
  unfold quantumExp expField
  unfold INF at hA
  split <;> omega

theorem Spec.IsRNE.ulp_spec {q : ℝ} {N : ℕ} (h : IsRNE q N) (h0 : q ≠ 0) (h2 : |q| < overflowThreshold) :
    ∃ t : ℤ, t ≤ quantumExp N ∧ |val N - q| ≤ (2 : ℝ) ^ t / 2 ∧ |q| < (2 : ℝ) ^ (t + 237) := by
  have hK : (0 : ℝ) < 2 ^ 262378 := by positivity
  obtain ⟨A, hA⟩ := exists_roundsTo (v := |q| * 2 ^ 262378) (mul_nonneg (abs_nonneg _) hK.le)
  obtain ⟨s, hs, hpos, hneg, hq⟩ : ∃ s : ℕ, s ≤ 1 ∧ (0 < q → s = 0) ∧ (q < 0 → s = 1) ∧ q = (-1) ^ s * |q| := by
    rcases lt_or_ge q 0 with hc | hc
    · exact ⟨1, le_rfl, fun h => absurd h (not_lt.mpr hc.le), fun _ => rfl, by rw [abs_of_neg hc]; ring⟩
    · exact ⟨0, by norm_num, fun _ => rfl, fun h => absurd h (not_lt.mpr hc), by rw [abs_of_nonneg hc]; ring⟩
  have hR := hA.isRNE hs hpos hneg
  have hAlt := hA.lt_pow
  have hfin := hR.fin h2
  have hN : N = s * 2 ^ 255 + A := _root_.Verif.IsRNE.unique h hR h0
  have hmod : (s * 2 ^ 255 + A) % 2 ^ 255 = A := by omega
  have hsb : signBit (s * 2 ^ 255 + A) = s := by unfold signBit; omega
  have hAinf : A < INF := by rw [fin_iff, hmod] at hfin; exact hfin
  have hv := val_eq (s * 2 ^ 255 + A)
  rw [hsb, ← mag_abs, hmod] at hv
  rw [hN]
  obtain ⟨t, M, r1, r2, r3, -, r5⟩ := hA
  rw [if_neg (fun hc => by rw [if_pos hc] at r5; omega)] at r5
  have hM := RoundsTo.M_le r1 r3
  have hM2 := RoundsTo.M_ge r2 r3
  have hmag : mag A = M * 2 ^ t := by
    rw [r5]; exact mag_asm hM2 hM (r5 ▸ hAinf)
  refine ⟨(t : ℤ) - (262378 : ℕ), ?_, ?_, ?_⟩
  · rw [r5]; exact quantumExp_asm hM2 hM (r5 ▸ hAinf)
  · rw [hmag, Nat.cast_mul, Nat.cast_pow, Nat.cast_ofNat] at hv
    rw [zpow_sub₀ (by norm_num), zpow_natCast, zpow_natCast]
    obtain ⟨K, hKe⟩ : ∃ K : ℝ, (2 : ℝ) ^ 262378 = K := ⟨_, rfl⟩
    rw [hKe] at hv r3 hK ⊢
    rw [hv]
    nth_rewrite 1 [hq]
    rw [← mul_sub, abs_mul, abs_pow, abs_neg, abs_one, one_pow, one_mul]
    refine le_of_mul_le_mul_right ?_ hK
    rw [← abs_of_pos hK, ← abs_mul, sub_mul, abs_of_pos hK, div_mul_cancel₀ _ hK.ne', abs_sub_comm]
    refine r3.trans (le_of_eq ?_)
    field_simp
  · have e : ((t : ℤ) - (262378 : ℕ) + 237) = ((237 + t : ℕ) : ℤ) - (262378 : ℕ) := by push_cast; ring
    rw [e, zpow_sub₀ (by norm_num), zpow_natCast, zpow_natCast, lt_div_iff₀ hK]
    exact r1

/-- If a number `a` that is close to `v` is rounded correctly, then the result is close to `v`. -/
theorem Spec.IsRNE.ulp_error {a v c : ℝ} {N : ℕ} {e : ℤ} (h : IsRNE a N) (h2 : |a| < overflowThreshold)
    (he : (2 : ℝ) ^ e ≤ |a|) (hc : 0 ≤ c) (hv : |a - v| ≤ c * (2 : ℝ) ^ (e - 236)) :
    |val N - v| ≤ (1 / 2 + c) * (2 : ℝ) ^ quantumExp N := by
  have h0 : a ≠ 0 := by
    rintro rfl
    rw [abs_zero] at he
    exact absurd he (not_le.mpr (zpow_pos (by norm_num) _))
  obtain ⟨t, t1, t2, t3⟩ := h.ulp_spec h0 h2
  have e1 : e < t + 237 := (zpow_lt_zpow_iff_right₀ (by norm_num : (1 : ℝ) < 2)).mp (he.trans_lt t3)
  have e2 : (2 : ℝ) ^ t ≤ 2 ^ quantumExp N := zpow_le_zpow_right₀ (by norm_num) t1
  have e3 : (2 : ℝ) ^ (e - 236) ≤ 2 ^ quantumExp N := zpow_le_zpow_right₀ (by norm_num) (by omega)
  have e4 := abs_add_le (val N - a) (a - v)
  rw [sub_add_sub_cancel] at e4
  have e5 := mul_le_mul_of_nonneg_left e3 hc
  linarith

end Verif
