import Verif.Proofs.Near
import Verif.Proofs.F256Nat

/-!
# Relative error of correct rounding
-/

namespace Verif

open Spec

theorem IsRNE.rel_error {q : ℝ} {N : ℕ} (h : IsRNE q N) (h1 : 2 ^ 236 ≤ |q| * 2 ^ 262378)
    (h2 : |q| < overflowThreshold) : |val N - q| ≤ |q| / 2 ^ 237 := by
  have hK : (0 : ℝ) < 2 ^ 262378 := by positivity
  obtain ⟨A, hA⟩ := exists_roundsTo (v := |q| * 2 ^ 262378) (mul_nonneg (abs_nonneg _) hK.le)
  obtain ⟨s, hs, hpos, hneg, hq⟩ : ∃ s : ℕ, s ≤ 1 ∧ (0 < q → s = 0) ∧ (q < 0 → s = 1) ∧ q = (-1) ^ s * |q| := by
    rcases lt_or_ge q 0 with hc | hc
    · exact ⟨1, le_rfl, fun h => absurd h (not_lt.mpr hc.le), fun _ => rfl, by rw [abs_of_neg hc]; ring⟩
    · exact ⟨0, by norm_num, fun _ => rfl, fun h => absurd h (not_lt.mpr hc), by rw [abs_of_nonneg hc]; ring⟩
  have hR := hA.isRNE hs hpos hneg
  have hAlt := hA.lt_pow
  have hfin := hR.fin h2
  refine (h.nearest h2 _ hR.lt hfin).trans ?_
  have hmod : (s * 2 ^ 255 + A) % 2 ^ 255 = A := by omega
  have hsb : signBit (s * 2 ^ 255 + A) = s := by unfold signBit; omega
  have hAinf : A < INF := by rw [fin_iff, hmod] at hfin; exact hfin
  have hv := val_eq (s * 2 ^ 255 + A)
  rw [hsb, ← mag_abs, hmod] at hv
  obtain ⟨t, M, r1, r2, r3, -, r5⟩ := hA
  rw [if_neg (fun hc => by rw [if_pos hc] at r5; omega)] at r5
  have hM := RoundsTo.M_le r1 r3
  have hM2 := RoundsTo.M_ge r2 r3
  have hmag : mag A = M * 2 ^ t := by
    rw [r5]; exact mag_asm hM2 hM (r5 ▸ hAinf)
  have hlow : (2 : ℝ) ^ (236 + t) ≤ |q| * 2 ^ 262378 := by
    rcases r2 with r2 | r2
    · rw [r2]; exact h1
    · exact r2
  rw [hmag, Nat.cast_mul, Nat.cast_pow, Nat.cast_ofNat] at hv
  obtain ⟨K, hKe⟩ : ∃ K : ℝ, (2 : ℝ) ^ 262378 = K := ⟨_, rfl⟩
  rw [hKe] at hv hlow r3 hK
  rw [hv]
  nth_rewrite 1 [hq]
  rw [← mul_sub, abs_mul, abs_pow, abs_neg, abs_one, one_pow, one_mul]
  refine le_of_mul_le_mul_right ?_ hK
  rw [← abs_of_pos hK, ← abs_mul, sub_mul, abs_of_pos hK, div_mul_cancel₀ _ hK.ne', abs_sub_comm]
  refine r3.trans ?_
  rw [div_mul_eq_mul_div, le_div_iff₀ (by positivity)]
  refine le_trans (le_of_eq ?_) hlow
  rw [pow_add, show (2 : ℝ) ^ 237 = 2 ^ 236 * 2 by norm_num]
  ring

end Verif
