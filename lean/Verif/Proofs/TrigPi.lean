import Verif.Proofs.TrigDist
import Verif.Proofs.FP492
import Verif.Model.Trig

/-!
# The multiples of `π/4` used by the reduction of arguments
-/

set_option exponentiation.threshold 2000

namespace Verif.Trig

open FP492

/-- `C` is the nearest integer to `n * π/4 * 2^492`, up to one unit, if `S` consists of the leading bits of `2/π`. -/
def nearMultiple (S n C : ℕ) : Bool :=
  decide ((C - 1) * (S + 1) * 2 ≤ n * 2 ^ 1492 ∧ n * 2 ^ 1492 ≤ (C + 1) * S * 2 ∧ 0 < C ∧ 0 < S)

theorem nearMultiple_sound {S n C : ℕ} (h : nearMultiple S n C = true) (h1 : (S : ℝ) ≤ 2 ^ 1000 * (2 / Real.pi))
    (h2 : 2 ^ 1000 * (2 / Real.pi) < (S : ℝ) + 1) : |(C : ℝ) - n * (Real.pi / 4) * 2 ^ 492| ≤ 1 := by
  unfold nearMultiple at h
  obtain ⟨a1, a2, a3, a4⟩ := of_decide_eq_true h
  obtain ⟨c, rfl⟩ : ∃ c, C = c + 1 := ⟨C - 1, by omega⟩
  rw [Nat.add_sub_cancel] at a1
  have b1 : (c : ℝ) * (S + 1) * 2 ≤ n * 2 ^ 1492 := by exact_mod_cast a1
  have b2 : (n : ℝ) * 2 ^ 1492 ≤ (c + 1 + 1) * S * 2 := by exact_mod_cast a2
  have b4 : (0 : ℝ) < S := by exact_mod_cast a4
  have hp := Real.pi_pos
  have e : (2 : ℝ) ^ 1492 = 2 ^ 1000 * 2 ^ 492 := by rw [← pow_add]
  rw [e] at b1 b2
  clear h a1 a2 a3 a4 e
  have hW : (0 : ℝ) < 2 ^ 492 := by positivity
  generalize (2 : ℝ) ^ 492 = W at *
  generalize (2 : ℝ) ^ 1000 = V at *
  generalize (S : ℝ) = s at *
  rw [mul_div_assoc', le_div_iff₀ hp] at h1
  rw [mul_div_assoc', div_lt_iff₀ hp] at h2
  rw [Nat.cast_add, Nat.cast_one]
  have hn : (0 : ℝ) ≤ n := Nat.cast_nonneg _
  have hc : (0 : ℝ) ≤ c := Nat.cast_nonneg _
  -- `s π ≤ 2 V < (s + 1) π`
  have f1 : (c : ℝ) ≤ n * (Real.pi / 4) * W := by
    have t1 : (n : ℝ) * (V * W) ≤ n * ((s + 1) * Real.pi / 2 * W) := by
      refine mul_le_mul_of_nonneg_left (mul_le_mul_of_nonneg_right (by linarith) hW.le) hn
    have t2 : c * 4 * (s + 1) ≤ (n * Real.pi * W) * (s + 1) := by
      have : (n : ℝ) * ((s + 1) * Real.pi / 2 * W) = (n * Real.pi * W) * (s + 1) / 2 := by ring
      rw [this] at t1
      linarith
    have := le_of_mul_le_mul_right t2 (by linarith)
    linarith
  have f2 : n * (Real.pi / 4) * W ≤ c + 1 + 1 := by
    have t1 : (n : ℝ) * (s * Real.pi / 2 * W) ≤ n * (V * W) := by
      refine mul_le_mul_of_nonneg_left (mul_le_mul_of_nonneg_right (by linarith) hW.le) hn
    have t2 : (n * Real.pi * W) * s ≤ (c + 1 + 1) * 4 * s := by
      have : (n : ℝ) * (s * Real.pi / 2 * W) = (n * Real.pi * W) * s / 2 := by ring
      rw [this] at t1
      linarith
    have := le_of_mul_le_mul_right t2 b4
    linarith
  rw [abs_le]
  constructor <;> linarith

theorem window1000 : ((TWO_OVER_PI >>> 261872 : ℕ) : ℝ) ≤ 2 ^ 1000 * (2 / Real.pi) ∧
    2 ^ 1000 * (2 / Real.pi) < ((TWO_OVER_PI >>> 261872 : ℕ) : ℝ) + 1 :=
  TrigCert.window_real (e := 724) (by norm_num)

theorem consts_check :
    (let S := TWO_OVER_PI >>> 261872
    nearMultiple S 1 (UInt.nat FP_FRAC_PI_4) && nearMultiple S 2 (UInt.nat FP_FRAC_PI_2) &&
    nearMultiple S 3 (UInt.nat FP_FRAC_3_PI_4) && nearMultiple S 4 (UInt.nat FP_PI) &&
    nearMultiple S 5 (UInt.nat FP_FRAC_5_PI_4) && nearMultiple S 7 (UInt.nat FP_FRAC_7_PI_4_M4 + 4 * 2 ^ 492) &&
    nearMultiple S 9 (UInt.nat FP_FRAC_9_PI_4_M4 + 4 * 2 ^ 492)) = true := by decide +kernel

/-- The constants are correct to one unit in the last place. -/
theorem consts_spec :
    |(sval FP_FRAC_PI_4 : ℝ) - 1 * (Real.pi / 4) * 2 ^ 492| ≤ 1 ∧
    |(sval FP_FRAC_PI_2 : ℝ) - 2 * (Real.pi / 4) * 2 ^ 492| ≤ 1 ∧
    |(sval FP_FRAC_3_PI_4 : ℝ) - 3 * (Real.pi / 4) * 2 ^ 492| ≤ 1 ∧
    |(sval FP_PI : ℝ) - 4 * (Real.pi / 4) * 2 ^ 492| ≤ 1 ∧
    |(sval FP_FRAC_5_PI_4 : ℝ) - 5 * (Real.pi / 4) * 2 ^ 492| ≤ 1 ∧
    |(sval FP_FRAC_7_PI_4_M4 : ℝ) + 4 * 2 ^ 492 - 7 * (Real.pi / 4) * 2 ^ 492| ≤ 1 ∧
    |(sval FP_FRAC_9_PI_4_M4 : ℝ) + 4 * 2 ^ 492 - 9 * (Real.pi / 4) * 2 ^ 492| ≤ 1 := by
  have h := consts_check
  obtain ⟨w1, w2⟩ := window1000
  dsimp only at h
  generalize TWO_OVER_PI >>> 261872 = S at *
  simp only [Bool.and_eq_true] at h
  obtain ⟨⟨⟨⟨⟨⟨h1, h2⟩, h3⟩, h4⟩, h5⟩, h7⟩, h9⟩ := h
  have s1 : sval FP_FRAC_PI_4 = UInt.nat FP_FRAC_PI_4 := sval_of_lt (by decide)
  have s2 : sval FP_FRAC_PI_2 = UInt.nat FP_FRAC_PI_2 := sval_of_lt (by decide)
  have s3 : sval FP_FRAC_3_PI_4 = UInt.nat FP_FRAC_3_PI_4 := sval_of_lt (by decide)
  have s4 : sval FP_PI = UInt.nat FP_PI := sval_of_lt (by decide)
  have s5 : sval FP_FRAC_5_PI_4 = UInt.nat FP_FRAC_5_PI_4 := sval_of_lt (by decide)
  have s7 : sval FP_FRAC_7_PI_4_M4 = UInt.nat FP_FRAC_7_PI_4_M4 := sval_of_lt (by decide)
  have s9 : sval FP_FRAC_9_PI_4_M4 = UInt.nat FP_FRAC_9_PI_4_M4 := sval_of_lt (by decide)
  rw [s1, s2, s3, s4, s5, s7, s9]
  have t1 := nearMultiple_sound h1 w1 w2
  have t2 := nearMultiple_sound h2 w1 w2
  have t3 := nearMultiple_sound h3 w1 w2
  have t4 := nearMultiple_sound h4 w1 w2
  have t5 := nearMultiple_sound h5 w1 w2
  have t7 := nearMultiple_sound h7 w1 w2
  have t9 := nearMultiple_sound h9 w1 w2
  rw [Nat.cast_add, Nat.cast_mul, Nat.cast_pow] at t7 t9
  exact ⟨by exact_mod_cast t1, by exact_mod_cast t2, by exact_mod_cast t3, by exact_mod_cast t4, by exact_mod_cast t5,
    by exact_mod_cast t7, by exact_mod_cast t9⟩

end Verif.Trig
