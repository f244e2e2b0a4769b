import Mathlib.Analysis.SpecialFunctions.Complex.Arctan
import Mathlib.Analysis.SpecialFunctions.Trigonometric.Arctan
import Mathlib.Analysis.SpecificLimits.Normed
import Mathlib.Analysis.Complex.Exponential

/-!
# Tight bounds for `π` and `e`

Machin's formula and the series of the arc tangent; the series of the exponential function.
-/

namespace Verif

open Finset

/-- Partial sums of the series of `arctan (1/d)` -/
def atanSum (d : ℕ) : ℕ → ℚ
  | 0 => 0
  | n + 1 => atanSum d n + (-1) ^ n / ((2 * n + 1) * (d : ℚ) ^ (2 * n + 1))

theorem atanSum_eq (d n : ℕ) : ((atanSum d n : ℚ) : ℝ) =
    ∑ i ∈ range n, (-1) ^ i * (((d : ℝ)⁻¹) ^ (2 * i + 1) / (2 * i + 1)) := by
  induction n with
  | zero => simp [atanSum]
  | succ n ih =>
    rw [sum_range_succ, ← ih, atanSum]
    push_cast
    congr 1
    rw [inv_pow, mul_comm ((2 : ℝ) * n + 1), div_mul_eq_div_div, div_eq_mul_inv ((-1 : ℝ) ^ n)]
    rw [mul_div_assoc]

theorem atan_bounds {d : ℕ} (hd : 2 ≤ d) (n : ℕ) :
    ((atanSum d (2 * n) : ℚ) : ℝ) ≤ Real.arctan (d : ℝ)⁻¹ ∧
      Real.arctan (d : ℝ)⁻¹ ≤ ((atanSum d (2 * n + 1) : ℚ) : ℝ) := by
  have hd0 : (0 : ℝ) < d := by exact_mod_cast (by omega : 0 < d)
  have hx0 : (0 : ℝ) ≤ (d : ℝ)⁻¹ := inv_nonneg.mpr hd0.le
  have hx1 : (d : ℝ)⁻¹ < 1 := inv_lt_one_of_one_lt₀ (by exact_mod_cast (by omega : 1 < d))
  have hs := Real.hasSum_arctan (x := (d : ℝ)⁻¹) (by rw [Real.norm_eq_abs, abs_of_nonneg hx0]; exact hx1)
  have ht := hs.tendsto_sum_nat
  have ha : Antitone fun i : ℕ => ((d : ℝ)⁻¹) ^ (2 * i + 1) / (2 * i + 1) := by
    refine antitone_nat_of_succ_le fun i => ?_
    have h1 : ((d : ℝ)⁻¹) ^ (2 * (i + 1) + 1) ≤ ((d : ℝ)⁻¹) ^ (2 * i + 1) :=
      pow_le_pow_of_le_one hx0 hx1.le (by omega)
    push_cast
    gcongr
    linarith
  have ht' : Filter.Tendsto (fun n => ∑ i ∈ range n, (-1) ^ i * (((d : ℝ)⁻¹) ^ (2 * i + 1) / (2 * i + 1)))
      Filter.atTop (nhds (Real.arctan (d : ℝ)⁻¹)) := by
    refine ht.congr fun n => sum_congr rfl fun i _ => ?_
    push_cast
    ring
  rw [atanSum_eq, atanSum_eq]
  exact ⟨ha.alternating_series_le_tendsto ht' n, ha.tendsto_le_alternating_series ht' n⟩

theorem pi_bounds (n m : ℕ) :
    (16 : ℝ) * (atanSum 5 (2 * n) : ℚ) - 4 * (atanSum 239 (2 * m + 1) : ℚ) ≤ Real.pi ∧
      Real.pi ≤ 16 * (atanSum 5 (2 * n + 1) : ℚ) - 4 * (atanSum 239 (2 * m) : ℚ) := by
  have h := Real.four_mul_arctan_inv_5_sub_arctan_inv_239
  have h5 := atan_bounds (d := 5) (by norm_num) n
  have h239 := atan_bounds (d := 239) (by norm_num) m
  push_cast at h5 h239
  constructor <;> linarith [h5.1, h5.2, h239.1, h239.2]

/-- `⌊π * 2^300⌋` -/
def piNum : ℕ := 6399537258350533404498902296276095619968599404742382956244570183135712832137875919436931981

theorem pi_sum_low : (piNum : ℚ) ≤ (16 * atanSum 5 (2 * 70) - 4 * atanSum 239 (2 * 20 + 1)) * 2 ^ 300 := by
  decide +kernel

theorem pi_sum_high : (16 * atanSum 5 (2 * 70 + 1) - 4 * atanSum 239 (2 * 20)) * 2 ^ 300 ≤ (piNum + 1 : ℚ) := by
  decide +kernel

theorem pi_tight : (piNum : ℝ) ≤ Real.pi * 2 ^ 300 ∧ Real.pi * 2 ^ 300 ≤ piNum + 1 := by
  obtain ⟨h1, h2⟩ := pi_bounds 70 20
  have hp : (0 : ℝ) ≤ 2 ^ 300 := by positivity
  have l1 : ((piNum : ℚ) : ℝ) ≤
      (((16 * atanSum 5 (2 * 70) - 4 * atanSum 239 (2 * 20 + 1)) * 2 ^ 300 : ℚ) : ℝ) := Rat.cast_le.mpr pi_sum_low
  have l2 : (((16 * atanSum 5 (2 * 70 + 1) - 4 * atanSum 239 (2 * 20)) * 2 ^ 300 : ℚ) : ℝ) ≤
      ((piNum + 1 : ℚ) : ℝ) := Rat.cast_le.mpr pi_sum_high
  rw [Rat.cast_mul, Rat.cast_sub, Rat.cast_mul, Rat.cast_mul] at l1 l2
  rw [Rat.cast_natCast] at l1
  rw [Rat.cast_add, Rat.cast_natCast, Rat.cast_one] at l2
  have c : ((2 ^ 300 : ℚ) : ℝ) = 2 ^ 300 := by rw [Rat.cast_pow, Rat.cast_ofNat]
  have c4 : ((4 : ℚ) : ℝ) = 4 := Rat.cast_ofNat 4
  have c16 : ((16 : ℚ) : ℝ) = 16 := Rat.cast_ofNat 16
  rw [c, c4, c16] at l1 l2
  exact ⟨l1.trans (mul_le_mul_of_nonneg_right h1 hp), (mul_le_mul_of_nonneg_right h2 hp).trans l2⟩

/-- Partial sums of the series of `e` -/
def eSum : ℕ → ℚ
  | 0 => 0
  | n + 1 => eSum n + 1 / (n.factorial : ℚ)

theorem eSum_eq (n : ℕ) : ((eSum n : ℚ) : ℝ) = ∑ m ∈ range n, (1 : ℝ) ^ m / m.factorial := by
  induction n with
  | zero => simp [eSum]
  | succ n ih =>
    rw [sum_range_succ, ← ih, eSum]
    push_cast
    rw [one_pow]

/-- `⌊e * 2^300⌋` -/
def eNum : ℕ := 5537237878387363237216193389651445841628722148776809528350562273342596806064126836398590246

theorem e_sum : (eNum : ℚ) ≤ eSum 80 * 2 ^ 300 ∧
    (eSum 80 + 81 / ((80 : ℕ).factorial * 80 : ℚ)) * 2 ^ 300 ≤ (eNum + 1 : ℚ) := by
  decide +kernel

theorem e_tight : (eNum : ℝ) ≤ Real.exp 1 * 2 ^ 300 ∧ Real.exp 1 * 2 ^ 300 ≤ eNum + 1 := by
  have hp : (0 : ℝ) ≤ 2 ^ 300 := by positivity
  have h1 := Real.sum_le_exp_of_nonneg (x := 1) (by norm_num) 80
  have h2 := Real.exp_bound' (x := 1) (by norm_num) le_rfl (n := 80) (by norm_num)
  rw [← eSum_eq] at h1 h2
  have l1 : ((eNum : ℚ) : ℝ) ≤ ((eSum 80 * 2 ^ 300 : ℚ) : ℝ) := Rat.cast_le.mpr e_sum.1
  have l2 : (((eSum 80 + 81 / ((80 : ℕ).factorial * 80 : ℚ)) * 2 ^ 300 : ℚ) : ℝ) ≤ ((eNum + 1 : ℚ) : ℝ) :=
    Rat.cast_le.mpr e_sum.2
  have c : ((2 ^ 300 : ℚ) : ℝ) = 2 ^ 300 := by rw [Rat.cast_pow, Rat.cast_ofNat]
  rw [Rat.cast_natCast, Rat.cast_mul, c] at l1
  rw [Rat.cast_mul, c, Rat.cast_add, Rat.cast_div, Rat.cast_mul, Rat.cast_natCast, Rat.cast_add, Rat.cast_natCast,
    Rat.cast_one, Rat.cast_ofNat, Rat.cast_ofNat] at l2
  refine ⟨l1.trans (mul_le_mul_of_nonneg_right h1 hp), (mul_le_mul_of_nonneg_right ?_ hp).trans l2⟩
  refine h2.trans (le_of_eq ?_)
  rw [one_pow, one_mul]
  norm_num

end Verif
