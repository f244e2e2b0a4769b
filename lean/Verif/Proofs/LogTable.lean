import Verif.Model.Ln
import Verif.Proofs.FP492
import Mathlib.Analysis.SpecialFunctions.Log.Deriv

/-!
# The tables and constants of the logarithm

Every entry is compared with partial sums of the series of `log ((d + 1) / (d - 1))`, computed in integers.
-/

namespace Verif.Ln

open Finset

set_option exponentiation.threshold 2000

/-- Partial sums of the series of `2^520 * log ((d + 1) / (d - 1))`, each term rounded down -/
def logSum (d : ℕ) : ℕ → ℕ
  | 0 => 0
  | k + 1 => logSum d k + 2 ^ 521 / (d ^ (2 * k + 1) * (2 * k + 1))

theorem logSum_bounds (d K : ℕ) (hd : 0 < d) :
    (logSum d K : ℝ) ≤ 2 ^ 521 * ∑ i ∈ range K, ((d : ℝ)⁻¹) ^ (2 * i + 1) / (2 * i + 1) ∧
      2 ^ 521 * ∑ i ∈ range K, ((d : ℝ)⁻¹) ^ (2 * i + 1) / (2 * i + 1) ≤ logSum d K + K := by
  induction K with
  | zero => simp [logSum]
  | succ k ih =>
    rw [sum_range_succ, mul_add, logSum, Nat.cast_add, Nat.cast_succ]
    have hD : 0 < d ^ (2 * k + 1) * (2 * k + 1) := by positivity
    obtain ⟨D, hDe⟩ : ∃ D, d ^ (2 * k + 1) * (2 * k + 1) = D := ⟨_, rfl⟩
    have e : (2 : ℝ) ^ 521 * (((d : ℝ)⁻¹) ^ (2 * k + 1) / (2 * k + 1)) = 2 ^ 521 / D := by
      rw [← hDe, Nat.cast_mul, Nat.cast_pow, inv_pow]
      push_cast
      rw [mul_div_assoc', div_eq_div_iff (by positivity) (by positivity)]
      have : (d : ℝ) ^ (2 * k + 1) ≠ 0 := by positivity
      field_simp
    rw [hDe] at hD ⊢
    rw [e]
    have hDR : (0 : ℝ) < D := by exact_mod_cast hD
    have h1 : ((2 ^ 521 / D : ℕ) : ℝ) ≤ 2 ^ 521 / D := by
      have := Nat.cast_div_le (α := ℝ) (m := 2 ^ 521) (n := D)
      rw [Nat.cast_pow, Nat.cast_ofNat] at this
      exact this
    have h2 : (2 : ℝ) ^ 521 / D ≤ ((2 ^ 521 / D : ℕ) : ℝ) + 1 := by
      rw [div_le_iff₀ hDR]
      have := Nat.lt_div_mul_add (a := 2 ^ 521) hD
      have h3 : 2 ^ 521 ≤ (2 ^ 521 / D + 1) * D := by
        rw [Nat.add_mul, Nat.one_mul]; exact this.le
      exact_mod_cast h3
    generalize ((2 ^ 521 / D : ℕ) : ℝ) = A at *
    generalize (2 : ℝ) ^ 521 / D = B at *
    constructor <;> linarith [ih.1, ih.2]

theorem log_bounds {d K : ℕ} (hd : 3 ≤ d) (hK : 2 ^ 522 ≤ d ^ (2 * K + 1)) :
    (logSum d K : ℝ) ≤ 2 ^ 520 * Real.log ((d + 1) / (d - 1)) ∧
      2 ^ 520 * Real.log ((d + 1) / (d - 1)) ≤ logSum d K + K + 1 := by
  have hd0 : (3 : ℝ) ≤ d := by exact_mod_cast hd
  have hx0 : (0 : ℝ) ≤ (d : ℝ)⁻¹ := by positivity
  have hx3 : (d : ℝ)⁻¹ ≤ 1 / 3 := by rw [inv_le_comm₀ (by positivity) (by positivity)]; norm_num; exact hd
  have e : (1 + (d : ℝ)⁻¹) / (1 - (d : ℝ)⁻¹) = (d + 1) / (d - 1) := by
    have : (d : ℝ) ≠ 0 := by positivity
    rw [div_eq_div_iff (by linarith) (by linarith)]
    field_simp
  have hb := logSum_bounds d K (by omega)
  have h1 := Real.sum_range_le_log_div hx0 (by linarith) K
  have h2 := Real.log_div_le_sum_range_add hx0 (by linarith) K
  rw [e] at h1 h2
  have ht : ((d : ℝ)⁻¹) ^ (2 * K + 1) / (1 - ((d : ℝ)⁻¹) ^ 2) ≤ 1 / 2 ^ 521 := by
    have hKR : (2 : ℝ) ^ 522 ≤ (d : ℝ) ^ (2 * K + 1) := by exact_mod_cast hK
    have h3 : ((d : ℝ)⁻¹) ^ (2 * K + 1) ≤ 1 / 2 ^ 522 := by
      rw [inv_pow, inv_eq_one_div]
      exact one_div_le_one_div_of_le (by positivity) hKR
    rw [div_le_iff₀ (by nlinarith)]
    refine h3.trans ?_
    rw [show (1 : ℝ) / 2 ^ 522 = 1 / 2 ^ 521 * (1 / 2) by norm_num]
    have : (0 : ℝ) ≤ 1 / 2 ^ 521 := by positivity
    exact mul_le_mul_of_nonneg_left (by nlinarith) this
  generalize ((d : ℝ)⁻¹) ^ (2 * K + 1) / (1 - ((d : ℝ)⁻¹) ^ 2) = T at *
  generalize ∑ i ∈ range K, ((d : ℝ)⁻¹) ^ (2 * i + 1) / (2 * i + 1) = S at *
  generalize Real.log ((d + 1) / (d - 1)) = L at *
  have hT : 2 ^ 521 * T ≤ 1 := by
    have := mul_le_mul_of_nonneg_left ht (show (0 : ℝ) ≤ 2 ^ 521 by positivity)
    rwa [mul_one_div, div_self (by positivity)] at this
  have h521 : (2 : ℝ) ^ 521 = 2 ^ 520 * 2 := by norm_num
  rw [h521] at hb hT
  have p : (0 : ℝ) < 2 ^ 520 := by positivity
  generalize (2 : ℝ) ^ 520 = Q at *
  constructor
  · have := mul_le_mul_of_nonneg_left h1 p.le
    linarith [hb.1]
  · have := mul_le_mul_of_nonneg_left h2 p.le
    linarith [hb.2]

/-- The value of an `FP492` from its limbs -/
def limbs (x : FP492) : ℕ :=
  ((x.hi.hi.toNat * 2 ^ 128 + x.hi.lo.toNat) * 2 ^ 128 + x.lo.hi.toNat) * 2 ^ 128 + x.lo.lo.toNat

/-- `l` is within one unit of `2^492 * log (1 + 2^-n)`. -/
def rowOk (n f l : ℕ) : Bool :=
  let d := 2 ^ (n + 1) + 1
  let K := 261 / (n + 1) + 1
  let S := logSum d K
  Nat.ble (2 ^ 522) (d ^ (2 * K + 1)) && Nat.beq f (2 ^ 492 + 2 ^ (492 - n)) &&
    Nat.ble (l * 2 ^ 28) (S + 2 ^ 28) && Nat.ble (S + K + 1) (l * 2 ^ 28 + 2 ^ 28)

def tableOk : ℕ → List (FP492 × FP492) → Bool
  | n, [] => Nat.beq n 493
  | n, (f, l) :: rest => rowOk n (limbs f) (limbs l) && tableOk (n + 1) rest

theorem LUT_ok : tableOk 1 LUT = true := by decide +kernel

theorem rowOk_spec {n f l : ℕ} (h : rowOk n f l = true) :
    f = 2 ^ 492 + 2 ^ (492 - n) ∧ |(l : ℝ) - 2 ^ 492 * Real.log (1 + 1 / 2 ^ n)| ≤ 1 := by
  unfold rowOk at h
  simp only [Bool.and_eq_true, Nat.ble_eq] at h
  obtain ⟨⟨⟨h1, h2⟩, h3⟩, h4⟩ := h
  refine ⟨Nat.eq_of_beq_eq_true h2, ?_⟩
  have hb := log_bounds (d := 2 ^ (n + 1) + 1) (by have := Nat.one_le_two_pow (n := n); rw [pow_succ]; omega) h1
  have e : (((2 ^ (n + 1) + 1 : ℕ) : ℝ) + 1) / (((2 ^ (n + 1) + 1 : ℕ) : ℝ) - 1) = 1 + 1 / 2 ^ n := by
    have : (2 : ℝ) ^ n ≠ 0 := by positivity
    rw [Nat.cast_succ, Nat.cast_pow, Nat.cast_ofNat, pow_succ]
    rw [add_sub_cancel_right]
    field_simp
    ring
  rw [e] at hb
  generalize logSum (2 ^ (n + 1) + 1) (261 / (n + 1) + 1) = S at *
  generalize 261 / (n + 1) + 1 = K at *
  have h3R : (l : ℝ) * 2 ^ 28 ≤ S + 2 ^ 28 := by exact_mod_cast h3
  have h4R : (S : ℝ) + K + 1 ≤ l * 2 ^ 28 + 2 ^ 28 := by exact_mod_cast h4
  rw [show (2 : ℝ) ^ 520 = 2 ^ 492 * 2 ^ 28 by norm_num] at hb
  generalize Real.log (1 + 1 / 2 ^ n) = L at *
  rw [abs_le]
  have p : (0 : ℝ) < 2 ^ 28 := by positivity
  generalize (2 : ℝ) ^ 492 = Q at *
  constructor
  · have : (l + 1 - Q * L) * 2 ^ 28 ≥ 0 := by linarith [hb.2]
    have := nonneg_of_mul_nonneg_left this p
    linarith
  · have : (Q * L + 1 - l) * 2 ^ 28 ≥ 0 := by linarith [hb.1]
    have := nonneg_of_mul_nonneg_left this p
    linarith

theorem LN_2_err : |(limbs LN_2 : ℝ) - 2 ^ 492 * Real.log 2| ≤ 1 := by
  have h := (rowOk_spec (n := 0) (f := 2 ^ 493) (l := limbs LN_2) (by decide +kernel)).2
  rw [pow_zero, show (1 : ℝ) + 1 / 1 = 2 by norm_num] at h
  exact h

/-- From an enclosure of a logarithm to one of its reciprocal -/
theorem recip_err {c A B : ℕ} {L : ℝ} (hL : 0 < L) (hA : (A : ℝ) ≤ 2 ^ 520 * L) (hB : 2 ^ 520 * L ≤ B)
    (h1 : c * B ≤ 2 ^ 1012 + A) (h2 : 2 ^ 1012 ≤ (c + 1) * A) : |(c : ℝ) - 2 ^ 492 / L| ≤ 1 := by
  have h1R : (c : ℝ) * B ≤ 2 ^ 1012 + A := by exact_mod_cast h1
  have h2R : (2 : ℝ) ^ 1012 ≤ (c + 1) * A := by exact_mod_cast h2
  have e : (2 : ℝ) ^ 1012 = 2 ^ 492 * 2 ^ 520 := by norm_num
  have hc : (0 : ℝ) ≤ c := Nat.cast_nonneg c
  have hQ : (0 : ℝ) < 2 ^ 520 := by positivity
  rw [e] at h1R h2R
  generalize (2 : ℝ) ^ 520 = Q at *
  generalize (2 : ℝ) ^ 492 = W at *
  have k1 : c * L ≤ W + L := by
    have := mul_le_mul_of_nonneg_left hB hc
    have : (c * L) * Q ≤ (W + L) * Q := by linarith
    exact le_of_mul_le_mul_right this hQ
  have k2 : W ≤ (c + 1) * L := by
    have := mul_le_mul_of_nonneg_left hA (show (0 : ℝ) ≤ c + 1 by linarith)
    have : W * Q ≤ ((c + 1) * L) * Q := by linarith
    exact le_of_mul_le_mul_right this hQ
  rw [abs_le]
  constructor
  · have : W / L ≤ c + 1 := (div_le_iff₀ hL).mpr k2
    linarith
  · have : (c : ℝ) - 1 ≤ W / L := (le_div_iff₀ hL).mpr (by linarith)
    linarith

theorem log_two_bounds : (logSum 3 262 : ℝ) ≤ 2 ^ 520 * Real.log 2 ∧ 2 ^ 520 * Real.log 2 ≤ logSum 3 262 + 262 + 1 := by
  have h := log_bounds (d := 3) (K := 262) (by norm_num) (by decide +kernel)
  rw [show (((3 : ℕ) : ℝ) + 1) / (((3 : ℕ) : ℝ) - 1) = 2 by norm_num] at h
  exact_mod_cast h

theorem log_ten_bounds : ((3 * logSum 3 262 + logSum 9 88 : ℕ) : ℝ) ≤ 2 ^ 520 * Real.log 10 ∧
    2 ^ 520 * Real.log 10 ≤ (3 * (logSum 3 262 + 263) + (logSum 9 88 + 89) : ℕ) := by
  have h := log_bounds (d := 9) (K := 88) (by norm_num) (by decide +kernel)
  rw [show (((9 : ℕ) : ℝ) + 1) / (((9 : ℕ) : ℝ) - 1) = 5 / 4 by norm_num] at h
  have h2 := log_two_bounds
  have e : Real.log 10 = 3 * Real.log 2 + Real.log (5 / 4) := by
    rw [show (10 : ℝ) = 2 ^ 3 * (5 / 4) by norm_num, Real.log_mul (by norm_num) (by norm_num), Real.log_pow]
    norm_num
  rw [e]
  push_cast at h ⊢
  generalize (2 : ℝ) ^ 520 = Q at *
  constructor <;> linarith [h.1, h.2, h2.1, h2.2]

theorem LOG2_E_err : |(limbs LOG2_E : ℝ) - 2 ^ 492 / Real.log 2| ≤ 1 := by
  have h := log_two_bounds
  refine recip_err (Real.log_pos (by norm_num)) h.1 (B := logSum 3 262 + 262 + 1) (by exact_mod_cast h.2) ?_ ?_ <;>
    decide +kernel

theorem LOG10_E_err : |(limbs LOG10_E : ℝ) - 2 ^ 492 / Real.log 10| ≤ 1 := by
  have h := log_ten_bounds
  refine recip_err (Real.log_pos (by norm_num)) h.1 h.2 ?_ ?_ <;> decide +kernel

end Verif.Ln
