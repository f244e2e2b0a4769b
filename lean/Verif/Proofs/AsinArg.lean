import Mathlib.Analysis.SpecialFunctions.Trigonometric.Arctan
import Verif.Proofs.BigSqrt
import Verif.Proofs.AtanFinal
import Verif.Props.Laws

/-!
# The argument `x / √(1 - x²)` of the arc tangent in `asin` and `acos`
-/

set_option exponentiation.threshold 2000

namespace Verif.Trig

open Verif.Spec BigFloat FP492

/-- The significand of a converted number has at most 237 bits. -/
theorem bigFrom_signif {x : F256} (h0 : ¬ IsZero x.pat) : ∃ m, m < 2 ^ 237 ∧ nat256 (BigFloat.fromF256 x).signif = m * 2 ^ 18 := by
  have hz : x.eqZero = false := by
    rw [Bool.eq_false_iff, ne_eq, eqZero_iff, ← isZero_iff]; exact h0
  have hsg := signif_abs x
  obtain ⟨m, hm⟩ : ∃ m, m = significandOf x.pat := ⟨_, rfl⟩
  rw [← hm] at hsg
  have hm0 : m ≠ 0 := by
    rw [hm, significandOf]
    unfold IsZero at h0
    split <;> omega
  have hm1 : m < 2 ^ 237 := by
    rw [hm, significandOf]
    unfold fracField
    split <;> omega
  obtain ⟨k, hk, k1, k2⟩ := exists_log hm0 hm1
  have hl := lz256_of (z := signif (absBits x)) (k := k) (by rw [hsg]; exact k1) (by rw [hsg]; exact k2)
  have hsh : u32Sub (UInt.leadingZeros (signif (absBits x))) 1 = 254 - k := by
    rw [hl, u32Sub_eq (by omega) (by omega)]
    omega
  have hlt : m * 2 ^ (254 - k) < 2 ^ 255 := by
    have := Nat.mul_lt_mul_of_pos_right k2 (Nat.two_pow_pos (254 - k))
    rwa [← Nat.pow_add, show k + 1 + (254 - k) = 255 by omega] at this
  have hns : nat256 (U256.shiftLeft (signif (absBits x)) (254 - k)) = m * 2 ^ (254 - k) := by
    rw [← hsg]
    exact nat_shiftLeft (by omega) (by rw [hsg]; exact hlt.trans (by norm_num))
  have e : (BigFloat.fromF256 x).signif = U256.shiftLeft (signif (absBits x)) (254 - k) := by
    unfold BigFloat.fromF256
    dsimp only
    rw [hz, if_neg (by decide), hsh]
  have es : 2 ^ (254 - k) = 2 ^ (236 - k) * 2 ^ 18 := by
    rw [← Nat.pow_add, show 236 - k + 18 = 254 - k by omega]
  rw [e, hns]
  rw [es, ← Nat.mul_assoc] at hlt ⊢
  refine ⟨m * 2 ^ (236 - k), ?_, rfl⟩
  have e2 : (2 : ℕ) ^ 255 = 2 ^ 237 * 2 ^ 18 := by rw [← Nat.pow_add]
  rw [e2] at hlt
  exact lt_of_mul_lt_mul_right hlt (Nat.zero_le _)

/-- The square of a number with 237 bits does not round up to a power of two. -/
theorem square_gap {m a : ℕ} (hm : m < 2 ^ 237) (ha : a ≤ 2) (h : m * m * 2 ^ a < 2 ^ 475) : m * m * 2 ^ a < 2 ^ 475 - 2 ^ 219 := by
  have hm2 : m * m ≤ (2 ^ 237 - 1) * (2 ^ 237 - 1) := Nat.mul_le_mul (by omega) (by omega)
  have c1 : (2 ^ 237 - 1) * (2 ^ 237 - 1) * 2 < 2 ^ 475 - 2 ^ 219 := by norm_num
  rcases (by omega : a = 0 ∨ a = 1 ∨ a = 2) with rfl | rfl | rfl
  · omega
  · omega
  · by_cases hc : m ≤ 0x16a09e667f3bcc908b2fb1366ea957d3e3adec17512775099da2f590b066
    · have := Nat.mul_le_mul hc hc
      have c2 : 0x16a09e667f3bcc908b2fb1366ea957d3e3adec17512775099da2f590b066 * 0x16a09e667f3bcc908b2fb1366ea957d3e3adec17512775099da2f590b066 * 2 ^ 2 < 2 ^ 475 - 2 ^ 219 := by
        norm_num
      omega
    · have hc' : 0x16a09e667f3bcc908b2fb1366ea957d3e3adec17512775099da2f590b067 ≤ m := by omega
      have := Nat.mul_le_mul hc' hc'
      have c2 : 2 ^ 475 < 0x16a09e667f3bcc908b2fb1366ea957d3e3adec17512775099da2f590b067 * 0x16a09e667f3bcc908b2fb1366ea957d3e3adec17512775099da2f590b067 * 2 ^ 2 := by
        norm_num
      omega

theorem bigSquare_spec {x : F256} (h0 : ¬ IsZero x.pat) : BigFloat.Norm (BigFloat.square (BigFloat.fromF256 x)) ∧
    |bval (BigFloat.square (BigFloat.fromF256 x)) - val x.pat ^ 2| ≤ val x.pat ^ 2 / 2 ^ 253 := by
  obtain ⟨n, v⟩ := bigFrom_spec h0
  obtain ⟨m, hm, e⟩ := bigFrom_signif h0
  obtain ⟨h1, h2, -⟩ := BigFloat.mul_spec n n (fun a ha h => by
    rw [e] at h ⊢
    have r : m * 2 ^ 18 * (m * 2 ^ 18) * 2 ^ a = m * m * 2 ^ a * 2 ^ 36 := by ring
    rw [r] at h ⊢
    have e1 : (2 : ℕ) ^ 511 = 2 ^ 475 * 2 ^ 36 := by rw [← Nat.pow_add]
    have e2 : (2 : ℕ) ^ 255 = 2 ^ 219 * 2 ^ 36 := by rw [← Nat.pow_add]
    rw [e1] at h
    rw [e1, e2, ← Nat.sub_mul]
    exact Nat.mul_lt_mul_of_pos_right (square_gap hm ha (lt_of_mul_lt_mul_right h (Nat.zero_le _))) (Nat.two_pow_pos _))
  rw [v] at h2
  refine ⟨h1, ?_⟩
  rw [pow_two]
  rwa [abs_of_nonneg (mul_self_nonneg (val x.pat))] at h2

theorem one_facts : BigFloat.Norm BigFloat.ONE ∧ bval BigFloat.ONE = 1 := by
  constructor
  · exact ⟨Or.inl rfl, by decide +kernel, by decide +kernel⟩
  · have e : bval BigFloat.ONE = ((1 : ℤ) : ℝ) * (nat256 BigFloat.ONE.signif : ℝ) * (2 : ℝ) ^ ((0 : ℤ) - 254) := rfl
    have e2 : nat256 BigFloat.ONE.signif = 2 ^ 254 := by decide +kernel
    rw [e, e2]
    norm_num

/-- A number below one is at least `2^-237` away from it. -/
theorem one_minus_sq {v : ℝ} (h : |v| ≤ 1 - 1 / 2 ^ 237) : 1 / 2 ^ 237 ≤ 1 - v ^ 2 ∧ v ^ 2 ≤ 1 := by
  have h0 := abs_nonneg v
  have c : (0 : ℝ) < 1 / 2 ^ 237 := by positivity
  rw [← sq_abs v]
  generalize (1 : ℝ) / 2 ^ 237 = u at *
  constructor <;> nlinarith

theorem diff_spec {x : F256} (h0 : ¬ IsZero x.pat) (h : |val x.pat| ≤ 1 - 1 / 2 ^ 237) :
    ∃ D, BigFloat.sub BigFloat.ONE (BigFloat.square (BigFloat.fromF256 x)) = some D ∧ BigFloat.Norm D ∧ D.signum = 1 ∧
      |bval D - (1 - val x.pat ^ 2)| ≤ 1 / 2 ^ 251 := by
  obtain ⟨n, e⟩ := bigSquare_spec h0
  obtain ⟨w1, w2⟩ := one_minus_sq h
  obtain ⟨o1, o2⟩ := one_facts
  have hv : 0 ≤ val x.pat ^ 2 := sq_nonneg _
  have e2 : val x.pat ^ 2 / 2 ^ 253 ≤ 1 / 2 ^ 253 := div_le_div_of_nonneg_right w2 (by positivity)
  have key : (|(1 : ℝ)| + |bval (BigFloat.square (BigFloat.fromF256 x))|) / 2 ^ 253 ≤ 3 / 2 ^ 253 := by
    refine div_le_div_of_nonneg_right ?_ (by positivity)
    have := abs_sub_abs_le_abs_sub (bval (BigFloat.square (BigFloat.fromF256 x))) (val x.pat ^ 2)
    rw [abs_of_nonneg hv] at this
    have c : (1 : ℝ) / 2 ^ 253 ≤ 1 := by norm_num
    rw [abs_one]
    linarith
  have c1 : (3 : ℝ) / 2 ^ 253 + 1 / 2 ^ 253 < 1 / 2 ^ 237 := by norm_num
  have c2 : (3 : ℝ) / 2 ^ 253 + 1 / 2 ^ 253 = 1 / 2 ^ 251 := by norm_num
  have l := abs_le.mp e
  obtain ⟨D, d1, d2, d3⟩ := bigSub_spec o1 n (by
    rw [o2]
    refine lt_of_le_of_lt key (lt_of_lt_of_le ?_ (le_abs_self _))
    linarith [l.2])
  rw [o2] at d3
  have d4 : |bval D - (1 - val x.pat ^ 2)| ≤ 1 / 2 ^ 251 := by
    have := abs_sub_le (bval D) (1 - bval (BigFloat.square (BigFloat.fromF256 x))) (1 - val x.pat ^ 2)
    have e3 : (1 - bval (BigFloat.square (BigFloat.fromF256 x))) - (1 - val x.pat ^ 2) =
      -(bval (BigFloat.square (BigFloat.fromF256 x)) - val x.pat ^ 2) := by ring
    rw [e3, abs_neg] at this
    linarith
  refine ⟨D, d1, d2, ?_, d4⟩
  rcases d2.1 with g | g
  · exact g
  · exfalso
    have : bval D ≤ 0 := by
      unfold bval
      rw [g, Int.cast_neg, Int.cast_one, mul_assoc, neg_one_mul]
      exact neg_nonpos.mpr (mul_nonneg (Nat.cast_nonneg _) (two_zpow _).le)
    have := (abs_le.mp d4).1
    linarith

/-- The error of the argument, in terms of the errors of its parts -/
theorem quot_err {v w D s q η : ℝ} (w0 : 0 < w) (w1 : w ≤ 1) (hη : η = 1 / 2 ^ 250 / w) (h1 : η ≤ 1 / 2 ^ 13)
    (hD : |D - w| ≤ 1 / 2 ^ 251) (hs : |s - Real.sqrt D| ≤ Real.sqrt D / 2 ^ 254) (hq : |q - v / s| ≤ |v / s| / 2 ^ 252) :
    |q - v / Real.sqrt w| ≤ |v / Real.sqrt w| * η := by
  have hS : 0 < Real.sqrt w := Real.sqrt_pos.mpr w0
  have hSS : Real.sqrt w * Real.sqrt w = w := Real.mul_self_sqrt w0.le
  have hDη : |D - w| ≤ w * (η / 2) := by
    refine hD.trans (le_of_eq ?_)
    have e : w * (1 / 2 ^ 250 / w / 2) = 1 / 2 ^ 250 / 2 * (w / w) := by ring
    rw [hη, e, div_self w0.ne', mul_one]
    norm_num
  have ηp : 1 / 2 ^ 250 ≤ η := by
    rw [hη, le_div_iff₀ w0]
    have : (0 : ℝ) < 1 / 2 ^ 250 := by positivity
    nlinarith
  clear hη hD
  have η0 : 0 < η := lt_of_lt_of_le (by positivity) ηp
  rw [abs_le] at hDη
  have hD0 : 0 < D := by nlinarith
  -- the square root of `D`
  have r1 : Real.sqrt D ≤ Real.sqrt w * (1 + η / 2) := by
    rw [Real.sqrt_le_left (by positivity), mul_pow, Real.sq_sqrt w0.le]
    nlinarith
  have r2 : Real.sqrt w * (1 - η / 2) ≤ Real.sqrt D := by
    apply Real.le_sqrt_of_sq_le
    rw [mul_pow, Real.sq_sqrt w0.le]
    nlinarith
  have c1 : (1 : ℝ) / 2 ^ 254 = 1 / 16 * (1 / 2 ^ 250) := by norm_num
  have c2 : (1 : ℝ) / 2 ^ 252 = 1 / 4 * (1 / 2 ^ 250) := by norm_num
  have c3 : (1 : ℝ) / 2 ^ 13 ≤ 1 / 1000 := by norm_num
  rw [div_eq_mul_one_div (Real.sqrt D), c1] at hs
  rw [div_eq_mul_one_div |v / s|, c2] at hq
  have c4 : (0 : ℝ) < 1 / 2 ^ 250 := by positivity
  generalize (1 : ℝ) / 2 ^ 250 = u at *
  generalize Real.sqrt D = R at *
  generalize Real.sqrt w = S at *
  have hR0 : 0 < R := lt_of_lt_of_le (mul_pos hS (by linarith)) r2
  have hR2 : R ≤ 2 * S := by nlinarith
  rw [abs_le] at hs
  have s1 : s ≤ S * (1 + 5 / 8 * η) := by nlinarith
  have s2 : S * (1 - 5 / 8 * η) ≤ s := by nlinarith
  have s0 : 0 < s := lt_of_lt_of_le (mul_pos hS (by linarith)) s2
  -- the quotient
  have t1 : |v / s - v / S| ≤ |v / S| * (5 / 8 * η * (1001 / 1000)) := by
    have e : v / s - v / S = v / S * ((S - s) / s) := by field_simp
    rw [e, abs_mul]
    refine mul_le_mul_of_nonneg_left ?_ (abs_nonneg _)
    rw [abs_div, abs_of_pos s0, div_le_iff₀ s0, abs_le]
    constructor <;> nlinarith
  have t2 : |v / s| ≤ |v / S| * (1001 / 1000) := by
    have := abs_sub_abs_le_abs_sub (v / s) (v / S)
    have : |v / S| * (5 / 8 * η * (1001 / 1000)) ≤ |v / S| * (1 / 1000) := mul_le_mul_of_nonneg_left (by linarith) (abs_nonneg _)
    linarith
  have t3 : |v / s| * (1 / 4 * u) ≤ |v / S| * (1001 / 1000) * (1 / 4 * η) :=
    mul_le_mul t2 (by linarith) (by positivity) (by positivity)
  have t4 := abs_sub_le q (v / s) (v / S)
  have t5 : |v / S| * (1001 / 1000) * (1 / 4 * η) + |v / S| * (5 / 8 * η * (1001 / 1000)) ≤ |v / S| * η := by
    have : 0 ≤ |v / S| * η := by positivity
    nlinarith
  linarith

/-- The argument: relative error `2^-250 / (1 - x²)` -/
theorem asinArg_spec {x : F256} (h0 : ¬ IsZero x.pat) (h : |val x.pat| ≤ 1 - 1 / 2 ^ 237) :
    ∃ q, asinArg x = some q ∧ BigFloat.Norm q ∧
      |bval q - val x.pat / Real.sqrt (1 - val x.pat ^ 2)| ≤
        |val x.pat / Real.sqrt (1 - val x.pat ^ 2)| * (1 / 2 ^ 250 / (1 - val x.pat ^ 2)) := by
  obtain ⟨n, v⟩ := bigFrom_spec h0
  obtain ⟨D, d1, d2, d3, d4⟩ := diff_spec h0 h
  obtain ⟨w1, w2⟩ := one_minus_sq h
  obtain ⟨s, s1, s2, -, s4⟩ := BigFloat.sqrt_spec d2 d3
  obtain ⟨q, q1, q2, q3⟩ := BigFloat.div_spec n s2
  rw [v] at q3
  refine ⟨q, ?_, q2, ?_⟩
  · unfold asinArg
    dsimp only
    rw [d1, Option.bind_eq_bind, Option.bind_some, s1, Option.bind_some, q1]
  · have w0 : 0 < 1 - val x.pat ^ 2 := lt_of_lt_of_le (by positivity) w1
    refine quot_err w0 (by linarith [sq_nonneg (val x.pat)]) rfl ?_ d4 s4 q3
    rw [div_le_iff₀ w0]
    refine le_trans (le_of_eq ?_) (mul_le_mul_of_nonneg_left w1 (by positivity))
    norm_num

end Verif.Trig
