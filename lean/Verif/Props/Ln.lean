import Verif.Proofs.Ln
import Verif.Proofs.ExactClose
import Verif.Proofs.RelErr
import Verif.Props.Degrees
import Verif.Props.Basic
import Mathlib.Analysis.SpecialFunctions.Log.Base

/-!
# C53, C58: the logarithms
-/

namespace Verif.Props

open Verif Verif.Spec Verif.Ln Verif.FP492

set_option exponentiation.threshold 2000

/-- The arguments for which the logarithm is defined: positive finite numbers. -/
def LogDomain (N : ℕ) : Prop := IsFin N ∧ 0 < val N

theorem logDomain_iff {N : ℕ} (h : N < 2 ^ 256) : LogDomain N ↔ N ≠ 0 ∧ N < INF := by
  unfold LogDomain
  constructor
  · rintro ⟨hf, hv⟩
    have hs : signBit N = 0 := by
      by_contra hc
      have h1 : signBit N = 1 := by unfold signBit at *; omega
      rw [val_sign, h1, pow_one] at hv
      have := abs_nonneg (val N)
      linarith
    rw [fin_iff] at hf
    refine ⟨?_, ?_⟩
    · rintro rfl
      rw [val_zero (by decide)] at hv
      exact lt_irrefl _ hv
    · unfold signBit at hs; omega
  · rintro ⟨h0, h1⟩
    have hl : N < 2 ^ 255 := by unfold INF at h1; omega
    refine ⟨by rw [fin_iff, Nat.mod_eq_of_lt hl]; exact h1, ?_⟩
    have hs : signBit N = 0 := by unfold signBit; omega
    have hf : IsFin N := by rw [fin_iff, Nat.mod_eq_of_lt hl]; exact h1
    rw [val_sign, hs, pow_zero, one_mul, abs_pos, ne_eq, val_eq_zero_iff hf]
    unfold IsZero expField fracField INF at *
    omega

theorem domain_test (x : F256) : (x.isSpecial || x.isSignNegative) = true ↔ ¬ LogDomain x.pat := by
  have hx := (pat_lt x)
  rw [Bool.or_eq_true, isSpecial_iff, (C18_sign_predicates x).2.1, logDomain_iff hx]
  unfold INF signBit
  omega

/-- C53: outside of the positive finite numbers, i. e. for NaN, the infinities, the zeros and the negative numbers, the
result is NaN. -/
theorem C53_nan (x : F256) (h : IsNaN x.pat ∨ IsInf x.pat ∨ IsZero x.pat ∨ signBit x.pat = 1) :
    IsNaN (F256.ln x).pat ∧ IsNaN (F256.log2 x).pat ∧ IsNaN (F256.log10 x).pat := by
  have hd : ¬ LogDomain x.pat := by
    rintro ⟨hf, hv⟩
    rcases h with h | h | h | h
    · exact hf h.1
    · exact hf h.1
    · rw [val_zero h] at hv; exact lt_irrefl _ hv
    · rw [val_sign, h, pow_one] at hv
      have := abs_nonneg (val x.pat)
      linarith
  have ht := (domain_test x).mpr hd
  unfold F256.ln F256.log2 F256.log10
  rw [if_pos ht, if_pos ht, if_pos ht]
  have : IsNaN F256.NAN.pat := by decide +kernel
  exact ⟨this, this, this⟩

example : IsZero F256.ZERO.pat ∧ signBit F256.NEG_ONE.pat = 1 ∧ IsInf F256.INFINITY.pat := by decide +kernel

/-- The result `y` is the rounded value of a number whose relative distance from `L` is at most `2^-244`. -/
def LogOk (L : ℝ) (N : ℕ) : Prop := ∃ q, IsRNE q N ∧ |q - L| ≤ |L| / 2 ^ 244

theorem fixed_rel {L : ℝ} {S : ℝ} (h : |S - 2 ^ 492 * L| ≤ 2048 * (2 ^ 237 * |L|)) :
    |S / 2 ^ 492 - L| ≤ |L| / 2 ^ 244 := by
  have e : S / 2 ^ 492 - L = (S - 2 ^ 492 * L) / 2 ^ 492 := by
    rw [sub_div, mul_div_cancel_left₀ _ (by positivity)]
  rw [e, abs_div, abs_of_pos (by positivity : (0 : ℝ) < 2 ^ 492), div_le_iff₀ (by positivity)]
  refine h.trans (le_of_eq ?_)
  rw [show (2 : ℝ) ^ 492 = 2 ^ 244 * (2048 * 2 ^ 237) by norm_num]
  generalize (2 : ℝ) ^ 237 = B
  have : (2 : ℝ) ^ 244 ≠ 0 := by positivity
  generalize (2 : ℝ) ^ 244 = A at *
  field_simp

/-- C58, `ln` -/
theorem C58_ln (x : F256) (h : LogDomain x.pat) : LogOk (Real.log (val x.pat)) (F256.ln x).pat := by
  obtain ⟨h0, h1⟩ := (logDomain_iff (pat_lt x)).mp h
  obtain ⟨a1, -, -, -, -⟩ := lnFP_rel h0 h1
  unfold F256.ln
  rw [if_neg (fun hc => (domain_test x).mp hc h)]
  refine ⟨_, toF256_spec _, fixed_rel (a1.trans ?_)⟩
  have : (0 : ℝ) ≤ 2 ^ 237 * |Real.log (val x.pat)| := by positivity
  linarith

theorem log_const {x : F256} {c : FP492} {κ : ℝ} (h : LogDomain x.pat) (hκ : 0.43 ≤ κ)
    (hc : |(limbs c : ℝ) - 2 ^ 492 * κ| ≤ 1) (hl : limbs c < 2 ^ 493) :
    LogOk (Real.log (val x.pat) * κ) (toF256 (imulRound (lnFP x) c)).pat := by
  obtain ⟨h0, h1⟩ := (logDomain_iff (pat_lt x)).mp h
  obtain ⟨a1, a2, a3, -, -⟩ := lnFP_rel h0 h1
  refine ⟨_, toF256_spec _, fixed_rel ?_⟩
  have hs : sval c = limbs c := by
    rw [limbs_eq]
    rw [limbs_eq] at hl
    exact sval_of_lt (lt_of_lt_of_le hl (by norm_num))
  have hp : (sval (lnFP x)).natAbs * (sval c).natAbs < 2 ^ 1002 + 2 ^ 1001 := by
    rw [hs, Int.natAbs_natCast]
    calc _ ≤ (2 ^ 509 + 2 ^ 508) * limbs c := Nat.mul_le_mul_right _ a2.le
      _ < (2 ^ 509 + 2 ^ 508) * 2 ^ 493 := Nat.mul_lt_mul_of_pos_left hl (by norm_num)
      _ = 2 ^ 1002 + 2 ^ 1001 := by norm_num
  obtain ⟨b1, b2⟩ := imulRound_real hp
  have hc' : (sval c : ℝ) = limbs c := by rw [hs, Int.cast_natCast]
  rw [hc'] at b1
  have hκ0 : 0 < κ := lt_of_lt_of_le (by norm_num) hκ
  rw [abs_mul, abs_of_pos hκ0]
  rcases a3 with a3 | a3
  · rw [a3, mul_zero, sub_zero, abs_zero, mul_zero, mul_zero] at a1
    have : (sval (lnFP x) : ℝ) = 0 := abs_eq_zero.mp (le_antisymm a1 (abs_nonneg _))
    have hz : sval (lnFP x) = 0 := by exact_mod_cast this
    rw [b2 hz, a3]
    simp
  · have := mul_const (L := Real.log (val x.pat)) (κ := κ) (by positivity : (0 : ℝ) < 2 ^ 492) hκ hc a1 rfl a3 ?_ b1
    · rw [← mul_assoc (2 ^ 237)]; exact this
    · rw [← mul_assoc]
      exact mul_le_mul_of_nonneg_right (by norm_num) (abs_nonneg _)

theorem log_two_le : Real.log 2 ≤ 1 := by
  have := Real.log_le_sub_one_of_pos (by norm_num : (0 : ℝ) < 2)
  linarith

theorem log_ten_le : Real.log 10 ≤ 2.31 := by
  have h := log_ten_bounds.2
  have h2 : ((3 * (logSum 3 262 + 263) + (logSum 9 88 + 89)) * 100 : ℕ) ≤ 231 * 2 ^ 520 := by decide +kernel
  have h3 : (((3 * (logSum 3 262 + 263) + (logSum 9 88 + 89)) * 100 : ℕ) : ℝ) ≤ ((231 * 2 ^ 520 : ℕ) : ℝ) :=
    Nat.cast_le.mpr h2
  rw [Nat.cast_mul, Nat.cast_mul, Nat.cast_pow, Nat.cast_ofNat, Nat.cast_ofNat, Nat.cast_ofNat] at h3
  generalize ((3 * (logSum 3 262 + 263) + (logSum 9 88 + 89) : ℕ) : ℝ) = Z at *
  have hp : (0 : ℝ) < 2 ^ 520 := by positivity
  generalize (2 : ℝ) ^ 520 = Q at *
  have : Q * Real.log 10 * 100 ≤ Q * 231 := by linarith
  nlinarith

/-- C58, `log2` -/
theorem C58_log2 (x : F256) (h : LogDomain x.pat) : LogOk (Real.logb 2 (val x.pat)) (F256.log2 x).pat := by
  unfold F256.log2
  rw [if_neg (fun hc => (domain_test x).mp hc h), Real.logb, div_eq_mul_inv]
  have hl : 0 < Real.log 2 := Real.log_pos (by norm_num)
  refine log_const h ?_ LOG2_E_err (by decide +kernel)
  have : 1 ≤ (Real.log 2)⁻¹ := (one_le_inv₀ hl).mpr log_two_le
  linarith

/-- C58, `log10` -/
theorem C58_log10 (x : F256) (h : LogDomain x.pat) : LogOk (Real.logb 10 (val x.pat)) (F256.log10 x).pat := by
  unfold F256.log10
  rw [if_neg (fun hc => (domain_test x).mp hc h), Real.logb, div_eq_mul_inv]
  have hl : 0 < Real.log 10 := Real.log_pos (by norm_num)
  refine log_const h ?_ LOG10_E_err (by decide +kernel)
  rw [le_inv_comm₀ (by norm_num) hl]
  exact log_ten_le.trans (by norm_num)

/-- A logarithm of a binary256 number is 0 or far from 0, and never large. -/
theorem log_range {x : F256} (h : LogDomain x.pat) : (Real.log (val x.pat) = 0 ∨ 1 ≤ 2 ^ 237 * |Real.log (val x.pat)|) ∧
    |Real.log (val x.pat)| ≤ 262378 := by
  obtain ⟨h0, h1⟩ := (logDomain_iff (pat_lt x)).mp h
  obtain ⟨-, -, a3, a4, -⟩ := lnFP_rel h0 h1
  exact ⟨a3, a4⟩

theorem logb_range {x : F256} {b : ℝ} (hb : 2 ≤ b) (hb2 : Real.log b ≤ 4) (h : LogDomain x.pat) :
    (Real.logb b (val x.pat) = 0 ∨ 1 ≤ 2 ^ 239 * |Real.logb b (val x.pat)|) ∧
    |Real.logb b (val x.pat)| ≤ 524756 := by
  obtain ⟨h1, h2⟩ := log_range h
  have hl2 : Real.log 2 ≤ Real.log b := Real.log_le_log (by norm_num) hb
  have hl : (1 : ℝ) / 2 ≤ Real.log b := by
    have := Real.log_two_gt_d9
    linarith
  have hl0 : 0 < Real.log b := by linarith
  rw [Real.logb, abs_div, abs_of_pos hl0]
  constructor
  · rcases h1 with h1 | h1
    · left; rw [h1, zero_div]
    · right
      rw [← mul_div_assoc, le_div_iff₀ hl0]
      have e : (2 : ℝ) ^ 239 = 4 * 2 ^ 237 := by norm_num
      rw [e, mul_assoc]
      linarith
  · rw [div_le_iff₀ hl0]
    linarith

theorem lt_threshold {q : ℝ} (h : |q| ≤ 2 ^ 20) : |q| < overflowThreshold := by
  unfold overflowThreshold
  have h2 : (2 : ℝ) ^ (21 : ℤ) ≤ 2 ^ (262143 : ℤ) := zpow_le_zpow_right₀ (by norm_num) (by norm_num)
  have h5 : (2 : ℝ) ^ (21 : ℤ) = 2 * 2 ^ 20 := by norm_num
  rw [h5] at h2
  have h6 : (1 : ℝ) ≤ 2 - 2 ^ (-237 : ℤ) := by norm_num
  have h7 : (0 : ℝ) < 2 ^ 20 := by norm_num
  generalize (2 : ℝ) ^ (262143 : ℤ) = Z at *
  nlinarith

/-- The result is finite, has a small relative error, and is exact if the logarithm is representable. -/
def LogErr (L : ℝ) (N : ℕ) : Prop :=
  IsFin N ∧ |val N - L| ≤ |L| * (1 / 2 ^ 237 + 1 / 2 ^ 243) ∧ (∀ M, M < 2 ^ 256 → IsFin M → val M = L → val N = L)

/-- The consequences of `LogOk`. -/
theorem LogOk.error {L : ℝ} {N : ℕ} (h : LogOk L N) (h1 : L = 0 ∨ 1 ≤ 2 ^ 239 * |L|) (h2 : |L| ≤ 524756) :
    LogErr L N := by
  obtain ⟨q, hq, hd⟩ := h
  have hL := abs_nonneg L
  have hs : |L| / 2 ^ 244 ≤ |L| / 2 ^ 10 := div_le_div_of_nonneg_left hL (by positivity) (by norm_num)
  have hq1 : |q| ≤ |L| + |L| / 2 ^ 244 := by
    have := abs_sub_abs_le_abs_sub q L
    linarith
  have hq2 : |L| - |L| / 2 ^ 244 ≤ |q| := by
    have := abs_sub_abs_le_abs_sub L q
    rw [abs_sub_comm] at this
    linarith
  have ht : |q| < overflowThreshold := lt_threshold (by norm_num at hs ⊢; linarith)
  refine ⟨hq.fin ht, ?_, fun M m1 m2 m3 => ?_⟩
  · rcases h1 with h1 | h1
    · rw [h1, abs_zero, zero_div, sub_zero] at hd
      have hq0 : q = 0 := abs_eq_zero.mp (le_antisymm hd (abs_nonneg _))
      rw [hq0] at hq
      rw [(IsRNE.exact hq (M := 0) (by norm_num) (by decide) (val_zero (by decide))).2, h1]
      simp
    · have hb : (2 : ℝ) ^ 236 ≤ |q| * 2 ^ 262378 := by
        have e : (2 : ℝ) ^ 262378 = 2 ^ 240 * (2 ^ 236 * 2 ^ 261902) := by rw [← pow_add, ← pow_add]
        have e1 : (1 : ℝ) ≤ |q| * 2 ^ 240 := by
          norm_num at hs hq2 h1 ⊢
          linarith
        have e2 : (1 : ℝ) ≤ 2 ^ 261902 := one_le_pow₀ (by norm_num)
        rw [e, ← mul_assoc]
        generalize (2 : ℝ) ^ 261902 = Z at *
        calc (2 : ℝ) ^ 236 = 1 * (2 ^ 236 * 1) := by ring
          _ ≤ |q| * 2 ^ 240 * (2 ^ 236 * Z) :=
            mul_le_mul e1 (mul_le_mul_of_nonneg_left e2 (by positivity)) (by positivity) (by positivity)
      have hr := IsRNE.rel_error hq hb ht
      have t := abs_add_le (val N - q) (q - L)
      rw [sub_add_sub_cancel] at t
      norm_num at hr hd hq1 t ⊢
      linarith
  · have := (IsRNE.exact_close hq m1 m2 ht (by rw [m3]; exact hd)).2
    rw [this, m3]

theorem ln_error (x : F256) (h : LogDomain x.pat) : LogErr (Real.log (val x.pat)) (F256.ln x).pat :=
  (C58_ln x h).error (by
    rcases (log_range h).1 with h1 | h1
    · exact Or.inl h1
    · right
      have e : (2 : ℝ) ^ 239 = 4 * 2 ^ 237 := by norm_num
      rw [e, mul_assoc]; linarith) (by linarith [(log_range h).2])

theorem log2_error (x : F256) (h : LogDomain x.pat) : LogErr (Real.logb 2 (val x.pat)) (F256.log2 x).pat :=
  (C58_log2 x h).error (logb_range le_rfl (log_two_le.trans (by norm_num)) h).1
    (logb_range le_rfl (log_two_le.trans (by norm_num)) h).2

theorem log10_error (x : F256) (h : LogDomain x.pat) : LogErr (Real.logb 10 (val x.pat)) (F256.log10 x).pat :=
  (C58_log10 x h).error (logb_range (by norm_num) (log_ten_le.trans (by norm_num)) h).1
    (logb_range (by norm_num) (log_ten_le.trans (by norm_num)) h).2

/-- C53: for every positive finite number the three logarithms are finite. -/
theorem C53_finite (x : F256) (h : LogDomain x.pat) :
    IsFin (F256.ln x).pat ∧ IsFin (F256.log2 x).pat ∧ IsFin (F256.log10 x).pat :=
  ⟨(ln_error x h).1, (log2_error x h).1, (log10_error x h).1⟩

example : LogDomain F256.ONE.pat := (logDomain_iff (pat_lt _)).mpr (by decide +kernel)

/-- The smallest and the largest positive number. -/
example : LogDomain F256.MIN_GT_ZERO.pat ∧ LogDomain F256.MAX.pat :=
  ⟨(logDomain_iff (pat_lt _)).mpr (by decide +kernel), (logDomain_iff (pat_lt _)).mpr (by decide +kernel)⟩

/-- C58: the relative errors of the results are less than `2^-237 + 2^-243`; correct rounding would be `2^-237`. -/
theorem C58_error (x : F256) (h : LogDomain x.pat) :
    |val (F256.ln x).pat - Real.log (val x.pat)| ≤ |Real.log (val x.pat)| * (1 / 2 ^ 237 + 1 / 2 ^ 243) ∧
    |val (F256.log2 x).pat - Real.logb 2 (val x.pat)| ≤ |Real.logb 2 (val x.pat)| * (1 / 2 ^ 237 + 1 / 2 ^ 243) ∧
    |val (F256.log10 x).pat - Real.logb 10 (val x.pat)| ≤ |Real.logb 10 (val x.pat)| * (1 / 2 ^ 237 + 1 / 2 ^ 243) :=
  ⟨(ln_error x h).2.1, (log2_error x h).2.1, (log10_error x h).2.1⟩

/-- C58: a logarithm that is a binary256 number is calculated exactly. -/
theorem C58_exact (x : F256) (h : LogDomain x.pat) (M : ℕ) (hM : M < 2 ^ 256) (fM : IsFin M) :
    (Real.log (val x.pat) = val M → val (F256.ln x).pat = val M) ∧
    (Real.logb 2 (val x.pat) = val M → val (F256.log2 x).pat = val M) ∧
    (Real.logb 10 (val x.pat) = val M → val (F256.log10 x).pat = val M) :=
  ⟨fun e => ((ln_error x h).2.2 M hM fM e.symm).trans e, fun e => ((log2_error x h).2.2 M hM fM e.symm).trans e,
    fun e => ((log10_error x h).2.2 M hM fM e.symm).trans e⟩

theorem natAbs_le {k : ℤ} {B : ℕ} (h : |(k : ℝ)| ≤ B) : k.natAbs ≤ B := by
  rw [← Int.cast_abs, ← Int.natCast_natAbs, Int.cast_natCast] at h
  exact_mod_cast h

/-- C58: the binary logarithm of a power of two is exact. -/
theorem C58_log2_pow (x : F256) (hf : IsFin x.pat) (k : ℤ) (hx : val x.pat = 2 ^ k) : val (F256.log2 x).pat = k := by
  have h : LogDomain x.pat := ⟨hf, by rw [hx]; positivity⟩
  have e : Real.logb 2 (val x.pat) = k := by
    rw [hx, Real.logb, Real.log_zpow, mul_div_assoc, div_self (Real.log_pos (by norm_num)).ne', mul_one]
  have hr := (logb_range le_rfl (log_two_le.trans (by norm_num)) h).2
  rw [e] at hr
  have hk : k.natAbs ≤ 524756 := natAbs_le (by exact_mod_cast hr)
  obtain ⟨M, m1, m2, m3⟩ := exists_int_pat (k := k) (lt_of_le_of_lt hk (by norm_num))
  rw [← m3]
  exact (C58_exact x h M m1 m2).2.1 (by rw [e, m3])

/-- C58: the decimal logarithm of a power of ten that is a binary256 number is exact. -/
theorem C58_log10_pow (x : F256) (hf : IsFin x.pat) (k : ℤ) (hx : val x.pat = 10 ^ k) :
    val (F256.log10 x).pat = k := by
  have h : LogDomain x.pat := ⟨hf, by rw [hx]; positivity⟩
  have e : Real.logb 10 (val x.pat) = k := by
    rw [hx, Real.logb, Real.log_zpow, mul_div_assoc, div_self (Real.log_pos (by norm_num)).ne', mul_one]
  have hr := (logb_range (by norm_num) (log_ten_le.trans (by norm_num)) h).2
  rw [e] at hr
  have hk : k.natAbs ≤ 524756 := natAbs_le (by exact_mod_cast hr)
  obtain ⟨M, m1, m2, m3⟩ := exists_int_pat (k := k) (lt_of_le_of_lt hk (by norm_num))
  rw [← m3]
  exact (C58_exact x h M m1 m2).2.2 (by rw [e, m3])

theorem sign_of_rel {v L : ℝ} (h : |v - L| ≤ |L| * (1 / 2 ^ 237 + 1 / 2 ^ 243)) : (0 < v ↔ 0 < L) ∧ (v < 0 ↔ L < 0) := by
  have hs : |L| * (1 / 2 ^ 237 + 1 / 2 ^ 243) ≤ |L| * (1 / 2) := mul_le_mul_of_nonneg_left (by norm_num) (abs_nonneg _)
  have := abs_le.mp (h.trans hs)
  rcases lt_trichotomy L 0 with h | h | h
  · rw [abs_of_neg h] at this
    refine ⟨⟨fun g => ?_, fun g => ?_⟩, ⟨fun _ => h, fun _ => ?_⟩⟩ <;> linarith
  · rw [h] at this ⊢
    rw [abs_zero, zero_mul, sub_zero, neg_zero] at this
    have : v = 0 := le_antisymm this.2 this.1
    rw [this]; simp
  · rw [abs_of_pos h] at this
    refine ⟨⟨fun _ => h, fun _ => ?_⟩, ⟨fun g => ?_, fun g => ?_⟩⟩ <;> linarith

/-- C58: the natural logarithm is positive exactly for numbers greater than 1, negative exactly for numbers less than 1
(and thus 0 exactly for 1). -/
theorem C58_sign (x : F256) (h : LogDomain x.pat) :
    (0 < val (F256.ln x).pat ↔ 1 < val x.pat) ∧ (val (F256.ln x).pat < 0 ↔ val x.pat < 1) := by
  have := sign_of_rel (C58_error x h).1
  rw [this.1, this.2, Real.log_pos_iff h.2.le, Real.log_neg_iff h.2]
  exact ⟨Iff.rfl, Iff.rfl⟩

/-- The number 8, a power of two. -/
example : ∃ x : F256, IsFin x.pat ∧ val x.pat = 2 ^ (3 : ℤ) := by
  refine ⟨⟨⟨0x40002000000000000000000000000000, 0⟩⟩, by decide +kernel, ?_⟩
  rw [val, show signBit _ = 0 by decide +kernel, show significandOf _ = 2 ^ 236 by decide +kernel,
    show quantumExp _ = -((233 : ℕ) : ℤ) by decide +kernel, zpow_neg, zpow_natCast, pow_zero, one_mul]
  norm_num

/-- The number 1000, a power of ten. -/
example : ∃ x : F256, IsFin x.pat ∧ val x.pat = 10 ^ (3 : ℤ) := by
  refine ⟨⟨⟨0x40008f40000000000000000000000000, 0⟩⟩, by decide +kernel, ?_⟩
  rw [val, show signBit _ = 0 by decide +kernel, show significandOf _ = 1000 * 2 ^ 227 by decide +kernel,
    show quantumExp _ = -((227 : ℕ) : ℤ) by decide +kernel, zpow_neg, zpow_natCast, pow_zero, one_mul]
  norm_num

/-- Test: `ln 1 = 0`. -/
example : (F256.ln F256.ONE).pat = 0 := by decide +kernel

end Verif.Props
