import Verif.Props.Ln

/-!
# C83: signs and order of logarithms
-/

set_option exponentiation.threshold 2000

namespace Verif.Props

open Verif Verif.Spec

/-- A number with a small relative error has the sign of the exact value. -/
theorem sign_of_rel3 {r L : ℝ} (h : |r - L| ≤ |L| * (1 / 2 ^ 237 + 1 / 2 ^ 243)) : (0 < r ↔ 0 < L) ∧ (r = 0 ↔ L = 0) ∧ (r < 0 ↔ L < 0) := by
  have e : |L| * (1 / 2 ^ 237 + 1 / 2 ^ 243) ≤ |L| * (1 / 2) := mul_le_mul_of_nonneg_left (by norm_num) (abs_nonneg _)
  obtain ⟨h1, h2⟩ := abs_le.mp (h.trans e)
  rcases lt_trichotomy L 0 with hL | hL | hL
  · rw [abs_of_neg hL] at h1 h2
    have : r < 0 := by linarith
    exact ⟨⟨fun g => by linarith, fun g => by linarith⟩, ⟨fun g => by linarith, fun g => by linarith⟩, ⟨fun _ => hL, fun _ => this⟩⟩
  · subst hL
    rw [abs_zero] at h1 h2
    have : r = 0 := by linarith
    subst this
    exact ⟨Iff.rfl, Iff.rfl, Iff.rfl⟩
  · rw [abs_of_pos hL] at h1 h2
    have : 0 < r := by linarith
    exact ⟨⟨fun _ => hL, fun _ => this⟩, ⟨fun g => by linarith, fun g => by linarith⟩, ⟨fun g => by linarith, fun g => by linarith⟩⟩

/-- C83: the three logarithms are positive, zero and negative exactly for arguments above, equal to and below 1. -/
theorem C83_sign (x : F256) (h : LogDomain x.pat) :
    ∀ r ∈ [F256.ln x, F256.log2 x, F256.log10 x], (0 < val r.pat ↔ 1 < val x.pat) ∧ (val r.pat = 0 ↔ val x.pat = 1) ∧
      (val r.pat < 0 ↔ val x.pat < 1) := by
  have hv := h.2
  have l1 : 0 < Real.log (val x.pat) ↔ 1 < val x.pat := Real.log_pos_iff hv.le
  have l2 : Real.log (val x.pat) = 0 ↔ val x.pat = 1 := by
    rw [Real.log_eq_zero]
    exact ⟨fun g => by rcases g with g | g | g <;> linarith, fun g => Or.inr (Or.inl g)⟩
  have l3 : Real.log (val x.pat) < 0 ↔ val x.pat < 1 := Real.log_neg_iff hv
  have div : ∀ {b : ℝ}, 1 < b → (0 < Real.logb b (val x.pat) ↔ 1 < val x.pat) ∧ (Real.logb b (val x.pat) = 0 ↔ val x.pat = 1) ∧
      (Real.logb b (val x.pat) < 0 ↔ val x.pat < 1) := by
    intro b hb
    have hl : 0 < Real.log b := Real.log_pos hb
    unfold Real.logb
    exact ⟨(div_pos_iff_of_pos_right hl).trans l1, by rw [div_eq_zero_iff, or_iff_left hl.ne', l2], by rw [div_lt_iff₀ hl, zero_mul, l3]⟩
  obtain ⟨e1, e2, e3⟩ := C58_error x h
  have d2 := div (b := 2) (by norm_num)
  have d10 := div (b := 10) (by norm_num)
  have s1 := sign_of_rel3 e1
  have s2 := sign_of_rel3 e2
  have s3 := sign_of_rel3 e3
  intro r hr
  simp only [List.mem_cons, List.not_mem_nil, or_false] at hr
  rcases hr with rfl | rfl | rfl
  · exact ⟨s1.1.trans l1, s1.2.1.trans l2, s1.2.2.trans l3⟩
  · exact ⟨s2.1.trans d2.1, s2.2.1.trans d2.2.1, s2.2.2.trans d2.2.2⟩
  · exact ⟨s3.1.trans d10.1, s3.2.1.trans d10.2.1, s3.2.2.trans d10.2.2⟩

/-- Numbers near two values that are clearly apart are ordered like these. -/
theorem order_of_rel {a b A B : ℝ} (ha : |a - A| ≤ |A| * (1 / 2 ^ 237 + 1 / 2 ^ 243)) (hb : |b - B| ≤ |B| * (1 / 2 ^ 237 + 1 / 2 ^ 243))
    (hA : |A| ≤ 524756) (hB : |B| ≤ 524756) (h : A + 1 / 2 ^ 216 ≤ B) : a < b := by
  have c : (0 : ℝ) ≤ 1 / 2 ^ 237 + 1 / 2 ^ 243 := by norm_num
  have h1 := (abs_le.mp (ha.trans (mul_le_mul_of_nonneg_right hA c))).2
  have h2 := (abs_le.mp (hb.trans (mul_le_mul_of_nonneg_right hB c))).1
  have k : (524756 : ℝ) * (1 / 2 ^ 237 + 1 / 2 ^ 243) * 2 < 1 / 2 ^ 216 := by norm_num
  linarith

/-- The logarithms of two numbers a factor of `1 + 2^-214` apart. -/
theorem log_gap {u v : ℝ} (hu : 0 < u) (h : u * (1 + 1 / 2 ^ 214) ≤ v) : Real.log u + 5 / 2 * (1 / 2 ^ 216) ≤ Real.log v := by
  have h1 : Real.log (u * (1 + 1 / 2 ^ 214)) ≤ Real.log v := Real.log_le_log (mul_pos hu (by norm_num)) h
  rw [Real.log_mul hu.ne' (by norm_num)] at h1
  have h2 := Real.one_sub_inv_le_log_of_pos (show (0 : ℝ) < 1 + 1 / 2 ^ 214 by norm_num)
  have h3 : (5 / 2 * (1 / 2 ^ 216) : ℝ) ≤ 1 - (1 + 1 / 2 ^ 214)⁻¹ := by norm_num
  linarith

/-- C83: all three logarithms keep the order of arguments that are at least a factor of `1 + 2^-214` apart. -/
theorem C83_order (x y : F256) (hx : LogDomain x.pat) (hy : LogDomain y.pat) (h : val x.pat * (1 + 1 / 2 ^ 214) ≤ val y.pat) :
    val (F256.ln x).pat < val (F256.ln y).pat ∧ val (F256.log2 x).pat < val (F256.log2 y).pat ∧
    val (F256.log10 x).pat < val (F256.log10 y).pat := by
  obtain ⟨e1, e2, e3⟩ := C58_error x hx
  obtain ⟨f1, f2, f3⟩ := C58_error y hy
  have g := log_gap hx.2 h
  have w : (0 : ℝ) < 1 / 2 ^ 216 := by norm_num
  have gap : ∀ {b : ℝ}, 1 < b → Real.log b ≤ 2.31 → Real.logb b (val x.pat) + 1 / 2 ^ 216 ≤ Real.logb b (val y.pat) := by
    intro b hb hb2
    have hl : 0 < Real.log b := Real.log_pos hb
    unfold Real.logb
    rw [div_add' _ _ _ hl.ne', div_le_div_iff_of_pos_right hl]
    nlinarith
  refine ⟨order_of_rel e1 f1 ((log_range hx).2.trans (by norm_num)) ((log_range hy).2.trans (by norm_num)) (by linarith), ?_, ?_⟩
  · exact order_of_rel e2 f2 (logb_range le_rfl (log_two_le.trans (by norm_num)) hx).2
      (logb_range le_rfl (log_two_le.trans (by norm_num)) hy).2 (gap (by norm_num) (log_two_le.trans (by norm_num)))
  · exact order_of_rel e3 f3 (logb_range (by norm_num) (log_ten_le.trans (by norm_num)) hx).2
      (logb_range (by norm_num) (log_ten_le.trans (by norm_num)) hy).2 (gap (by norm_num) log_ten_le)

/-- The numbers 1 and 8 -/
example : LogDomain F256.ONE.pat ∧ LogDomain (⟨⟨0x40002000000000000000000000000000, 0⟩⟩ : F256).pat ∧
    val F256.ONE.pat * (1 + 1 / 2 ^ 214) ≤ val (⟨⟨0x40002000000000000000000000000000, 0⟩⟩ : F256).pat := by
  refine ⟨(logDomain_iff (pat_lt _)).mpr (by decide +kernel), (logDomain_iff (pat_lt _)).mpr (by decide +kernel), ?_⟩
  have e : val (⟨⟨0x40002000000000000000000000000000, 0⟩⟩ : F256).pat = 8 := by
    rw [val, show signBit _ = 0 by decide +kernel, show significandOf _ = 2 ^ 236 by decide +kernel,
      show quantumExp _ = -((233 : ℕ) : ℤ) by decide +kernel, zpow_neg, zpow_natCast, pow_zero, one_mul]
    norm_num
  have o : val F256.ONE.pat = 1 := by
    rw [val, show signBit _ = 0 by decide +kernel, show significandOf _ = 2 ^ 236 by decide +kernel,
      show quantumExp _ = -((236 : ℕ) : ℤ) by decide +kernel, zpow_neg, zpow_natCast, pow_zero, one_mul]
    norm_num
  rw [e, o]
  norm_num

end Verif.Props
