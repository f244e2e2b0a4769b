import Verif.Props.Trig
import Verif.Proofs.RelErr

/-!
# C60: the accuracy of the tangent
-/

set_option exponentiation.threshold 2000

namespace Verif.Props

open Verif Verif.Spec Verif.Trig

/-- Numbers whose argument is reduced properly are not close to a zero of the sine or of the cosine. -/
theorem reduced_far {x : ℝ} {q : ℕ} {Y : FP492} (h : Reduced x q Y) :
    1 / 2 ^ 493 ≤ |Real.sin x| ∧ 1 / 2 ^ 493 ≤ |Real.cos x| := by
  obtain ⟨k, y, hx, -, h1, h2, h3⟩ := h
  have hY1 : (1 : ℝ) / 2 ^ 492 ≤ |(FP492.sval Y : ℝ) / 2 ^ 492| := by
    rw [abs_div, abs_of_pos (by positivity : (0 : ℝ) < 2 ^ 492)]
    apply div_le_div_of_nonneg_right _ (by positivity)
    have : (1 : ℤ) ≤ |FP492.sval Y| := Int.one_le_abs h2
    exact_mod_cast this
  generalize (FP492.sval Y : ℝ) / 2 ^ 492 = Z at *
  have hy : 9 / 10 / 2 ^ 492 ≤ |y| ∧ |y| ≤ 82 / 100 := by
    have p : (0 : ℝ) ≤ 1 / 2 ^ 492 := by positivity
    have e1 : (9 : ℝ) / 10 / 2 ^ 492 ≤ 1 / 2 ^ 492 := by norm_num
    rcases h3 with h3 | ⟨h3, h4⟩
    · rw [← h3]
      exact ⟨e1.trans hY1, h1.trans (by norm_num)⟩
    · have a1 := abs_sub_abs_le_abs_sub Z y
      have a2 := abs_sub_abs_le_abs_sub y Z
      rw [abs_sub_comm] at a2
      have a3 : |Z| / 2 ^ 245 ≤ |Z| / 100 := div_le_div_of_nonneg_left (abs_nonneg _) (by norm_num) (by norm_num)
      have a4 : (3 : ℝ) / 2 ^ 492 ≤ 1 / 2 ^ 253 / 100 := by norm_num
      have a5 : (9 : ℝ) / 10 / 2 ^ 492 ≤ 1 / 2 ^ 253 * (9 / 10) := by norm_num
      have a6 : (0 : ℝ) ≤ 1 / 2 ^ 253 := by positivity
      have b1 := a1.trans h4
      have b2 := a2.trans h4
      clear * - b1 b2 a3 a4 a5 a6 h1 h3
      generalize (9 : ℝ) / 10 / 2 ^ 492 = A at *
      generalize (3 : ℝ) / 2 ^ 492 = B at *
      generalize (1 : ℝ) / 2 ^ 253 = C at *
      generalize |Z| / 2 ^ 245 = D at *
      constructor <;> linarith
  have hsin : 8 / 10 * |y| ≤ |Real.sin y| := by
    have a1 := sub_sin_le y
    have a2 := abs_sub_abs_le_abs_sub y (Real.sin y)
    have a3 : |y| ^ 3 / 6 ≤ 2 / 10 * |y| := by
      have : |y| ^ 3 = |y| * (|y| * |y|) := by ring
      rw [this]
      nlinarith [abs_nonneg y, hy.2, mul_nonneg (abs_nonneg y) (abs_nonneg y),
        mul_le_mul hy.2 hy.2 (abs_nonneg y) (by norm_num : (0 : ℝ) ≤ 82 / 100)]
    linarith
  have hcos : 1 / 2 ≤ |Real.cos y| := by
    refine le_trans ?_ (le_abs_self _)
    refine le_trans ?_ (Real.one_sub_sq_div_two_le_cos)
    have : y ^ 2 ≤ 1 := by
      rw [← sq_abs]
      nlinarith [abs_nonneg y, hy.2]
    linarith
  have hs : 1 / 2 ^ 493 ≤ |Real.sin y| := by
    refine le_trans ?_ hsin
    have := mul_le_mul_of_nonneg_left hy.1 (by norm_num : (0 : ℝ) ≤ 8 / 10)
    refine le_trans ?_ this
    norm_num
  have hc : 1 / 2 ^ 493 ≤ |Real.cos y| := le_trans (by norm_num) hcos
  obtain ⟨q0, q1, q2, q3⟩ := quarter_turns k y
  rw [← hx] at q0 q1 q2 q3
  rcases (by omega : k % 4 = 0 ∨ k % 4 = 1 ∨ k % 4 = 2 ∨ k % 4 = 3) with h | h | h | h
  · rw [(q0 h).1, (q0 h).2]; exact ⟨hs, hc⟩
  · rw [(q1 h).1, (q1 h).2, abs_neg]; exact ⟨hc, hs⟩
  · rw [(q2 h).1, (q2 h).2, abs_neg, abs_neg]; exact ⟨hs, hc⟩
  · rw [(q3 h).1, (q3 h).2, abs_neg]; exact ⟨hc, hs⟩

/-- The relative error of a result that is not tiny -/
theorem good_rel {v : ℝ} {r : F256} (h : Good v r) (hv : 1 / 2 ^ 493 ≤ |v|) :
    |val r.pat - v| ≤ 101 / 100 / 2 ^ 236 * |val r.pat| ∧ ¬ IsZero r.pat := by
  obtain ⟨h1, h2⟩ := h
  have habs : |val r.pat| = significandOf r.pat * (2 : ℝ) ^ quantumExp r.pat := by
    rw [val, abs_mul, abs_mul, abs_pow, abs_neg, abs_one, one_pow, one_mul, abs_of_nonneg (Nat.cast_nonneg _),
      abs_of_pos (zpow_pos (by norm_num) _)]
  have hQ : (0 : ℝ) < 2 ^ quantumExp r.pat := zpow_pos (by norm_num) _
  by_cases he : expField r.pat = 0
  · exfalso
    have hs : (significandOf r.pat : ℝ) ≤ 2 ^ 236 := by
      have : significandOf r.pat ≤ 2 ^ 236 := by
        rw [significandOf, if_pos he]; unfold fracField; omega
      exact_mod_cast this
    have hq : (2 : ℝ) ^ quantumExp r.pat ≤ 2 ^ (-1000 : ℤ) := by
      apply zpow_le_zpow_right₀ (by norm_num)
      rw [quantumExp, if_pos he]
      norm_num
    have a1 := abs_sub_abs_le_abs_sub v (val r.pat)
    rw [abs_sub_comm] at a1
    have a2 : |v| ≤ (2 ^ 236 + 2) * 2 ^ quantumExp r.pat := by
      have := mul_le_mul_of_nonneg_right hs hQ.le
      rw [← habs] at this
      have a3 := a1.trans h2
      clear * - this a3 hQ
      generalize (2 : ℝ) ^ quantumExp r.pat = Q at *
      generalize (2 : ℝ) ^ 236 = B at *
      linarith
    have a3 := mul_le_mul_of_nonneg_left hq (by positivity : (0 : ℝ) ≤ 2 ^ 236 + 2)
    have a4 : ((2 : ℝ) ^ 236 + 2) * 2 ^ (-1000 : ℤ) < 1 / 2 ^ 493 := by norm_num
    exact absurd (hv.trans (a2.trans a3)) (not_le.mpr a4)
  · refine ⟨h2.trans ?_, fun hz => he hz.1⟩
    have hs : (2 : ℝ) ^ 236 ≤ significandOf r.pat := by
      have : 2 ^ 236 ≤ significandOf r.pat := by
        rw [significandOf, if_neg he]; exact Nat.le_add_right _ _
      exact_mod_cast this
    rw [habs, div_mul_eq_mul_div (101 / 100 : ℝ) (2 ^ 236), le_div_iff₀ (by positivity)]
    have := mul_le_mul_of_nonneg_right hs hQ.le
    generalize (2 : ℝ) ^ quantumExp r.pat = Q at *
    generalize (2 : ℝ) ^ 236 = B at *
    linarith

/-- The relative error of a quotient -/
theorem quot_rel {s c S C e : ℝ} (he0 : 0 ≤ e) (he : e ≤ 1 / 10000) (hs : |s - S| ≤ e * |s|) (hc : |c - C| ≤ e * |c|)
    (hS : S ≠ 0) (hC : C ≠ 0) (hc0 : c ≠ 0) : |s / c - S / C| ≤ 2001 / 1000 * e * |S / C| := by
  have e1 : s / c - S / C = ((s - S) * C - S * (c - C)) / (c * C) := by field_simp; ring
  rw [e1, abs_div, abs_div, abs_mul c C]
  have hc' := abs_pos.mpr hc0
  have hC' := abs_pos.mpr hC
  have hS' := abs_pos.mpr hS
  rw [← mul_div_assoc, div_le_div_iff₀ (mul_pos hc' hC') hC']
  have a1 : |(s - S) * C - S * (c - C)| ≤ |s - S| * |C| + |S| * |c - C| := by
    refine (abs_sub _ _).trans ?_
    rw [abs_mul, abs_mul]
  have a2 : |s| ≤ 10002 / 10000 * |S| := by
    have b := (abs_sub_abs_le_abs_sub s S).trans hs
    have : e * |s| ≤ 1 / 10000 * |s| := mul_le_mul_of_nonneg_right he (abs_nonneg _)
    linarith
  have a3 : |C| ≤ 10001 / 10000 * |c| := by
    have b := abs_sub_abs_le_abs_sub C c
    rw [abs_sub_comm C c] at b
    have : e * |c| ≤ 1 / 10000 * |c| := mul_le_mul_of_nonneg_right he (abs_nonneg _)
    linarith
  have a4 : |s - S| * |C| ≤ e * (10002 / 10000 * |S|) * |C| :=
    mul_le_mul_of_nonneg_right (hs.trans (mul_le_mul_of_nonneg_left a2 he0)) hC'.le
  have a5 : |S| * |c - C| ≤ |S| * (e * |c|) := mul_le_mul_of_nonneg_left hc hS'.le
  have a6 : e * (10002 / 10000 * |S|) * |C| ≤ e * (10002 / 10000 * |S|) * (10001 / 10000 * |c|) :=
    mul_le_mul_of_nonneg_left a3 (by positivity)
  have a7 : |(s - S) * C - S * (c - C)| ≤ 2001 / 1000 * e * |S| * |c| := by
    have e2 : e * (10002 / 10000 * |S|) * (10001 / 10000 * |c|) + |S| * (e * |c|) =
        (1 + 10002 / 10000 * (10001 / 10000)) * (e * |S| * |c|) := by ring
    have e3 : 0 ≤ e * |S| * |c| := by positivity
    have e4 : 2001 / 1000 * e * |S| * |c| = 2001 / 1000 * (e * |S| * |c|) := by ring
    rw [e4]
    linarith
  calc _ ≤ 2001 / 1000 * e * |S| * |c| * |C| := mul_le_mul_of_nonneg_right a7 hC'.le
    _ = _ := by ring

/-- The call yields a finite number with a relative error of at most `c * 2^-236`. -/
def WithinRel (c v : ℝ) (r : Option F256) : Prop :=
  ∃ z, r = some z ∧ IsFin z.pat ∧ |val z.pat - v| ≤ c / 2 ^ 236 * |v|

theorem pow_big : (2 : ℝ) ^ 2000 < overflowThreshold ∧ (2 : ℝ) ^ 236 * 2 ^ 2000 ≤ 2 ^ 262378 := by
  constructor
  · unfold overflowThreshold
    have h2 : (2 : ℝ) ^ (2001 : ℤ) ≤ 2 ^ (262143 : ℤ) := zpow_le_zpow_right₀ (by norm_num) (by norm_num)
    have h6 : (1 : ℝ) ≤ 2 - (2 : ℝ) ^ (-237 : ℤ) := by
      have : (2 : ℝ) ^ (-237 : ℤ) ≤ 2 ^ (0 : ℤ) := zpow_le_zpow_right₀ (by norm_num) (by norm_num)
      rw [zpow_zero] at this
      linarith
    have h3 : (2 : ℝ) ^ 2000 < 2 ^ (2001 : ℤ) := by
      rw [← zpow_natCast]
      exact zpow_lt_zpow_right₀ (by norm_num) (by norm_num)
    have h4 : (2 : ℝ) ^ (262143 : ℤ) ≤ (2 - (2 : ℝ) ^ (-237 : ℤ)) * 2 ^ (262143 : ℤ) :=
      le_mul_of_one_le_left (zpow_pos (by norm_num) _).le h6
    exact h3.trans_le (h2.trans h4)
  · rw [← pow_add]
    exact pow_le_pow_right₀ (by norm_num) (by norm_num)

/-- C60, the tangent: no panic, and a relative error of at most 2.53 units of `2^-236`. -/
theorem C60_tan_partial (x : F256) (hf : IsFin x.pat) (h1 : 1 / 2 ^ 256 ≤ |val x.pat|) :
    WithinRel 2.53 (Real.tan (val x.pat)) x.tan := by
  have h0 : ¬ IsZero x.pat := fun hz => by
    rw [val_zero hz, abs_zero] at h1
    exact absurd h1 (by norm_num)
  obtain ⟨m, E, h⟩ := abs_arg x hf h0
  rw [← C18_abs_val] at h1
  have g1 : -256 ≤ E := h.exp_ge (by rw [zpow_neg, ← one_div]; exact_mod_cast h1)
  obtain ⟨q, Y, r1, r2⟩ := reduce_spec h g1
  obtain ⟨s, c, s1, c1, s2, c2⟩ := sin_cases hf h0 r1 r2
  obtain ⟨f1, f2⟩ := reduced_far r2
  rw [C18_abs_val] at f1 f2
  have f1' : 1 / 2 ^ 493 ≤ |Real.sin (val x.pat)| := by
    rcases abs_choice (val x.pat) with hc | hc <;> rw [hc] at f1
    · exact f1
    · rwa [Real.sin_neg, abs_neg] at f1
  rw [Real.cos_abs] at f2
  obtain ⟨sr, -⟩ := good_rel s2 f1'
  obtain ⟨cr, cz⟩ := good_rel c2 f2
  have hsc : x.tan = F256.div s c := by
    rw [F256.tan, if_neg (not_special hf h0), C59_sin_cos, s1, c1]
    rfl
  obtain ⟨z, hz, hr, -⟩ := C06_div s c s2.1 c2.1 cz
  have hS0 : Real.sin (val x.pat) ≠ 0 := abs_pos.mp (lt_of_lt_of_le (by positivity) f1')
  have hC0 : Real.cos (val x.pat) ≠ 0 := abs_pos.mp (lt_of_lt_of_le (by positivity) f2)
  have hc0 : val c.pat ≠ 0 := by
    intro hc
    rw [hc, abs_zero, mul_zero, zero_sub, abs_neg] at cr
    have := lt_of_lt_of_le (by positivity : (0 : ℝ) < 1 / 2 ^ 493) f2
    linarith
  have hq := quot_rel (by positivity) (by norm_num) sr cr hS0 hC0 hc0
  rw [← Real.tan_eq_sin_div_cos] at hq
  have hTlow : 1 / 2 ^ 493 ≤ |Real.tan (val x.pat)| := by
    rw [Real.tan_eq_sin_div_cos, abs_div, le_div_iff₀ (abs_pos.mpr hC0)]
    calc 1 / 2 ^ 493 * |Real.cos (val x.pat)| ≤ 1 / 2 ^ 493 * 1 :=
          mul_le_mul_of_nonneg_left (Real.abs_cos_le_one _) (by positivity)
      _ ≤ _ := by rw [mul_one]; exact f1'
  have hTup : |Real.tan (val x.pat)| ≤ 2 ^ 493 := by
    rw [Real.tan_eq_sin_div_cos, abs_div, div_le_iff₀ (abs_pos.mpr hC0)]
    have : (2 : ℝ) ^ 493 * (1 / 2 ^ 493) ≤ 2 ^ 493 * |Real.cos (val x.pat)| :=
      mul_le_mul_of_nonneg_left f2 (by positivity)
    rw [mul_one_div_cancel (by positivity)] at this
    exact (Real.abs_sin_le_one _).trans this
  generalize Real.tan (val x.pat) = T at *
  generalize val s.pat / val c.pat = Q at *
  have hT0 : 0 < |T| := lt_of_lt_of_le (by positivity) hTlow
  have hsm : 2001 / 1000 * (101 / 100 / 2 ^ 236) * |T| ≤ 1 / 1000 * |T| :=
    mul_le_mul_of_nonneg_right (by norm_num) hT0.le
  have hQT : |Q| ≤ 1001 / 1000 * |T| := by
    have a1 := (abs_sub_abs_le_abs_sub Q T).trans (hq.trans hsm)
    clear * - a1
    linarith
  have hQT' : 999 / 1000 * |T| ≤ |Q| := by
    have a1 := abs_sub_abs_le_abs_sub T Q
    rw [abs_sub_comm] at a1
    have a2 := a1.trans (hq.trans hsm)
    clear * - a2
    linarith
  obtain ⟨big1, big2⟩ := pow_big
  have hlt : |Q| < overflowThreshold := by
    refine lt_of_le_of_lt ?_ big1
    have a1 := mul_le_mul_of_nonneg_left hTup (by norm_num : (0 : ℝ) ≤ 1001 / 1000)
    exact hQT.trans (a1.trans (by norm_num))
  have hlow : 2 ^ 236 ≤ |Q| * 2 ^ 262378 := by
    have a1 : (1 : ℝ) / 2 ^ 2000 ≤ |Q| := by
      have a2 := mul_le_mul_of_nonneg_left hTlow (by norm_num : (0 : ℝ) ≤ 999 / 1000)
      exact le_trans (by norm_num) (a2.trans hQT')
    have a2 := mul_le_mul a1 big2 (by positivity) (abs_nonneg _)
    refine le_trans (le_of_eq ?_) a2
    have : (0 : ℝ) < 2 ^ 2000 := by positivity
    generalize (2 : ℝ) ^ 2000 = B at *
    generalize (2 : ℝ) ^ 236 = A at *
    field_simp
  have hrel := IsRNE.rel_error hr hlow hlt
  rw [hsc]
  refine ⟨z, hz, hr.fin hlt, ?_⟩
  have e1 : val z.pat - T = (val z.pat - Q) + (Q - T) := by ring
  rw [e1]
  refine (abs_add_le _ _).trans ((add_le_add hrel hq).trans ?_)
  have e2 : |Q| / 2 ^ 237 ≤ 5005 / 10000 / 2 ^ 236 * |T| := by
    rw [show (2 : ℝ) ^ 237 = 2 * 2 ^ 236 by norm_num, div_mul_eq_mul_div, div_le_div_iff₀ (by positivity) (by positivity)]
    have : (0 : ℝ) < 2 ^ 236 := by positivity
    have a1 := mul_le_mul_of_nonneg_right hQT this.le
    clear * - a1
    generalize (2 : ℝ) ^ 236 = B at *
    linarith
  refine (add_le_add e2 le_rfl).trans ?_
  have e3 : (5005 / 10000 / 2 ^ 236 : ℝ) + 2001 / 1000 * (101 / 100 / 2 ^ 236) ≤ 2.53 / 2 ^ 236 := by norm_num
  rw [← add_mul]
  exact mul_le_mul_of_nonneg_right e3 hT0.le

/-- The hypotheses hold for 1. -/
example : IsFin F256.ONE.pat ∧ 1 / 2 ^ 256 ≤ |val F256.ONE.pat| := by
  refine ⟨by decide, ?_⟩
  rw [val_ONE]; norm_num

/-- C60 is false for small arguments: the tangent of `2^-1000` is computed as `2^-492`. -/
theorem C60_counterexample : IsFin twoPowNeg1000.pat ∧
    ¬ WithinRel (2 ^ 500) (Real.tan (val twoPowNeg1000.pat)) twoPowNeg1000.tan := by
  refine ⟨by decide, ?_⟩
  rintro ⟨z, hz, -, hb⟩
  have e : twoPowNeg1000.tan = some ⟨⟨BitVec.ofNat 128 ((262143 - 492) * 2 ^ 108), 0⟩⟩ := by decide +kernel
  rw [e, Option.some_inj] at hz
  subst hz
  have hx0 : (0 : ℝ) < 1 / 2 ^ 1000 := by positivity
  have hx1 : (1 : ℝ) / 2 ^ 1000 ≤ 1 := by norm_num
  have hc : 1 / 2 ≤ Real.cos (1 / 2 ^ 1000) := by
    have := Real.one_sub_sq_div_two_le_cos (x := 1 / 2 ^ 1000)
    have h2 : ((1 : ℝ) / 2 ^ 1000) ^ 2 ≤ 1 := by
      have := mul_le_mul hx1 hx1 hx0.le (by norm_num)
      rw [sq]; linarith
    linarith
  have hs := Real.sin_le (x := 1 / 2 ^ 1000) hx0.le
  have hs0 : 0 ≤ Real.sin (1 / 2 ^ 1000) := Real.sin_nonneg_of_nonneg_of_le_pi hx0.le (by linarith [Real.pi_gt_three])
  have ht : |Real.tan (1 / 2 ^ 1000)| ≤ 2 / 2 ^ 1000 := by
    rw [Real.tan_eq_sin_div_cos, abs_div, abs_of_nonneg hs0, abs_of_pos (by linarith), div_le_iff₀ (by linarith)]
    have : (2 : ℝ) / 2 ^ 1000 * (1 / 2) ≤ 2 / 2 ^ 1000 * Real.cos (1 / 2 ^ 1000) :=
      mul_le_mul_of_nonneg_left hc (by positivity)
    refine hs.trans (le_trans (le_of_eq ?_) this)
    ring
  rw [val_twoPowNeg1000] at hb
  rw [val, show signBit (F256.mk ⟨BitVec.ofNat 128 ((262143 - 492) * 2 ^ 108), 0⟩).pat = 0 by decide,
    show significandOf (F256.mk ⟨BitVec.ofNat 128 ((262143 - 492) * 2 ^ 108), 0⟩).pat = 2 ^ 236 by decide,
    show quantumExp (F256.mk ⟨BitVec.ofNat 128 ((262143 - 492) * 2 ^ 108), 0⟩).pat = -728 by decide] at hb
  generalize Real.tan (1 / 2 ^ 1000) = T at *
  have h1 := (le_abs_self _).trans hb
  have h2 : (2 : ℝ) ^ 500 / 2 ^ 236 * |T| ≤ 2 ^ 500 / 2 ^ 236 * (2 / 2 ^ 1000) :=
    mul_le_mul_of_nonneg_left ht (by positivity)
  have h3 := (le_abs_self T).trans ht
  have h4 : (2 : ℝ) ^ 500 / 2 ^ 236 * (2 / 2 ^ 1000) + 2 / 2 ^ 1000 < (-1) ^ 0 * (2 ^ 236 : ℕ) * 2 ^ (-728 : ℤ) := by norm_num
  have h5 := h1.trans h2
  clear * - h5 h3 h4
  generalize (2 : ℝ) ^ 500 / 2 ^ 236 * (2 / 2 ^ 1000) = A at *
  generalize (2 : ℝ) / 2 ^ 1000 = B at *
  generalize (-1 : ℝ) ^ 0 * (2 ^ 236 : ℕ) * 2 ^ (-728 : ℤ) = C at *
  linarith

end Verif.Props
