import Verif.Props.HalfUlp
import Verif.Props.Absorb
import Verif.Props.Exactness

/-!
# C95: `z - z.ulp()` and `z + z.ulp()` enclose the exact result
-/

set_option exponentiation.threshold 2000

namespace Verif.Props

open Verif Spec

/-- One unit in the last place up or down from a finite number there is another number, unless the overflow threshold is passed. -/
theorem exists_step {z : F256} (hz : IsFin z.pat) {c : ℤ} (hc : |c| = 1)
    (h : |val z.pat + c * val (F256.ulp z).pat| < overflowThreshold) :
    ∃ w : F256, IsFin w.pat ∧ val w.pat = val z.pat + c * val (F256.ulp z).pat := by
  have hK : (0 : ℝ) < 2 ^ 262378 := pow_pos (by norm_num) _
  obtain ⟨t, M, c1, c2, c3, c4, c5, -⟩ := fin_asm hz
  have he : expField z.pat - 1 = t := by
    have : expField z.pat = z.pat % 2 ^ 255 / 2 ^ 236 := by rw [expField]; omega
    omega
  obtain ⟨s, hs, hm⟩ : ∃ s : ℤ, |s| = M ∧ smag z.pat = s * 2 ^ t := by
    unfold smag
    rw [c5, Nat.cast_mul, Nat.cast_pow, Nat.cast_ofNat]
    split
    · exact ⟨M, abs_of_nonneg (Int.natCast_nonneg _), rfl⟩
    · exact ⟨-M, by rw [abs_neg, abs_of_nonneg (Int.natCast_nonneg _)], by rw [neg_mul]⟩
  have hu : val (F256.ulp z).pat = 2 ^ t / 2 ^ 262378 := by
    rw [(C27_ulp z hz).2.1, quantumExp_eq, zpow_units, he]
  have e : val z.pat + c * val (F256.ulp z).pat = (((s + c) * 2 ^ t : ℤ) : ℝ) / 2 ^ 262378 := by
    rw [hu, val_smag, hm, Int.cast_mul, Int.cast_mul, Int.cast_add, Int.cast_pow, Int.cast_ofNat, ← mul_div_assoc, ← add_div, add_mul]
  rw [e] at h ⊢
  have hp : (0 : ℤ) < 2 ^ t := pow_pos (by norm_num) _
  have hr : Rep ((s + c) * 2 ^ t) := by
    refine rep_of c4 (Dvd.intro_left _ rfl) ?_ ?_
    · rw [abs_mul, abs_of_pos hp]
      refine mul_le_mul_of_nonneg_right ?_ hp.le
      have := abs_add_le s c
      omega
    · rw [abs_div, abs_of_pos hK, div_lt_iff₀ hK, threshold_units, mul_assoc, ← pow_add, ← Int.cast_abs] at h
      have h2 : ((2 : ℝ) ^ 238 - 1) / 2 * 2 ^ (261907 + 262378) ≤ 2 ^ 237 * 2 ^ (261907 + 262378) :=
        mul_le_mul_of_nonneg_right (by norm_num) (pow_nonneg (by norm_num) _)
      have h3 := h.trans_le h2
      have h4 : ((2 : ℝ) ^ 237 * 2 ^ (261907 + 262378)) = ((2 ^ 237 * 2 ^ 524285 : ℤ) : ℝ) := by
        rw [Int.cast_mul, Int.cast_pow, Int.cast_pow, Int.cast_ofNat]
      rw [h4] at h3
      exact Int.cast_lt.mp h3
  obtain ⟨N, n1, n2, n3⟩ := pat_of_rep hr
  obtain ⟨w, rfl⟩ := exists_pat n1
  exact ⟨w, n2, n3⟩

theorem step_up {z hi : F256} (hz : IsFin z.pat) (h : IsRNE (val z.pat + val (F256.ulp z).pat) hi.pat) :
    ¬IsNaN hi.pat ∧ ((val z.pat + val (F256.ulp z).pat : ℝ) : EReal) ≤ extVal hi.pat := by
  have hp := (C27_ulp z hz).2.2
  rcases lt_or_ge |val z.pat + val (F256.ulp z).pat| overflowThreshold with ht | ht
  · obtain ⟨w, w1, w2⟩ := exists_step hz (c := 1) (by norm_num) (by rw [Int.cast_one, one_mul]; exact ht)
    rw [Int.cast_one, one_mul] at w2
    obtain ⟨f, v⟩ := _root_.Verif.IsRNE.exact h (pat_lt w) w1 w2
    exact ⟨not_nan_of_fin f, by rw [extVal_fin f, v]⟩
  · have hi' := h.inf ht
    refine ⟨not_nan_of_inf hi', ?_⟩
    rw [extVal_inf_pos hi' (h.pos ?_)]
    · exact le_top
    · by_contra hn
      rw [abs_of_nonpos (not_lt.mp hn)] at ht
      have := (abs_lt.mp (abs_val_lt (pat_lt z) hz)).1
      linarith

theorem step_down {z lo : F256} (hz : IsFin z.pat) (h : IsRNE (val z.pat - val (F256.ulp z).pat) lo.pat) :
    ¬IsNaN lo.pat ∧ extVal lo.pat ≤ ((val z.pat - val (F256.ulp z).pat : ℝ) : EReal) := by
  have hp := (C27_ulp z hz).2.2
  have e : val z.pat + ((-1 : ℤ) : ℝ) * val (F256.ulp z).pat = val z.pat - val (F256.ulp z).pat := by
    rw [Int.cast_neg, Int.cast_one, neg_one_mul, sub_eq_add_neg]
  rcases lt_or_ge |val z.pat - val (F256.ulp z).pat| overflowThreshold with ht | ht
  · obtain ⟨w, w1, w2⟩ := exists_step hz (c := -1) (by norm_num) (by rw [e]; exact ht)
    rw [e] at w2
    obtain ⟨f, v⟩ := _root_.Verif.IsRNE.exact h (pat_lt w) w1 w2
    exact ⟨not_nan_of_fin f, by rw [extVal_fin f, v]⟩
  · have hi' := h.inf ht
    refine ⟨not_nan_of_inf hi', ?_⟩
    rw [extVal_inf_neg hi' (h.neg ?_)]
    · exact bot_le
    · by_contra hn
      rw [abs_of_nonneg (not_lt.mp hn)] at ht
      have := (abs_lt.mp (abs_val_lt (pat_lt z) hz)).2
      linarith

/-- The numbers `z - z.ulp()` and `z + z.ulp()`, as computed, enclose the real number `e`. -/
def Encloses (z : F256) (e : ℝ) : Prop := ∃ lo hi, F256.sub z (F256.ulp z) = some lo ∧ F256.add z (F256.ulp z) = some hi ∧
  ¬IsNaN lo.pat ∧ ¬IsNaN hi.pat ∧ extVal lo.pat ≤ (e : EReal) ∧ (e : EReal) ≤ extVal hi.pat

theorem encloses {z : F256} {e : ℝ} (hz : IsFin z.pat) (h : |val z.pat - e| ≤ val (F256.ulp z).pat) : Encloses z e := by
  have hu := (C27_ulp z hz).1
  obtain ⟨lo, l1, l2⟩ := C02_sub z (F256.ulp z) hz hu
  obtain ⟨hi, h1, h2⟩ := C01_add z (F256.ulp z) hz hu
  obtain ⟨l3, l4⟩ := step_down hz l2
  obtain ⟨h3, h4⟩ := step_up hz h2
  obtain ⟨a, b⟩ := abs_le.mp h
  exact ⟨lo, hi, l1, h1, l3, h3, l4.trans (EReal.coe_le_coe_iff.mpr (by linarith)), (EReal.coe_le_coe_iff.mpr (by linarith)).trans h4⟩

/-- C95: the computed bounds enclose the exact sum and the exact difference. -/
theorem C95_add_sub (x y z : F256) (hx : IsFin x.pat) (hy : IsFin y.pat) (hz : IsFin z.pat) :
    (F256.add x y = some z → Encloses z (val x.pat + val y.pat)) ∧ (F256.sub x y = some z → Encloses z (val x.pat - val y.pat)) := by
  have hp := (C27_ulp z hz).2.2
  exact ⟨fun h => encloses hz ((C91_add x y z hx hy h hz).trans (by linarith)),
    fun h => encloses hz ((C91_sub x y z hx hy h hz).trans (by linarith))⟩

/-- C95: the computed bounds enclose the exact product and the exact quotient. -/
theorem C95_mul_div (x y : F256) (hx : IsFin x.pat) (hy : IsFin y.pat) :
    (IsFin (F256.mul x y).pat → Encloses (F256.mul x y) (val x.pat * val y.pat)) ∧
    ∀ z, ¬IsZero y.pat → F256.div x y = some z → IsFin z.pat → Encloses z (val x.pat / val y.pat) := by
  refine ⟨fun hz => ?_, fun z h0 h hz => ?_⟩
  · have hp := (C27_ulp _ hz).2.2
    exact encloses hz ((C91_mul x y hx hy hz).2.trans (by linarith))
  · have hp := (C27_ulp z hz).2.2
    exact encloses hz ((C91_div x y z hx hy h0 h hz).trans (by linarith))

/-- C95: the computed bounds enclose the exact square root. -/
theorem C95_sqrt (x : F256) (hx : IsFin x.pat) (h0 : 0 ≤ val x.pat) :
    ∃ z, F256.sqrt x = some z ∧ Encloses z (Real.sqrt (val x.pat)) := by
  obtain ⟨z, h1, hz, h3⟩ := C91_sqrt x hx h0
  have hp := (C27_ulp z hz).2.2
  exact ⟨z, h1, encloses hz (h3.trans (by linarith))⟩

/-- The largest finite number: the upper bound is infinite. -/
example : F256.add F256.MAX (F256.ulp F256.MAX) = some F256.INFINITY ∧ IsFin F256.MAX.pat := by decide +kernel

/-- The quotient of 1 and 3 meets the conditions. -/
example : IsFin F256.ONE.pat ∧ IsFin three.pat ∧ ¬IsZero three.pat ∧
    (F256.div F256.ONE three).any (fun z => decide (IsFin z.pat)) = true := by decide +kernel

end Verif.Props
