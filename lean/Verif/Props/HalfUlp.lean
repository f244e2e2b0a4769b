import Verif.Props.DotNorm
import Verif.Props.Scale
import Verif.Proofs.UlpErr

/-!
# C91: the error of an operation is at most half of `ulp()` of its result
-/

set_option exponentiation.threshold 2000

namespace Verif.Props

open Verif Spec

theorem half_ulp {q : ℝ} {z : F256} (h : IsRNE q z.pat) (hz : IsFin z.pat) :
    |val z.pat - q| ≤ val (F256.ulp z).pat / 2 := by
  have ht : |q| < overflowThreshold := by
    by_contra hc
    exact hz (h.inf (not_lt.mp hc)).1
  obtain ⟨-, e, hp⟩ := C27_ulp z hz
  by_cases h0 : q = 0
  · have hn := h.nearest ht F256.ZERO.pat (pat_lt _) (by decide)
    rw [h0, val_zero (by decide : IsZero F256.ZERO.pat), sub_zero, sub_zero, abs_zero] at hn
    rw [h0, sub_zero]
    exact hn.trans (half_pos hp).le
  · obtain ⟨t, t1, t2, -⟩ := h.ulp_spec h0 ht
    rw [e]
    have := zpow_le_zpow_right₀ (by norm_num : (1 : ℝ) ≤ 2) t1
    linarith

/-- C91: a finite sum differs from the exact sum by at most half of its `ulp()`. -/
theorem C91_add (x y z : F256) (hx : IsFin x.pat) (hy : IsFin y.pat) (h : F256.add x y = some z) (hz : IsFin z.pat) :
    |val z.pat - (val x.pat + val y.pat)| ≤ val (F256.ulp z).pat / 2 := by
  obtain ⟨z', h1, h2⟩ := C01_add x y hx hy
  have e : z = z' := Option.some.inj (h.symm.trans h1)
  subst e
  exact half_ulp h2 hz

/-- C91: a finite difference differs from the exact one by at most half of its `ulp()`. -/
theorem C91_sub (x y z : F256) (hx : IsFin x.pat) (hy : IsFin y.pat) (h : F256.sub x y = some z) (hz : IsFin z.pat) :
    |val z.pat - (val x.pat - val y.pat)| ≤ val (F256.ulp z).pat / 2 := by
  obtain ⟨z', h1, h2⟩ := C02_sub x y hx hy
  have e : z = z' := Option.some.inj (h.symm.trans h1)
  subst e
  exact half_ulp h2 hz

/-- C91: a finite quotient differs from the exact one by at most half of its `ulp()`. -/
theorem C91_div (x y z : F256) (hx : IsFin x.pat) (hy : IsFin y.pat) (hy0 : ¬IsZero y.pat) (h : F256.div x y = some z)
    (hz : IsFin z.pat) : |val z.pat - val x.pat / val y.pat| ≤ val (F256.ulp z).pat / 2 := by
  obtain ⟨z', h1, h2, -⟩ := C06_div x y hx hy hy0
  have e : z = z' := Option.some.inj (h.symm.trans h1)
  subst e
  exact half_ulp h2 hz

/-- C91: the square root differs from the exact one by at most half of its `ulp()`. -/
theorem C91_sqrt (x : F256) (hx : IsFin x.pat) (h0 : 0 ≤ val x.pat) :
    ∃ z, F256.sqrt x = some z ∧ IsFin z.pat ∧ |val z.pat - Real.sqrt (val x.pat)| ≤ val (F256.ulp z).pat / 2 := by
  obtain ⟨z, h1, h2, -⟩ := sqrt_rel hx h0
  refine ⟨z, h1, h2, ?_⟩
  rcases h0.eq_or_lt with e | hp
  · have hzx : IsZero x.pat := (val_eq_zero_iff hx).mp e.symm
    have e2 : z = x := Option.some.inj (h1.symm.trans ((C11_special x).1 hzx))
    subst e2
    rw [← e, Real.sqrt_zero, sub_zero, abs_zero]
    exact (half_pos (C27_ulp z h2).2.2).le
  · obtain ⟨z', h3, h4⟩ := C11_sqrt x hx hp
    have e2 : z = z' := Option.some.inj (h1.symm.trans h3)
    subst e2
    exact half_ulp h4 h2

theorem le_ulp {z : F256} (hz : IsFin z.pat) : 1 / 2 ^ 262378 ≤ val (F256.ulp z).pat := by
  rw [(C27_ulp z hz).2.1, quantumExp_eq, zpow_units]
  gcongr
  exact_mod_cast Nat.one_le_two_pow

/-- C91: a finite product not below the smallest normal number differs from the exact one by at most half of its `ulp()`, and every finite
product by at most five eighths of it. -/
theorem C91_mul (x y : F256) (hx : IsFin x.pat) (hy : IsFin y.pat) (hz : IsFin (F256.mul x y).pat) :
    ((2 : ℝ) ^ (-262142 : ℤ) ≤ |val x.pat * val y.pat| →
      |val (F256.mul x y).pat - val x.pat * val y.pat| ≤ val (F256.ulp (F256.mul x y)).pat / 2) ∧
    |val (F256.mul x y).pat - val x.pat * val y.pat| ≤ val (F256.ulp (F256.mul x y)).pat * (5 / 8) := by
  have h1 : (2 : ℝ) ^ (-262142 : ℤ) ≤ |val x.pat * val y.pat| →
      |val (F256.mul x y).pat - val x.pat * val y.pat| ≤ val (F256.ulp (F256.mul x y)).pat / 2 :=
    fun h => half_ulp (C04_mul_partial x y hx hy (Or.inl h)).1 hz
  have hp := (C27_ulp _ hz).2.2
  refine ⟨h1, ?_⟩
  rcases le_or_gt ((2 : ℝ) ^ (-262142 : ℤ)) |val x.pat * val y.pat| with h | h
  · exact (h1 h).trans (by linarith)
  · refine (C04_error x y hx hy h).2.2.trans ?_
    rw [div_eq_mul_one_div, mul_comm]
    exact mul_le_mul_of_nonneg_right (le_ulp hz) (by norm_num)

/-- The number 3 -/
def three : F256 := ⟨U256.new 0x40000800000000000000000000000000#128 0#128⟩

/-- The numbers 1 and 3 have a finite quotient that is not exact: its `ulp()` is 2⁻²³⁸; further numbers meet the conditions for roots and
products. -/
example : IsFin F256.ONE.pat ∧ IsFin three.pat ∧ ¬IsZero three.pat ∧
    (F256.div F256.ONE three).any (fun z => decide (IsFin z.pat ∧ quantumExp z.pat = -238)) = true ∧
    (F256.sqrt F256.TWO).any (fun z => decide (IsFin z.pat ∧ quantumExp z.pat = -236)) = true ∧
    IsFin (F256.mul three three).pat := by decide +kernel

end Verif.Props
