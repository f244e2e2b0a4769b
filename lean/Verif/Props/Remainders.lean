import Verif.Model.ErrorFree
import Verif.Props.Exactness

/-!
# C89: the crate's functions for sums and products with their remainders
-/

namespace Verif.Props

open Verif Spec

/-- C89: `fast_sum` returns the rounded sum and its exact remainder, if `|b| ≤ |a|` and the sum does not overflow. -/
theorem C89_fast_sum (a b : F256) (ha : IsFin a.pat) (hb : IsFin b.pat) (h : |val b.pat| ≤ |val a.pat|)
    (hf : |val a.pat + val b.pat| < overflowThreshold) :
    ∃ s r, F256.fastSum a b = some (s, r) ∧ IsRNE (val a.pat + val b.pat) s.pat ∧ IsFin r.pat ∧
      val s.pat + val r.pat = val a.pat + val b.pat := by
  obtain ⟨s, hs, k⟩ := C69_fast_two_sum a b ha hb h
  obtain ⟨s', hs', rs⟩ := C01_add a b ha hb
  rw [hs, Option.some.injEq] at hs'
  subst hs'
  obtain ⟨z, t, h1, h2, h3, h4⟩ := k (rs.fin hf)
  refine ⟨s, t, ?_, rs, h3, h4⟩
  simp only [F256.fastSum, hs, h1, h2, Option.bind_eq_bind, Option.bind_some, Option.pure_def]

/-- C89: `fast_mul` returns the rounded product and its exact remainder for normal factors, if the product neither overflows nor is below
`2^-261668`. -/
theorem C89_fast_mul (a b : F256) (ha : IsNormal a.pat) (hb : IsNormal b.pat)
    (hv : (2 : ℝ) ^ (-261668 : ℤ) ≤ |val a.pat * val b.pat|) (hf : |val a.pat * val b.pat| < overflowThreshold) :
    ∃ p r, F256.fastMul a b = some (p, r) ∧ IsRNE (val a.pat * val b.pat) p.pat ∧ IsFin r.pat ∧
      val p.pat + val r.pat = val a.pat * val b.pat := by
  obtain ⟨rp, -⟩ := C04_mul_partial a b ha.2 hb.2 (Or.inl (le_trans (zpow_le_zpow_right₀ (by norm_num) (by norm_num)) hv))
  obtain ⟨e, h1, h2, h3⟩ := C70_two_product a b ha hb hv (rp.fin hf)
  refine ⟨F256.mul a b, e, ?_, rp, h2, h3⟩
  simp only [F256.fastMul, h1, Option.bind_eq_bind, Option.bind_some, Option.pure_def]

/-- C89: what `sum` does for sums that are exact: the remainder, which should be 0, is `-a`. -/
theorem C89_sum_exact (a b s : F256) (ha : IsFin a.pat) (hb : IsFin b.pat) (hs : IsFin s.pat) (h : val a.pat + val b.pat = val s.pat) :
    ∃ s' r, F256.sum a b = some (s', r) ∧ IsFin s'.pat ∧ val s'.pat = val s.pat ∧ IsFin r.pat ∧ val r.pat = - val a.pat := by
  have fn : IsFin a.negated.pat := (isFin_negated a).mpr ha
  have vn := C18_neg_val a
  have z0 : val F256.ZERO.pat = 0 := val_zero (by decide)
  obtain ⟨s1, h1, f1, e1⟩ := (C74_add a b s ha hb hs).1 h
  obtain ⟨d, h2, f2, e2⟩ := (C74_add s1 b a f1 hb ha).2 (by linarith)
  obtain ⟨ta, h3, f3, e3⟩ := (C74_add a d F256.ZERO ha f2 (by decide)).2 (by linarith)
  obtain ⟨d2, h4, f4, e4⟩ := (C74_add s1 ta s f1 f3 hs).2 (by linarith)
  obtain ⟨tb, h5, f5, e5⟩ := (C74_add b d2 a.negated hb f4 fn).2 (by linarith)
  obtain ⟨r, h6, f6, e6⟩ := (C74_add ta tb a.negated f3 f5 fn).1 (by linarith)
  refine ⟨s1, r, ?_, f1, e1, f6, by linarith⟩
  simp only [F256.sum, h1, h2, h3, h4, h5, h6, Option.bind_eq_bind, Option.bind_some, Option.pure_def]

/-- C89 is false for `sum`: the remainder of `1 + 1 = 2` is returned as -1. -/
theorem C89_counterexample : F256.sum F256.ONE F256.ONE = some (F256.TWO, F256.NEG_ONE) ∧ val F256.NEG_ONE.pat ≠ 0 := by
  refine ⟨by decide +kernel, fun h => ?_⟩
  exact absurd ((val_eq_zero_iff (by decide)).mp h) (by decide)

/-- C89 (partial): `sum` never panics, and its first result is the rounded sum. The claim about the remainder does not hold for `sum`. -/
theorem C89_sum_partial (a b : F256) : ∃ s r, F256.sum a b = some (s, r) ∧ F256.add a b = some s := by
  have A := fun x y => Option.isSome_iff_exists.mp (C01_total x y).1
  have S := fun x y => Option.isSome_iff_exists.mp (C01_total x y).2
  obtain ⟨s, h1⟩ := A a b
  obtain ⟨d, h2⟩ := S s b
  obtain ⟨ta, h3⟩ := S a d
  obtain ⟨d2, h4⟩ := S s ta
  obtain ⟨tb, h5⟩ := S b d2
  obtain ⟨r, h6⟩ := A ta tb
  refine ⟨s, r, ?_, h1⟩
  simp only [F256.sum, h1, h2, h3, h4, h5, h6, Option.bind_eq_bind, Option.bind_some, Option.pure_def]

/-- `1 + 2^-300`: the sum is rounded, and `fast_sum` returns the remainder. -/
example : F256.fastSum F256.ONE tiny300 = some (F256.ONE, tiny300) := by decide +kernel

/-- The square of `1 + 2^-200`: the product is rounded, and `fast_mul` returns the remainder. -/
example : F256.fastMul onePlus200 onePlus200 = some (onePlus199, tiny400) ∧ IsNormal onePlus200.pat ∧
    (2 : ℝ) ^ (-261668 : ℤ) ≤ |val onePlus200.pat * val onePlus200.pat| :=
  ⟨by decide +kernel, by decide, onePlus200_sq⟩

end Verif.Props
