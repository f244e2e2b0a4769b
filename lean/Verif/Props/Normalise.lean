import Verif.Props.SqrtSquare
import Verif.Props.TrigRange

/-!
# C80: the quotient of a coordinate by the length of its vector
-/

namespace Verif.Props

open Verif Spec

theorem square_nonneg (x : F256) (hx : IsFin x.pat) : 0 ≤ val (F256.mul x x).pat := by
  have hs : signBit (F256.mul x x).pat = xorSign x.pat x.pat := by
    by_cases h : |val x.pat * val x.pat| < (2 : ℝ) ^ (-262142 : ℤ)
    · exact (C04_error x x hx hx h).2.1
    · exact (C04_mul_partial x x hx hx (Or.inl (not_lt.mp h))).2
  have hz : xorSign x.pat x.pat = 0 := by unfold xorSign; omega
  rw [hz] at hs
  rw [val, hs, pow_zero, one_mul]
  positivity

/-- C80: if nothing overflows and the square of `x` is a normal number, the length `(x * x + y * y).sqrt()` is at least `|x|`, and
`x / length` is a number from -1 to 1, in spite of four roundings. -/
theorem C80_unit (x y s : F256) (hx : IsFin x.pat) (hy : IsFin y.pat) (hn : (2 : ℝ) ^ (-262142 : ℤ) ≤ val x.pat * val x.pat)
    (hx2 : IsFin (F256.mul x x).pat) (hy2 : IsFin (F256.mul y y).pat) (hs : F256.add (F256.mul x x) (F256.mul y y) = some s)
    (fs : IsFin s.pat) : ∃ l q, F256.sqrt s = some l ∧ IsFin l.pat ∧ |val x.pat| ≤ val l.pat ∧
      F256.div x l = some q ∧ IsFin q.pat ∧ |val q.pat| ≤ 1 := by
  have h71 := C71_sqrt_square x hx hn hx2
  have hp0 := square_nonneg x hx
  have hq0 := square_nonneg y hy
  have hx0 : val x.pat ≠ 0 := by
    intro h
    rw [h, mul_zero] at hn
    exact absurd hn (not_le.mpr (zpow_pos (by norm_num) _))
  have hav := C18_abs_val x
  obtain ⟨s', h1, rs⟩ := C01_add _ _ hx2 hy2
  rw [hs, Option.some.injEq] at h1
  subst h1
  have hp1 : 0 < val (F256.mul x x).pat := by
    refine lt_of_le_of_ne hp0 fun h => hx0 ?_
    have hz := (val_eq_zero_iff hx2).mp h.symm
    have := (C11_special _).1 hz
    rw [h71, Option.some.injEq] at this
    rw [this, ← h] at hav
    exact abs_eq_zero.mp hav.symm
  generalize F256.mul x x = p at *
  generalize F256.mul y y = r at *
  have hps : val p.pat ≤ val s.pat := by
    have := IsRNE.mono (isRNE_self (pat_lt p) hx2) rs (by linarith)
    rw [extVal_fin hx2, extVal_fin fs] at this
    exact_mod_cast this
  have hs1 : 0 < val s.pat := lt_of_lt_of_le hp1 hps
  obtain ⟨l, hl, rl⟩ := C11_sqrt s fs hs1
  have fl : IsFin l.pat := by
    refine rl.fin ?_
    rw [abs_of_nonneg (Real.sqrt_nonneg _)]
    rcases le_total 1 (val s.pat) with h | h
    · refine lt_of_le_of_lt ?_ (abs_val_lt (pat_lt s) fs)
      rw [abs_of_pos hs1]
      exact Real.sqrt_le_iff.mpr ⟨hs1.le, le_self_pow₀ h (by norm_num)⟩
    · have h1 : Real.sqrt (val s.pat) ≤ 1 := Real.sqrt_le_one.mpr h
      have := Trig.lt_thr (q := Real.sqrt (val s.pat)) (by rw [abs_of_nonneg (Real.sqrt_nonneg _)]; linarith)
      rwa [abs_of_nonneg (Real.sqrt_nonneg _)] at this
  have fa : IsFin x.abs.pat := by
    have h2 := (C18_abs x).2
    unfold IsFin expField at hx ⊢
    omega
  have hxl : |val x.pat| ≤ val l.pat := by
    have := C34_sqrt_mono p s x.abs l hx2 fs hp1 hps h71 hl
    rw [extVal_fin fa, extVal_fin fl, hav] at this
    exact_mod_cast this
  have hl0 : 0 < val l.pat := lt_of_lt_of_le (abs_pos.mpr hx0) hxl
  obtain ⟨q, hq, rq, -⟩ := C06_div x l hx fl fun h => by rw [val_zero h] at hl0; exact lt_irrefl _ hl0
  have hle : |val x.pat / val l.pat| ≤ 1 := by
    rw [abs_div, abs_of_pos hl0, div_le_one hl0]
    exact hxl
  obtain ⟨g1, g2⟩ := abs_le_one rq (hle.trans (le_add_of_nonneg_right (by positivity)))
  exact ⟨l, q, hl, fl, hxl, hq, g1, g2⟩

/-- 2 and 1 -/
example : IsFin F256.TWO.pat ∧ IsFin F256.ONE.pat ∧ (2 : ℝ) ^ (-262142 : ℤ) ≤ val F256.TWO.pat * val F256.TWO.pat ∧
    IsFin (F256.mul F256.TWO F256.TWO).pat ∧ IsFin (F256.mul F256.ONE F256.ONE).pat ∧
    ∃ s, F256.add (F256.mul F256.TWO F256.TWO) (F256.mul F256.ONE F256.ONE) = some s ∧ IsFin s.pat := by
  refine ⟨by decide, by decide, ?_, by decide, by decide, ⟨_, rfl, by decide⟩⟩
  have h : val F256.TWO.pat = 2 := by
    rw [val, show signBit F256.TWO.pat = 0 by decide, show significandOf F256.TWO.pat = 2 ^ 236 by decide,
      show quantumExp F256.TWO.pat = -235 by decide]
    norm_num
  rw [h]
  exact (zpow_le_one_of_nonpos₀ (by norm_num) (by norm_num)).trans (by norm_num)

end Verif.Props
