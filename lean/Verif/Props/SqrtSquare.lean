import Verif.Proofs.RelErr
import Verif.Props.ErrorFree
import Verif.Props.Sqrt

/-!
# C71: the square root of a square
-/

namespace Verif.Props

open Verif Spec

/-- Numbers other than `A` are at least a quantum of `A` away from it, unless `A` is a power of two. -/
theorem can_sep {A V : ℤ} {t M tv Mv : ℕ} (hA : Can A t M) (h0 : 0 < A) (hM : 2 ^ 236 < M ∨ t = 0) (hV : Can V tv Mv) (hne : V ≠ A) :
    2 ^ t ≤ |V - A| := by
  rcases Nat.lt_or_ge tv t with h | h
  · have h1 := hV.lt
    have h2 : (2 : ℤ) ^ tv * 2 ≤ 2 ^ t := by rw [← pow_succ]; exact pow_le_pow_right₀ (by norm_num) (by omega)
    have h3 : ((2 : ℤ) ^ 236 + 1) * 2 ^ t ≤ A := by
      rw [← abs_of_pos h0, hA.abs]
      have : 2 ^ 236 + 1 ≤ M := by omega
      exact mul_le_mul_of_nonneg_right (by exact_mod_cast this) (by positivity)
    have h4 := le_abs_self V
    have h5 : (0 : ℤ) < 2 ^ tv := by positivity
    rw [abs_sub_comm]
    refine le_trans ?_ (le_abs_self _)
    linarith
  · refine Int.le_of_dvd (abs_pos.mpr (sub_ne_zero.mpr hne)) ((dvd_abs _ _).mpr (dvd_sub (hV.dvd h) (hA.dvd le_rfl)))

/-- The square root of a number close to a square -/
theorem sqrt_close {X y : ℝ} (hX : 0 < X) (h : |y - X * X| ≤ X * X / 2 ^ 237) : |Real.sqrt y - X| ≤ X / (2 ^ 238 - 1) := by
  obtain ⟨h1, h2⟩ := abs_le.mp h
  have hXX : 0 < X * X := mul_pos hX hX
  have hy : 0 < y := by
    have : X * X / 2 ^ 237 < X * X := div_lt_self hXX (by norm_num)
    linarith
  have hs := Real.mul_self_sqrt hy.le
  have hs0 : 0 < Real.sqrt y := Real.sqrt_pos.mpr hy
  generalize Real.sqrt y = s at *
  -- lower bound
  have hlow : X * (1 - 1 / 2 ^ 237) ≤ s := by
    by_contra hc
    push Not at hc
    have h3 : s * s < X * (1 - 1 / 2 ^ 237) * X := by
      refine mul_lt_mul'' hc (lt_of_lt_of_le hc ?_) hs0.le hs0.le
      nlinarith [show (0 : ℝ) < 1 / 2 ^ 237 by positivity]
    have : X * (1 - 1 / 2 ^ 237) * X = X * X - X * X / 2 ^ 237 := by ring
    linarith
  have hsum : X * (2 - 1 / 2 ^ 237) ≤ s + X := by linarith
  have hpos : (0 : ℝ) < X * (2 - 1 / 2 ^ 237) := mul_pos hX (by norm_num)
  have hprod : |s - X| * (s + X) ≤ X * X / 2 ^ 237 := by
    rw [← abs_of_pos (lt_of_lt_of_le hpos hsum), ← abs_mul, show (s - X) * (s + X) = s * s - X * X by ring, hs]
    exact h
  have h4 : |s - X| * (X * (2 - 1 / 2 ^ 237)) ≤ X * X / 2 ^ 237 := le_trans (mul_le_mul_of_nonneg_left hsum (abs_nonneg _)) hprod
  rw [le_div_iff₀ (by norm_num)]
  have e1 : |s - X| * (X * (2 - 1 / 2 ^ 237)) = X / 2 ^ 237 * (|s - X| * (2 ^ 238 - 1)) := by
    rw [show (2 : ℝ) ^ 238 - 1 = 2 ^ 237 * (2 - 1 / 2 ^ 237) by norm_num]
    field_simp
  have e2 : X * X / 2 ^ 237 = X / 2 ^ 237 * X := by ring
  rw [e1, e2] at h4
  exact le_of_mul_le_mul_left h4 (by positivity)

/-- C71: `(x * x).sqrt()` is `|x|`, bit for bit, unless the square overflows or is not a normal number. -/
theorem C71_sqrt_square (x : F256) (hx : IsFin x.pat) (hn : (2 : ℝ) ^ (-262142 : ℤ) ≤ val x.pat * val x.pat)
    (hf : IsFin (F256.mul x x).pat) : F256.sqrt (F256.mul x x) = some x.abs := by
  have hK : (0 : ℝ) < 2 ^ 262378 := by positivity
  have hsq : val x.pat * val x.pat = |val x.pat| * |val x.pat| := (abs_mul_abs_self _).symm
  have hp0 : 0 < val x.pat * val x.pat := lt_of_lt_of_le (by positivity) hn
  obtain ⟨rp, -⟩ := C04_mul_partial x x hx hx (Or.inl (by rwa [abs_of_pos hp0]))
  have hav := C18_abs_val x
  have hfa : IsFin x.abs.pat := by
    have h2 := (C18_abs x).2
    unfold IsFin expField at hx ⊢
    omega
  generalize F256.mul x x = y at *
  have hlt : |val x.pat * val x.pat| < overflowThreshold := by
    by_contra hc
    exact hf (rp.inf (not_lt.mp hc)).1
  have hrel := IsRNE.rel_error rp (by
    rw [abs_of_pos hp0]
    have e1 : (2 : ℝ) ^ (-262142 : ℤ) * 2 ^ 262378 = 2 ^ 236 := by
      rw [← zpow_natCast, ← zpow_add₀ (by norm_num)]
      norm_num
    rw [← e1]
    exact mul_le_mul_of_nonneg_right hn hK.le) hlt
  rw [abs_of_pos hp0, hsq] at hrel
  rw [hsq] at rp hlt hp0 hn
  rw [← hav] at hrel rp hlt hp0 hn
  obtain ⟨X, hXe⟩ : ∃ X, X = val x.abs.pat := ⟨_, rfl⟩
  rw [← hXe] at hrel rp hlt hp0 hn
  have hX : 0 < X := by
    refine lt_of_le_of_ne (by rw [hXe, hav]; exact abs_nonneg _) fun h => ?_
    rw [← h, mul_zero] at hp0
    exact lt_irrefl _ hp0
  have hclose := sqrt_close hX hrel
  have hy : 0 < val y.pat := by
    have h1 := (abs_le.mp hrel).1
    have : X * X / 2 ^ 237 < X * X := div_lt_self hp0 (by norm_num)
    linarith
  obtain ⟨z, hz, rz⟩ := C11_sqrt y hf hy
  have hs0 : 0 < Real.sqrt (val y.pat) := Real.sqrt_pos.mpr hy
  have hslt : |Real.sqrt (val y.pat)| < overflowThreshold := by
    rw [abs_of_pos hs0]
    rcases le_or_gt (val y.pat) 1 with h1 | h1
    · have h3 := abs_val_lt (pat_lt F256.ONE) (by decide)
      rw [val_ONE, abs_one] at h3
      exact lt_of_le_of_lt (Real.sqrt_le_one.mpr h1) h3
    · refine lt_of_le_of_lt ?_ (lt_of_le_of_lt (le_abs_self _) (abs_val_lt (pat_lt y) hf))
      rw [Real.sqrt_le_left hy.le]
      nlinarith
  have hfz := rz.fin hslt
  have hnear := rz.nearest hslt x.abs.pat (pat_lt _) hfa
  rw [← hXe] at hnear
  -- the value of the root
  have hval : val z.pat = X := by
    obtain ⟨t, M, ca⟩ := can_of_fin hfa
    obtain ⟨tz, Mz, cz⟩ := can_of_fin hfz
    have hA : (smag x.abs.pat : ℝ) = X * 2 ^ 262378 := by rw [hXe, val_smag, div_mul_cancel₀ _ hK.ne']
    have hA0 : 0 < smag x.abs.pat := by
      have : (0 : ℝ) < smag x.abs.pat := by rw [hA]; exact mul_pos hX hK
      exact_mod_cast this
    by_cases hM : 2 ^ 236 < M ∨ t = 0
    · by_contra hne
      have hsep := can_sep ca hA0 hM cz (fun h => hne (by rw [hXe, val_smag, val_smag, h]))
      have h1 : |val z.pat - X| ≤ 2 * (X / (2 ^ 238 - 1)) := by
        have := abs_add_le (val z.pat - Real.sqrt (val y.pat)) (Real.sqrt (val y.pat) - X)
        rw [sub_add_sub_cancel] at this
        rw [abs_sub_comm X] at hnear
        linarith
      have h2 : X * 2 ^ 262378 ≤ (2 ^ 237 - 1) * 2 ^ t := by
        have := ca.lt
        rw [abs_of_pos hA0] at this
        have h3 : (smag x.abs.pat : ℝ) ≤ 2 ^ 237 * 2 ^ t - 2 ^ t := by exact_mod_cast this
        rw [hA] at h3
        linarith
      have h3 : (2 : ℝ) ^ t ≤ |val z.pat - X| * 2 ^ 262378 := by
        rw [hXe, val_smag, val_smag x.abs.pat, ← sub_div, abs_div, abs_of_pos hK, div_mul_cancel₀ _ hK.ne']
        exact_mod_cast hsep
      have h4 : (2 : ℝ) ^ t ≤ 2 * ((2 ^ 237 - 1) * 2 ^ t / (2 ^ 238 - 1)) := by
        refine h3.trans ((mul_le_mul_of_nonneg_right h1 hK.le).trans ?_)
        rw [mul_assoc, div_mul_eq_mul_div]
        refine mul_le_mul_of_nonneg_left (div_le_div_of_nonneg_right h2 (by norm_num)) (by norm_num)
      have ht : (0 : ℝ) < 2 ^ t := by positivity
      rw [← mul_div_assoc, le_div_iff₀ (by norm_num)] at h4
      have e : (2 : ℝ) ^ t * (2 ^ 238 - 1) - 2 * ((2 ^ 237 - 1) * 2 ^ t) = 2 ^ t := by ring
      exact absurd ht (not_lt.mpr (by rw [← e]; exact sub_nonpos.mpr h4))
    · -- a power of two
      push Not at hM
      have hM2 : M = 2 ^ 236 := le_antisymm hM.1 (ca.norm.resolve_left hM.2)
      have hXp : X * 2 ^ 262378 = 2 ^ (236 + t) := by
        rw [← hA, ← abs_of_pos hA0, ca.abs, hM2, pow_add, Int.cast_mul, Int.cast_natCast, Nat.cast_pow, Nat.cast_ofNat, Int.cast_pow, Int.cast_ofNat]
      have hXX : X * X * 2 ^ 262378 * 2 ^ 262378 = 2 ^ (472 + 2 * t) := by
        rw [show X * X * 2 ^ 262378 * 2 ^ 262378 = X * 2 ^ 262378 * (X * 2 ^ 262378) by ring, hXp, ← pow_add]
        congr 1
        omega
      have hj : 236 + 262378 ≤ 472 + 2 * t := by
        have h1 : (2 : ℝ) ^ (236 + 262378) ≤ 2 ^ (472 + 2 * t) := by
          rw [← hXX, pow_add]
          refine mul_le_mul_of_nonneg_right ?_ hK.le
          have e1 : (2 : ℝ) ^ (-262142 : ℤ) * 2 ^ 262378 = 2 ^ 236 := by
            rw [← zpow_natCast, ← zpow_add₀ (by norm_num)]
            norm_num
          rw [← e1]
          exact mul_le_mul_of_nonneg_right hn hK.le
        exact (pow_le_pow_iff_right₀ (by norm_num : (1 : ℝ) < 2)).mp h1
      obtain ⟨j, hj⟩ : ∃ j, 472 + 2 * t = 236 + j + 262378 := ⟨472 + 2 * t - (236 + 262378), by omega⟩
      have hXZ : X * X * 2 ^ 262378 = 2 ^ (236 + j) := by
        rw [hj, pow_add 2 (236 + j)] at hXX
        exact mul_right_cancel₀ hK.ne' hXX
      have hjl : j ≤ 524285 := by
        rw [abs_of_pos hp0] at hlt
        have h1 := mul_lt_mul_of_pos_right hlt hK
        rw [threshold_eq, hXZ] at h1
        have h2 : (2 : ℝ) ^ (236 + j) < 2 ^ (237 + 524285) := by
          refine lt_of_lt_of_le h1 ?_
          rw [pow_add]
          exact mul_le_mul_of_nonneg_right (sub_le_self _ (by norm_num)) (by positivity)
        have := (pow_lt_pow_iff_right₀ (by norm_num : (1 : ℝ) < 2)).mp h2
        omega
      obtain ⟨P, p1, p2, p3⟩ := pat_of_rep (Z := 2 ^ (236 + j)) ⟨2 ^ 236, j, by norm_num, hjl, by
        rw [abs_of_pos (pow_pos (by norm_num) _), pow_add]; push_cast; rfl⟩
      have hPX : val P = X * X := by
        rw [p3, div_eq_iff hK.ne', hXZ]
        push_cast
        rfl
      rw [(IsRNE.exact rp p1 p2 hPX).2, Real.sqrt_mul_self hX.le, sub_self, abs_zero] at hnear
      exact sub_eq_zero.mp (abs_eq_zero.mp (le_antisymm hnear (abs_nonneg _)))
  have hzero : ¬IsZero x.abs.pat := fun h => by
    rw [hXe, val_zero h] at hX
    exact lt_irrefl _ hX
  rcases eq_of_val (pat_lt z) (pat_lt x.abs) hfz hfa (by rw [hval, hXe]) with h | h
  · rw [hz, pat_inj h]
  · exact absurd h.2 hzero

/-- `1 + 2^-200`, whose square is not representable -/
example : IsFin onePlus200.pat ∧ (2 : ℝ) ^ (-262142 : ℤ) ≤ val onePlus200.pat * val onePlus200.pat ∧
    F256.mul onePlus200 onePlus200 = onePlus199 ∧ IsFin onePlus199.pat ∧ F256.sqrt onePlus199 = some onePlus200 := by
  refine ⟨by decide, ?_, by decide +kernel, by decide, by decide +kernel⟩
  rw [← abs_mul_abs_self, ← abs_mul]
  exact le_trans (zpow_le_zpow_right₀ (by norm_num) (by norm_num)) onePlus200_sq

end Verif.Props
