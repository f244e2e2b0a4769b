import Verif.Props.ErrorFree
import Verif.Props.Trig

/-!
# C77: sine and cosine do not leave the interval from -1 to 1
-/

set_option exponentiation.threshold 2000

namespace Verif.Props

open Verif Verif.Spec Verif.Trig FP492

/-- There is no number between 1 and `1 + 2^-236`. -/
theorem one_gap {N : ℕ} (hf : IsFin N) (h : 1 < val N) : 1 + 1 / 2 ^ 236 ≤ val N := by
  have hK : (0 : ℝ) < 2 ^ 262378 := by positivity
  obtain ⟨t, M, hc⟩ := can_of_fin hf
  rw [val_smag] at h ⊢
  rw [lt_div_iff₀ hK, one_mul] at h
  have h1 : (2 : ℤ) ^ 262378 < smag N := by exact_mod_cast h
  have ht : 262142 ≤ t := by
    by_contra hcon
    have h2 := lt_of_lt_of_le h1 (le_trans (le_abs_self _) (le_trans hc.lt (sub_le_self _ (by positivity))))
    have h3 : (2 : ℤ) ^ 237 * 2 ^ t ≤ 2 ^ 262378 := by
      rw [← pow_add]
      exact pow_le_pow_right₀ (by norm_num) (by omega)
    exact absurd h2 (not_lt.mpr h3)
  have e : (2 : ℤ) ^ 262378 = 2 ^ 236 * 2 ^ 262142 := by rw [← pow_add]
  have h2 : (2 : ℤ) ^ 262142 ≤ smag N - 2 ^ 262378 := by
    refine Int.le_of_dvd (sub_pos.mpr h1) (dvd_sub (hc.dvd ht) ?_)
    rw [e]
    exact Dvd.intro_left _ rfl
  rw [le_div_iff₀ hK]
  have e' : (2 : ℝ) ^ 262378 = 2 ^ 236 * 2 ^ 262142 := by rw [← pow_add]
  have h3 : (2 : ℝ) ^ 262142 ≤ smag N - 2 ^ 262378 := by exact_mod_cast h2
  have e2 : (1 + 1 / 2 ^ 236) * (2 : ℝ) ^ 262378 = 2 ^ 262378 + 2 ^ 262142 := by
    rw [e']
    generalize (2 : ℝ) ^ 262142 = T
    field_simp
  rw [e2]
  generalize (2 : ℝ) ^ 262142 = T at *
  generalize (2 : ℝ) ^ 262378 = K at *
  linarith

/-- What is at most a quarter of a unit above 1 is rounded to at most 1. -/
theorem rne_le_one {X : ℝ} {N : ℕ} (h : IsRNE X N) (hf : IsFin N) (hX : X ≤ 1 + 1 / 2 ^ 238) (h0 : |X| < overflowThreshold) : val N ≤ 1 := by
  by_contra hc
  push Not at hc
  have h1 := one_gap hf hc
  have h2 := h.nearest h0 F256.ONE.pat (pat_lt _) (by decide)
  rw [val_ONE] at h2
  have q1 : (1 : ℝ) / 2 ^ 236 = 4 * (1 / 2 ^ 238) := by norm_num
  have q2 : (0 : ℝ) < 1 / 2 ^ 238 := by positivity
  generalize (1 : ℝ) / 2 ^ 238 = d at *
  rw [abs_of_nonneg (by linarith)] at h2
  rcases abs_cases (1 - X) with ⟨h3, h4⟩ | ⟨h3, h4⟩ <;> linarith

theorem abs_le_one {z : F256} {X : ℝ} (h : IsRNE X z.pat) (hX : |X| ≤ 1 + 1 / 2 ^ 238) : IsFin z.pat ∧ |val z.pat| ≤ 1 := by
  have h0 : |X| < overflowThreshold := lt_thr (hX.trans (by norm_num))
  have hf := h.fin h0
  refine ⟨hf, abs_le.mpr ⟨?_, rne_le_one h hf (le_trans (le_abs_self _) hX) h0⟩⟩
  have := rne_le_one (isRNE_neg h) ((isFin_negated z).mpr hf) (le_trans (neg_le_abs X) hX) (by rwa [abs_neg])
  rw [C18_neg_val] at this
  linarith

theorem approx_range {Y : FP492} (h1 : |(sval Y : ℝ) / 2 ^ 492| ≤ 4 / 5) :
    (IsFin (toF256 (approxSin Y)).pat ∧ |val (toF256 (approxSin Y)).pat| ≤ 1) ∧
    IsFin (toF256 (approxCos Y)).pat ∧ |val (toF256 (approxCos Y)).pat| ≤ 1 := by
  constructor
  · refine abs_le_one (toF256_spec _) ?_
    by_cases hb : FP492.le (iabs Y) SIN_SMALL_CUT_OFF = true
    · rw [approxSin, if_pos hb]
      refine h1.trans (by norm_num)
    · rw [Bool.not_eq_true] at hb
      have hc : (2 : ℝ) ^ 374 < |(sval Y : ℝ)| := by
        have : ¬ FP492.le (iabs Y) SIN_SMALL_CUT_OFF = true := by rw [hb]; decide
        rw [le_iff, sval_iabs (natAbs_of_le h1), sin_cut.1] at this
        push Not at this
        have h2 : (2 : ℤ) ^ 374 < |sval Y| := lt_trans (by exact_mod_cast sin_cut.2.1) this
        exact_mod_cast h2
      have hl := approxSin_large h1 hc hb
      generalize (sval Y : ℝ) / 2 ^ 492 = X at *
      generalize (sval (approxSin Y) : ℝ) / 2 ^ 492 = S at *
      have q8 := abs_sub_abs_le_abs_sub S (Real.sin X)
      have q9 := Real.abs_sin_le_abs (x := X)
      have q7 : |X| / 2 ^ 270 ≤ 1 / 1000 * |X| := by
        rw [div_eq_mul_inv, mul_comm]
        exact mul_le_mul_of_nonneg_right (by norm_num) (abs_nonneg _)
      have q6 : (0 : ℝ) ≤ 1 / 2 ^ 238 := by positivity
      linarith
  · refine abs_le_one (toF256_spec _) ?_
    have hl := approxCos_spec h1
    have q8 := abs_sub_abs_le_abs_sub ((sval (approxCos Y) : ℝ) / 2 ^ 492) (Real.cos ((sval Y : ℝ) / 2 ^ 492))
    have q9 := Real.abs_cos_le_one ((sval Y : ℝ) / 2 ^ 492)
    linarith

/-- The reduction always yields one of four quadrants and an argument up to 4/5. -/
theorem reduce_range {x : F256} (hf : IsFin x.pat) (h0 : ¬IsZero x.pat) :
    ∃ q Y, reduce x.abs = some (q, Y) ∧ q < 4 ∧ |(sval Y : ℝ) / 2 ^ 492| ≤ 4 / 5 := by
  obtain ⟨m, E, h⟩ := abs_arg x hf h0
  rcases lt_or_ge E (-256) with g1 | g1
  · exact ⟨0, FP492.fromF256 x.abs, by rw [reduce, h.exponent_eq, if_pos (by omega)], by norm_num, (sval_from_small h g1).2⟩
  · obtain ⟨q, Y, r1, k, y, -, hq, hY, -⟩ := reduce_spec h g1
    exact ⟨q, Y, r1, by omega, hY⟩

/-- C77: the sine and the cosine of every finite number are finite numbers from -1 to 1. -/
theorem C77_range (x : F256) (hf : IsFin x.pat) :
    ∃ s c, x.sin = some s ∧ x.cos = some c ∧ IsFin s.pat ∧ IsFin c.pat ∧ |val s.pat| ≤ 1 ∧ |val c.pat| ≤ 1 := by
  by_cases h0 : IsZero x.pat
  · have hz := C51_zero x h0
    refine ⟨F256.ZERO, F256.ONE, hz.1, hz.2.2.1, by decide, by decide, ?_, ?_⟩
    · rw [val_zero (by decide), abs_zero]; norm_num
    · rw [val_ONE, abs_one]
  obtain ⟨q, Y, hr, hq, hY⟩ := reduce_range hf h0
  obtain ⟨⟨s1, s2⟩, c1, c2⟩ := approx_range hY
  have neg : ∀ {r : F256}, IsFin r.pat → |val r.pat| ≤ 1 → IsFin r.negated.pat ∧ |val r.negated.pat| ≤ 1 := fun {r} a b =>
    ⟨(isFin_negated r).mpr a, by rw [C18_neg_val, abs_neg]; exact b⟩
  obtain ⟨n1, n2⟩ := neg s1 s2
  obtain ⟨k1, k2⟩ := neg c1 c2
  have hs : x.sign = 0 ∨ x.sign = 1 := by
    rcases sign_cases x with h | h
    · exact Or.inl h.1
    · exact Or.inr h.1
  rw [F256.sin, F256.cos, if_neg (not_special hf h0), if_neg (not_special hf h0), hr]
  rcases (by omega : q = 0 ∨ q = 1 ∨ q = 2 ∨ q = 3) with rfl | rfl | rfl | rfl <;> rcases hs with hs | hs <;> rw [hs]
  · exact ⟨_, _, rfl, rfl, s1, c1, s2, c2⟩
  · exact ⟨_, _, rfl, rfl, n1, c1, n2, c2⟩
  · exact ⟨_, _, rfl, rfl, c1, n1, c2, n2⟩
  · exact ⟨_, _, rfl, rfl, k1, n1, k2, n2⟩
  · exact ⟨_, _, rfl, rfl, n1, k1, n2, k2⟩
  · exact ⟨_, _, rfl, rfl, s1, k1, s2, k2⟩
  · exact ⟨_, _, rfl, rfl, k1, s1, k2, s2⟩
  · exact ⟨_, _, rfl, rfl, c1, s1, c2, s2⟩

/-- The bound is reached: the cosine of the smallest positive number is 1. -/
example : IsFin (⟨U256.new 0#128 1#128⟩ : F256).pat ∧ F256.cos ⟨U256.new 0#128 1#128⟩ = some F256.ONE := by decide +kernel

end Verif.Props
