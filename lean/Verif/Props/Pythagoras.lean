import Verif.Props.TrigRange

/-!
# C52, C82: the absolute error of the sine for all arguments, and the sum of the squares of sine and cosine
-/

set_option exponentiation.threshold 2000

namespace Verif.Props

open Verif Verif.Spec Verif.Trig FP492

theorem rne_small {X : ℝ} {z : F256} (h : IsRNE X z.pat) {Z : ℤ} (hX : X = Z / 2 ^ 492) (h1 : |X| ≤ 2) :
    |val z.pat - X| ≤ |X| / 2 ^ 237 := by
  by_cases h0 : Z = 0
  · rw [hX, h0, Int.cast_zero, zero_div]
    rw [hX, h0, Int.cast_zero, zero_div, ← val_zero (N := F256.ZERO.pat) (by decide)] at h
    rw [(IsRNE.exact h (pat_lt F256.ZERO) (by decide) rfl).2]
    rw [val_zero (N := F256.ZERO.pat) (by decide), sub_zero, abs_zero, zero_div]
  · refine IsRNE.rel_error h ?_ (lt_thr h1)
    have hz : (1 : ℝ) ≤ |(Z : ℝ)| := by
      have : (1 : ℤ) ≤ |Z| := Int.one_le_abs h0
      exact_mod_cast this
    rw [hX, abs_div, abs_of_pos (by positivity : (0 : ℝ) < 2 ^ 492), div_mul_eq_mul_div, le_div_iff₀ (by positivity), ← pow_add]
    calc (2 : ℝ) ^ (236 + 492) ≤ 2 ^ 262378 := pow_le_pow_right₀ (by norm_num) (by norm_num)
      _ ≤ |(Z : ℝ)| * 2 ^ 262378 := le_mul_of_one_le_left (by positivity) hz

theorem sin_tiny {x : F256} {m : ℕ} {E : ℤ} (hf : IsFin x.pat) (h0 : ¬ IsZero x.pat) (h : Arg x.abs m E) (hE : E < -256) :
    ∃ s, x.sin = some s ∧ IsFin s.pat ∧ |val s.pat - Real.sin (val x.pat)| ≤ 1 / 2 ^ 490 := by
  obtain ⟨h1, h2⟩ := sval_from_small h hE
  have hv0 : 0 ≤ val x.abs.pat := by rw [C18_abs_val]; exact abs_nonneg _
  have hv : val x.abs.pat ≤ 1 / 2 ^ 256 := by
    have hm : (m : ℝ) ≤ 2 ^ 237 := by exact_mod_cast h.m_lt.le
    have he : (2 : ℝ) ^ (E - 236) ≤ 2 ^ (-493 : ℤ) := zpow_le_zpow_right₀ (by norm_num) (by omega)
    rw [h.val_eq]
    calc (m : ℝ) * 2 ^ (E - 236) ≤ 2 ^ 237 * 2 ^ (-493 : ℤ) := mul_le_mul hm he (by positivity) (by positivity)
      _ = 1 / 2 ^ 256 := by norm_num
  have hsin : |Real.sin (val x.abs.pat) - val x.abs.pat| ≤ 1 / 2 ^ 600 := by
    rcases hv0.eq_or_lt with e | e
    · rw [← e, Real.sin_zero, sub_self, abs_zero]; positivity
    · have a1 := Real.sin_le hv0
      have a2 := Real.sin_gt_sub_cube e
      have a3 : val x.abs.pat ^ 3 ≤ (1 / 2 ^ 256) ^ 3 := pow_le_pow_left₀ hv0 hv 3
      have a4 : ((1 : ℝ) / 2 ^ 256) ^ 3 ≤ 1 / 2 ^ 600 := by norm_num
      rw [abs_le]
      have a5 : 0 ≤ val x.abs.pat ^ 3 := by positivity
      constructor <;> linarith
  have hY : |(sval (FP492.fromF256 x.abs) : ℝ) / 2 ^ 492| ≤ 1 / 2 ^ 255 := by
    have := abs_sub_abs_le_abs_sub ((sval (FP492.fromF256 x.abs) : ℝ) / 2 ^ 492) (val x.abs.pat)
    rw [abs_of_nonneg hv0] at this
    have e : (1 : ℝ) / 2 ^ 256 + 2 / 2 ^ 492 ≤ 1 / 2 ^ 255 := by norm_num
    linarith
  have hn : (sval (FP492.fromF256 x.abs)).natAbs ≤ 2 ^ 237 := by
    rw [abs_div, abs_of_pos (by positivity : (0 : ℝ) < 2 ^ 492), div_le_iff₀ (by positivity)] at hY
    have e : (1 : ℝ) / 2 ^ 255 * 2 ^ 492 = 2 ^ 237 := by norm_num
    rw [e] at hY
    have : ((sval (FP492.fromF256 x.abs)).natAbs : ℝ) ≤ 2 ^ 237 := by rw [Nat.cast_natAbs, Int.cast_abs]; exact hY
    exact_mod_cast this
  have ha : approxSin (FP492.fromF256 x.abs) = FP492.fromF256 x.abs := by
    rw [approxSin, if_pos]
    rw [le_iff, sval_iabs (hn.trans (by norm_num)), sin_cut.1, Int.abs_eq_natAbs]
    have : (2 : ℕ) ^ 237 ≤ UInt.nat SIN_SMALL_CUT_OFF := le_trans (by norm_num) sin_cut.2.1.le
    exact_mod_cast hn.trans this
  have hr := toF256_spec (FP492.fromF256 x.abs)
  have hf2 : IsFin (toF256 (FP492.fromF256 x.abs)).pat := hr.fin (lt_thr (h2.trans (by norm_num)))
  have he := rne_small hr rfl (h2.trans (by norm_num))
  have key : |val (toF256 (FP492.fromF256 x.abs)).pat - Real.sin (val x.abs.pat)| ≤ 1 / 2 ^ 490 := by
    generalize (sval (FP492.fromF256 x.abs) : ℝ) / 2 ^ 492 = X at *
    generalize val (toF256 (FP492.fromF256 x.abs)).pat = r at *
    generalize Real.sin (val x.abs.pat) = S at *
    generalize val x.abs.pat = v at *
    have e1 : |X| / 2 ^ 237 ≤ 1 / 2 ^ 492 := by
      rw [div_le_iff₀ (by positivity)]
      exact hY.trans (by norm_num)
    have e2 : (1 : ℝ) / 2 ^ 492 + 2 / 2 ^ 492 + 1 / 2 ^ 600 ≤ 1 / 2 ^ 490 := by norm_num
    rw [abs_le] at *
    constructor <;> linarith [he.1, he.2, h1.1, h1.2, hsin.1, hsin.2]
  have hs : x.sign = 0 ∧ val x.pat = val x.abs.pat ∨ x.sign = 1 ∧ val x.pat = -val x.abs.pat := by
    rw [(C18_sign_predicates x).2.2]
    have hi := val_ite x.pat
    rw [C18_abs_val]
    rcases signBit_cases x.pat with e | e
    · rw [e] at hi ⊢
      exact Or.inl ⟨rfl, by simpa using hi⟩
    · rw [e] at hi ⊢
      exact Or.inr ⟨rfl, by simpa using hi⟩
  rw [F256.sin, if_neg (not_special hf h0), reduce, h.exponent_eq, if_pos (by omega)]
  rcases hs with ⟨g, gv⟩ | ⟨g, gv⟩ <;> rw [g, gv]
  · exact ⟨_, rfl, by rw [ha]; exact hf2, by rw [ha]; exact key⟩
  · refine ⟨_, rfl, by rw [ha]; exact (isFin_negated _).mpr hf2, ?_⟩
    rw [ha, C18_neg_val, Real.sin_neg, ← abs_neg]
    convert key using 2
    ring

/-- C52: the sine of every finite number, also of those below `2^-256`, is at most 1.01 units in the last place or `2^-490` off. -/
theorem C52_sin_absolute (x : F256) (hf : IsFin x.pat) : ∃ s, x.sin = some s ∧ IsFin s.pat ∧
    |val s.pat - Real.sin (val x.pat)| ≤ max (1.01 * (2 : ℝ) ^ quantumExp s.pat) (1 / 2 ^ 490) := by
  by_cases h0 : IsZero x.pat
  · refine ⟨F256.ZERO, (C51_zero x h0).1, by decide, ?_⟩
    rw [val_zero h0, Real.sin_zero, val_zero (by decide), sub_zero, abs_zero]
    exact le_max_of_le_right (by positivity)
  obtain ⟨m, E, h⟩ := abs_arg x hf h0
  rcases lt_or_ge E (-256) with g1 | g1
  · obtain ⟨s, s1, s2, s3⟩ := sin_tiny hf h0 h g1
    exact ⟨s, s1, s2, le_max_of_le_right s3⟩
  · obtain ⟨q, Y, r1, r2⟩ := reduce_spec h g1
    obtain ⟨s, c, s1, -, s2, -⟩ := sin_cases hf h0 r1 r2
    exact ⟨s, s1, s2.1, le_max_of_le_left (s2.2.trans (by norm_num))⟩

theorem quantum_le {N : ℕ} (h : |val N| ≤ 1) : (2 : ℝ) ^ quantumExp N ≤ 1 / 2 ^ 236 := by
  have e : (1 : ℝ) / 2 ^ 236 = 2 ^ (-236 : ℤ) := by norm_num
  rw [abs_val'] at h
  rw [e]
  by_cases hE : expField N = 0
  · refine zpow_le_zpow_right₀ (by norm_num) ?_
    rw [quantumExp, if_pos hE]; norm_num
  · have hs : (2 : ℝ) ^ 236 ≤ significandOf N := by
      have : (2 : ℕ) ^ 236 ≤ significandOf N := by rw [significandOf, if_neg hE]; omega
      exact_mod_cast this
    rw [zpow_neg, le_inv_comm₀ (by positivity) (by positivity)]
    rw [le_inv_comm₀ (by positivity) (by positivity)]
    have hp : (0 : ℝ) < 2 ^ quantumExp N := by positivity
    have : (2 : ℝ) ^ 236 * 2 ^ quantumExp N ≤ 1 := (mul_le_mul_of_nonneg_right hs hp.le).trans h
    rw [← one_div, le_div_iff₀ (by positivity), mul_comm]
    exact_mod_cast this

/-- C82: the squares of the computed sine and cosine of any finite number add up to 1, up to `2^-233`. -/
theorem C82_pythagoras (x : F256) (hf : IsFin x.pat) : ∃ s c, x.sin = some s ∧ x.cos = some c ∧ IsFin s.pat ∧ IsFin c.pat ∧
    |val s.pat ^ 2 + val c.pat ^ 2 - 1| ≤ 1 / 2 ^ 233 := by
  obtain ⟨s, c, s1, c1, s2, c2, s3, c3⟩ := C77_range x hf
  obtain ⟨s', t1, -, t2⟩ := C52_sin_absolute x hf
  obtain ⟨c', u1, -, u2⟩ := C52_cos x hf
  rw [s1, Option.some.injEq] at t1
  rw [c1, Option.some.injEq] at u1
  subst t1 u1
  refine ⟨s, c, s1, c1, s2, c2, ?_⟩
  have qs := quantum_le s3
  have qc := quantum_le c3
  have t3 : |val s.pat - Real.sin (val x.pat)| ≤ 1.01 / 2 ^ 236 := by
    refine t2.trans (max_le ?_ (by norm_num))
    calc (1.01 : ℝ) * 2 ^ quantumExp s.pat ≤ 1.01 * (1 / 2 ^ 236) := mul_le_mul_of_nonneg_left qs (by norm_num)
      _ = 1.01 / 2 ^ 236 := by ring
  have u3 : |val c.pat - Real.cos (val x.pat)| ≤ 1.01 / 2 ^ 236 := by
    refine u2.trans ?_
    calc (1.01 : ℝ) * 2 ^ quantumExp c.pat ≤ 1.01 * (1 / 2 ^ 236) := mul_le_mul_of_nonneg_left qc (by norm_num)
      _ = 1.01 / 2 ^ 236 := by ring
  have p := Real.sin_sq_add_cos_sq (val x.pat)
  have ps := Real.abs_sin_le_one (val x.pat)
  have pc := Real.abs_cos_le_one (val x.pat)
  generalize val s.pat = a at *
  generalize val c.pat = b at *
  generalize Real.sin (val x.pat) = A at *
  generalize Real.cos (val x.pat) = B at *
  have key : ∀ {u U : ℝ}, |u| ≤ 1 → |U| ≤ 1 → |u - U| ≤ 1.01 / 2 ^ 236 → |u ^ 2 - U ^ 2| ≤ 2.02 / 2 ^ 236 := by
    intro u U h1 h2 h3
    rw [show u ^ 2 - U ^ 2 = (u - U) * (u + U) by ring, abs_mul]
    calc |u - U| * |u + U| ≤ 1.01 / 2 ^ 236 * 2 :=
          mul_le_mul h3 ((abs_add_le _ _).trans (by linarith)) (abs_nonneg _) (by positivity)
      _ = 2.02 / 2 ^ 236 := by ring
  have k1 := key s3 ps t3
  have k2 := key c3 pc u3
  have e : (2.02 : ℝ) / 2 ^ 236 + 2.02 / 2 ^ 236 ≤ 1 / 2 ^ 233 := by norm_num
  rw [abs_le] at *
  constructor <;> linarith [k1.1, k1.2, k2.1, k2.2]

/-- A subnormal number and 1 -/
example : IsFin (⟨U256.new 0#128 1#128⟩ : F256).pat ∧ IsFin F256.ONE.pat := by decide +kernel

end Verif.Props
