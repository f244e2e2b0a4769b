import Verif.Proofs.TrigLarge
import Verif.Proofs.TrigFmaRed
import Verif.Props.TrigSymmetry

/-!
# From the reduction of the argument to the circular functions
-/

set_option exponentiation.threshold 2000

namespace Verif.Trig

open FP492 Spec Props

theorem reduce_spec {x : F256} {m : ℕ} {E : ℤ} (h : Arg x m E) (h1 : -256 ≤ E) :
    ∃ q Y, reduce x = some (q, Y) ∧ Reduced (val x.pat) q Y := by
  rw [reduce, h.exponent_eq]
  by_cases hc : E ≤ -2
  · rw [if_pos hc]
    refine ⟨0, _, rfl, reduced_direct h (by omega) h1 ?_⟩
    have := (h.range (by omega)).2
    have e : (2 : ℝ) ^ E ≤ 2 ^ (-2 : ℤ) := zpow_le_zpow_right₀ (by norm_num) (by omega)
    have e2 : (2 : ℝ) * 2 ^ (-2 : ℤ) ≤ 4 / 5 := by norm_num
    exact this.le.trans ((mul_le_mul_of_nonneg_left e (by norm_num)).trans e2)
  · rw [if_neg hc]
    rcases (by omega : E ≤ 2 ∨ (3 ≤ E ∧ E ≤ 240) ∨ 241 ≤ E) with h2 | ⟨h2, h3⟩ | h2
    · obtain rfl | rfl | rfl | rfl : E = -1 ∨ E = 0 ∨ E = 1 ∨ E = 2 := by omega
      · exact fpReduce_m1 h
      · exact fpReduce_0 h
      · exact fpReduce_1 h
      · exact fpReduce_2 h
    · have e : fpReduce E x = fmaReduce x := by
        rw [fpReduce, if_neg (by omega), if_neg (by omega), if_neg (by omega), if_neg (by omega), if_pos h3]
      rw [e]
      exact fmaReduce_spec h h2 h3
    · obtain ⟨n, rfl⟩ := Int.eq_ofNat_of_zero_le (by omega : 0 ≤ E)
      exact fpReduce_large h (by omega)

theorem Good.neg {v : ℝ} {r : F256} (h : Good v r) : Good (-v) r.negated := by
  obtain ⟨h1, h2⟩ := h
  have hx := pat_lt r
  refine ⟨?_, ?_⟩
  · rw [fin_iff, pat_negated] at *
    omega
  · have hq : quantumExp r.negated.pat = quantumExp r.pat := by
      have : expField r.negated.pat = expField r.pat := by
        rw [pat_negated]; unfold expField; omega
      unfold quantumExp
      rw [this]
    rw [C18_neg_val, hq, ← abs_neg]
    refine le_trans (le_of_eq ?_) h2
    congr 1
    ring

theorem quarter_turns (k : ℤ) (y : ℝ) :
    (k % 4 = 0 → Real.sin (k * (Real.pi / 2) + y) = Real.sin y ∧ Real.cos (k * (Real.pi / 2) + y) = Real.cos y) ∧
    (k % 4 = 1 → Real.sin (k * (Real.pi / 2) + y) = Real.cos y ∧ Real.cos (k * (Real.pi / 2) + y) = -Real.sin y) ∧
    (k % 4 = 2 → Real.sin (k * (Real.pi / 2) + y) = -Real.sin y ∧ Real.cos (k * (Real.pi / 2) + y) = -Real.cos y) ∧
    (k % 4 = 3 → Real.sin (k * (Real.pi / 2) + y) = -Real.cos y ∧ Real.cos (k * (Real.pi / 2) + y) = Real.sin y) := by
  have hk : (k : ℝ) = 4 * (k / 4 : ℤ) + (k % 4 : ℤ) := by
    have := Int.mul_ediv_add_emod k 4
    exact_mod_cast this.symm
  refine ⟨?_, ?_, ?_, ?_⟩ <;> intro hq <;> rw [hq] at hk <;> rw [hk]
  · have e : (4 * ((k / 4 : ℤ) : ℝ) + ((0 : ℤ) : ℝ)) * (Real.pi / 2) + y = y + (k / 4 : ℤ) * (2 * Real.pi) := by
      push_cast; ring
    rw [e, Real.sin_add_int_mul_two_pi, Real.cos_add_int_mul_two_pi]
    exact ⟨rfl, rfl⟩
  · have e : (4 * ((k / 4 : ℤ) : ℝ) + ((1 : ℤ) : ℝ)) * (Real.pi / 2) + y =
        (y + Real.pi / 2) + (k / 4 : ℤ) * (2 * Real.pi) := by
      push_cast; ring
    rw [e, Real.sin_add_int_mul_two_pi, Real.cos_add_int_mul_two_pi, Real.sin_add_pi_div_two, Real.cos_add_pi_div_two]
    exact ⟨rfl, rfl⟩
  · have e : (4 * ((k / 4 : ℤ) : ℝ) + ((2 : ℤ) : ℝ)) * (Real.pi / 2) + y =
        (y + Real.pi) + (k / 4 : ℤ) * (2 * Real.pi) := by
      push_cast; ring
    rw [e, Real.sin_add_int_mul_two_pi, Real.cos_add_int_mul_two_pi, Real.sin_add_pi, Real.cos_add_pi]
    exact ⟨rfl, rfl⟩
  · have e : (4 * ((k / 4 : ℤ) : ℝ) + ((3 : ℤ) : ℝ)) * (Real.pi / 2) + y =
        (y + Real.pi / 2 + Real.pi) + (k / 4 : ℤ) * (2 * Real.pi) := by
      push_cast; ring
    rw [e, Real.sin_add_int_mul_two_pi, Real.cos_add_int_mul_two_pi, Real.sin_add_pi, Real.cos_add_pi,
      Real.sin_add_pi_div_two, Real.cos_add_pi_div_two]
    exact ⟨rfl, neg_neg _⟩

/-- The sine and the cosine of a positive number, from the reduced argument -/
theorem sin_cases {x : F256} {q : ℕ} {Y : FP492} (hf : IsFin x.pat) (h0 : ¬ IsZero x.pat)
    (hr : reduce x.abs = some (q, Y)) (hY : Reduced (val x.abs.pat) q Y) :
    ∃ s c, x.sin = some s ∧ x.cos = some c ∧ Good (Real.sin (val x.pat)) s ∧ Good (Real.cos (val x.pat)) c := by
  obtain ⟨k, y, hx, hq, h1, h2, h3⟩ := hY
  have gs := sin_good h1 h2 h3
  have gc := cos_good h1 (red_weaken h3)
  obtain ⟨q0, q1, q2, q3⟩ := quarter_turns k y
  rw [← hx, C18_abs_val] at q0 q1 q2 q3
  rw [Real.cos_abs] at q0 q1 q2 q3
  have hsg : (x.sign = 0 ∧ |val x.pat| = val x.pat) ∨ (x.sign = 1 ∧ |val x.pat| = - val x.pat) := by
    have hs : x.sign = signBit x.pat := (C18_sign_predicates x).2.2
    have hv := val_eq x.pat
    have hlt := pat_lt x
    rcases (by unfold signBit; omega : signBit x.pat = 0 ∨ signBit x.pat = 1) with hb | hb
    · left
      refine ⟨by rw [hs, hb], abs_of_nonneg ?_⟩
      rw [hv, hb, pow_zero, one_mul]
      positivity
    · right
      refine ⟨by rw [hs, hb], abs_of_nonpos ?_⟩
      rw [hv, hb, pow_one, neg_one_mul]
      exact neg_nonpos.mpr (by positivity)
  rw [F256.sin, F256.cos, if_neg (not_special hf h0), if_neg (not_special hf h0), hr]
  rcases (by omega : q = 0 ∨ q = 1 ∨ q = 2 ∨ q = 3) with rfl | rfl | rfl | rfl
  · obtain ⟨t1, t2⟩ := q0 (by exact_mod_cast hq)
    rw [t2]
    rcases hsg with ⟨g1, g2⟩ | ⟨g1, g2⟩ <;> rw [g2] at t1 <;> rw [g1]
    · rw [t1]
      exact ⟨_, _, rfl, rfl, gs, gc⟩
    · rw [Real.sin_neg, neg_eq_iff_eq_neg] at t1
      rw [t1]
      exact ⟨_, _, rfl, rfl, gs.neg, gc⟩
  · obtain ⟨t1, t2⟩ := q1 (by exact_mod_cast hq)
    rw [t2]
    rcases hsg with ⟨g1, g2⟩ | ⟨g1, g2⟩ <;> rw [g2] at t1 <;> rw [g1]
    · rw [t1]
      exact ⟨_, _, rfl, rfl, gc, gs.neg⟩
    · rw [Real.sin_neg, neg_eq_iff_eq_neg] at t1
      rw [t1]
      exact ⟨_, _, rfl, rfl, gc.neg, gs.neg⟩
  · obtain ⟨t1, t2⟩ := q2 (by exact_mod_cast hq)
    rw [t2]
    rcases hsg with ⟨g1, g2⟩ | ⟨g1, g2⟩ <;> rw [g2] at t1 <;> rw [g1]
    · rw [t1]
      exact ⟨_, _, rfl, rfl, gs.neg, gc.neg⟩
    · rw [Real.sin_neg, neg_inj] at t1
      rw [t1]
      exact ⟨_, _, rfl, rfl, gs, gc.neg⟩
  · obtain ⟨t1, t2⟩ := q3 (by exact_mod_cast hq)
    rw [t2]
    rcases hsg with ⟨g1, g2⟩ | ⟨g1, g2⟩ <;> rw [g2] at t1 <;> rw [g1]
    · rw [t1]
      exact ⟨_, _, rfl, rfl, gc.neg, gs⟩
    · rw [Real.sin_neg, neg_inj] at t1
      rw [t1]
      exact ⟨_, _, rfl, rfl, gc, gs⟩

/-- The cosine of a tiny number -/
theorem cos_tiny {x : F256} {m : ℕ} {E : ℤ} (hf : IsFin x.pat) (h0 : ¬ IsZero x.pat) (h : Arg x.abs m E)
    (hE : E < -256) : ∃ c, x.cos = some c ∧ Good (Real.cos (val x.pat)) c := by
  obtain ⟨h1, h2⟩ := sval_from_small h hE
  refine ⟨toF256 (approxCos (FP492.fromF256 x.abs)), ?_, ?_⟩
  · rw [F256.cos, if_neg (not_special hf h0), reduce, h.exponent_eq, if_pos (by omega)]
    rfl
  · rw [← Real.cos_abs, ← C18_abs_val]
    refine cos_good h2 (h1.trans ?_)
    have : (2 : ℝ) / 2 ^ 492 ≤ 3 / 2 ^ 492 := by gcongr; norm_num
    exact this.trans (le_add_of_nonneg_right (by positivity))

theorem abs_arg (x : F256) (hf : IsFin x.pat) (h0 : ¬ IsZero x.pat) : ∃ m E, Arg x.abs m E := by
  have hlt := pat_lt x
  refine exists_arg x.abs ?_ ?_ ?_
  · rw [fin_iff] at *
    rw [pat_abs]
    omega
  · rw [isZero_iff] at *
    rw [pat_abs]
    omega
  · unfold signBit
    rw [pat_abs]
    omega

/-- The exponent of a number from its absolute value -/
theorem Arg.exp_ge {x : F256} {m : ℕ} {E n : ℤ} (h : Arg x m E) (hx : (2 : ℝ) ^ n ≤ val x.pat) :
    n ≤ E := by
  by_contra hc
  push Not at hc
  have hm : (m : ℝ) < 2 ^ 237 := by exact_mod_cast h.m_lt
  have h1 : val x.pat < 2 ^ (E + 1) := by
    rw [h.val_eq]
    have : (2 : ℝ) ^ (E + 1) = 2 ^ 237 * 2 ^ (E - 236) := by
      rw [← zpow_natCast, ← zpow_add₀ (by norm_num)]
      congr 1
      push_cast
      ring
    rw [this]
    exact mul_lt_mul_of_pos_right hm (zpow_pos (by norm_num) _)
  have h2 : (2 : ℝ) ^ (E + 1) ≤ 2 ^ n := zpow_le_zpow_right₀ (by norm_num) (by omega)
  exact absurd hx (not_le.mpr (h1.trans_le h2))

theorem Arg.exp_lt {x : F256} {m : ℕ} {E n : ℤ} (h : Arg x m E) (hx : val x.pat < (2 : ℝ) ^ n) (hn : -262142 < n) :
    E < n := by
  by_contra hc
  push Not at hc
  have h1 := (h.range (by omega)).1
  have h2 : (2 : ℝ) ^ n ≤ 2 ^ E := zpow_le_zpow_right₀ (by norm_num) hc
  exact absurd hx (not_lt.mpr (h2.trans h1))

/-- The conversion of a number below the resolution of the fixed point numbers -/
theorem from_tiny {x : F256} {m : ℕ} {E : ℤ} (h : Arg x m E) (hE : E < -492) :
    sval (FP492.fromF256 x) = if 2 ^ 236 ≤ m then 1 else 0 := by
  have hm := h.m_lt
  rw [sval_from h (by omega)]
  have e1 : (Max.max 0 (Min.min E 19)).toNat = 0 := by omega
  have e2 : (Max.max (-492) (Min.min E 0)).natAbs = 492 := by omega
  rw [e1, e2, pow_zero, mul_one]
  have e3 : m * 2 ^ 256 / 2 ^ 492 = m / 2 ^ 236 := by
    rw [show (2 : ℕ) ^ 492 = 2 ^ 236 * 2 ^ 256 by norm_num, Nat.mul_div_mul_right _ _ (by norm_num)]
  rw [e3]
  split <;> omega

theorem unit_parts : sval (FP492.new 0 0 0 1) = 1 ∧ val (toF256 (FP492.new 0 0 0 1)).pat = 1 / 2 ^ 492 := by
  have e : sval (FP492.new 0 0 0 1) = 1 := by decide +kernel
  refine ⟨e, ?_⟩
  have hp : toF256 (FP492.new 0 0 0 1) = ⟨⟨BitVec.ofNat 128 ((262143 - 492) * 2 ^ 108), 0⟩⟩ := by decide +kernel
  have p : (toF256 (FP492.new 0 0 0 1)).pat = (262143 - 492) * 2 ^ 236 := by rw [hp]; decide +kernel
  rw [p, val, show signBit ((262143 - 492) * 2 ^ 236) = 0 by decide, show significandOf ((262143 - 492) * 2 ^ 236) = 2 ^ 236 by decide,
    show quantumExp ((262143 - 492) * 2 ^ 236) = -728 by decide]
  norm_num

theorem sval_inj {x y : FP492} (h : sval x = sval y) : x = y := by
  have h1 := nat_lt x
  have h2 := nat_lt y
  apply nat_inj
  unfold sval at h
  split at h <;> split at h <;> omega

/-- The sine of a number whose conversion is `Y`, when `Y` is tiny -/
theorem sin_small {x : F256} {m : ℕ} {E : ℤ} (hf : IsFin x.pat) (h0 : ¬ IsZero x.pat) (h : Arg x.abs m E)
    (hE : E < -492) : ∃ s, x.sin = some s ∧ |val s.pat| = if 2 ^ 236 ≤ m then 1 / 2 ^ 492 else 0 := by
  have hY := from_tiny h hE
  have ha : approxSin (FP492.fromF256 x.abs) = FP492.fromF256 x.abs := by
    rw [approxSin, if_pos]
    have hb : (sval (FP492.fromF256 x.abs)).natAbs ≤ 1 := by rw [hY]; split <;> decide
    rw [le_iff, sval_iabs (hb.trans (by norm_num)), sin_cut.1, Int.abs_eq_natAbs]
    have : (1 : ℕ) ≤ UInt.nat SIN_SMALL_CUT_OFF := le_trans (by norm_num) sin_cut.2.1.le
    exact_mod_cast hb.trans this
  have hv : |val (toF256 (FP492.fromF256 x.abs)).pat| = if 2 ^ 236 ≤ m then 1 / 2 ^ 492 else 0 := by
    split at hY
    · rename_i hm
      rw [if_pos hm, sval_inj (hY.trans unit_parts.1.symm), unit_parts.2, abs_of_pos (by positivity)]
    · rename_i hm
      have e : sval FP492.ZERO = 0 := by decide +kernel
      rw [if_neg hm, sval_inj (hY.trans e.symm)]
      have : (toF256 FP492.ZERO) = F256.ZERO := by decide +kernel
      rw [this, val_eq, show mag F256.ZERO.pat = 0 by decide]
      simp
  have hs : x.sign = 0 ∨ x.sign = 1 := by
    have := sign_cases x
    omega
  rw [F256.sin, if_neg (not_special hf h0), reduce, h.exponent_eq, if_pos (by omega)]
  rcases hs with g | g <;> rw [g]
  · exact ⟨_, rfl, by rw [ha]; exact hv⟩
  · exact ⟨_, rfl, by rw [ha, C18_neg_val, abs_neg]; exact hv⟩

theorem approxSinCos_eq (Y : FP492) : approxSinCos Y = (approxSin Y, approxCos Y) := by
  unfold approxSinCos
  dsimp only
  split
  · rename_i hc
    have hs : FP492.le (iabs Y) SIN_SMALL_CUT_OFF = true := by
      rw [le_iff] at *
      exact hc.trans (le_iff.mp (by decide +kernel))
    rw [approxSin, approxCos, if_pos hc, if_pos hs]
  · rfl

end Verif.Trig
