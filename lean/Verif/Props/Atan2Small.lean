import Verif.Proofs.ToStrExact
import Verif.Props.Atan2

/-!
# C63: small quotients in the right half plane
-/

set_option exponentiation.threshold 2000

namespace Verif.Props

open Verif Verif.Spec Verif.Trig Verif.FP492

/-- The unit in the last place of a number -/
theorem quantum_cases (N : ℕ) : (2 : ℝ) ^ quantumExp N ≤ |val N| / 2 ^ 236 ∨ quantumExp N = -262378 := by
  by_cases he : expField N = 0
  · right
    unfold quantumExp
    rw [if_pos he]
    rfl
  · left
    rw [abs_val', le_div_iff₀ (by positivity), mul_comm]
    refine mul_le_mul_of_nonneg_right ?_ (by positivity)
    have hs : 2 ^ 236 ≤ significandOf N := by
      unfold significandOf
      rw [if_neg he]
      omega
    exact_mod_cast hs

/-- C63, all quotients in the right half plane below 1: the result is finite and off by at most one unit in the last place plus
`6 * 2^-492`. The second term is what remains of `C63_atan2_partial` for quotients below `2^-243`; it cannot be avoided, see
`C63_small_false`. -/
theorem C63_small (x y : F256) (hx : IsFin x.pat) (hy : IsFin y.pat) (x0 : ¬ IsZero x.pat) (y0 : ¬ IsZero y.pat)
    (h : |val y.pat| < |val x.pat|) (hs : 0 < val x.pat) :
    ∃ z, y.atan2 x = some z ∧ IsFin z.pat ∧ |val z.pat - Complex.arg ⟨val x.pat, val y.pat⟩| ≤
      |Complex.arg ⟨val x.pat, val y.pat⟩| / 2 ^ 236 + 6 / 2 ^ 492 := by
  have hs' : x.sign = 0 := by
    rcases sign01 x with s | s
    · exact s
    · exact absurd (sign_neg hx x0 s) (not_lt.mpr hs.le)
  rw [(atan2_branches hx hy x0 y0).1 h]
  obtain ⟨q, r, q1, r1, ht, r2⟩ := quot_atan hx hy y0 h
  rw [q1, Option.bind_eq_bind, Option.bind_some, r1, Option.bind_eq_bind, Option.bind_some]
  unfold atan2Tail
  rw [if_pos hs', pure_bind, arg_right _ hs]
  refine ⟨_, rfl, ?_⟩
  have hlow := arctan_ge ht.le
  have hup := arctan_small_one ht
  generalize val y.pat / val x.pat = t at *
  generalize Real.arctan t = a at *
  have a0 := abs_nonneg a
  have r3 : |(sval r : ℝ) / 2 ^ 492 - a| ≤ |a| / 2 ^ 251 + 5 / 2 ^ 492 := by
    have e : |t| / 2 ^ 252 ≤ |a| / 2 ^ 251 := by
      have : |t| / 2 ^ 252 ≤ (2 * |a|) / 2 ^ 252 := div_le_div_of_nonneg_right (by linarith) (by positivity)
      refine this.trans (le_of_eq ?_)
      ring
    linarith
  by_cases h0 : sval r = 0
  · have hz : BigFloat.toF256 (toBigFloat r) = F256.ZERO := by
      rw [sval_inj (show sval r = sval (ZERO : FP492) by rw [h0]; decide)]
      decide +kernel
    rw [hz]
    refine ⟨by decide, ?_⟩
    rw [h0, Int.cast_zero, zero_div] at r3
    rw [show val F256.ZERO.pat = 0 from val_zero (by decide)]
    have : |a| / 2 ^ 251 ≤ |a| / 2 ^ 236 := div_le_div_of_nonneg_left a0 (by positivity) (by norm_num)
    have : (5 : ℝ) / 2 ^ 492 ≤ 6 / 2 ^ 492 := by norm_num
    linarith
  · have hX1' : |(sval r : ℝ) / 2 ^ 492| ≤ 2 := by
      have := abs_sub_abs_le_abs_sub ((sval r : ℝ) / 2 ^ 492) a
      have c : |a| / 2 ^ 251 ≤ |a| / 4 := div_le_div_of_nonneg_left a0 (by norm_num) (by norm_num)
      have c2 : (5 : ℝ) / 2 ^ 492 ≤ 1 / 4 := by norm_num
      linarith
    have hX0 : 1 / 2 ^ 492 ≤ |(sval r : ℝ) / 2 ^ 492| := by
      rw [abs_div, abs_of_pos (by positivity : (0 : ℝ) < 2 ^ 492)]
      refine div_le_div_of_nonneg_right ?_ (by positivity)
      exact_mod_cast Int.one_le_abs h0
    have hb : (sval r).natAbs ≤ 2 ^ 500 := by
      have hX1 := hX1'
      rw [abs_div, abs_of_pos (by positivity : (0 : ℝ) < 2 ^ 492), div_le_iff₀ (by positivity)] at hX1
      have h5 : |(sval r : ℝ)| = ((sval r).natAbs : ℝ) := by rw [Nat.cast_natAbs, Int.cast_abs]
      rw [h5] at hX1
      have h6 : ((sval r).natAbs : ℝ) ≤ 2 ^ 500 := hX1.trans (by norm_num)
      exact_mod_cast h6
    obtain ⟨t1, t2⟩ := FP492.toBigFloat_spec h0 hb
    generalize (sval r : ℝ) / 2 ^ 492 = X at *
    have X0 := abs_nonneg X
    have c1 : |X| / 2 ^ 254 ≤ |X| / 2 := div_le_div_of_nonneg_left X0 (by norm_num) (by norm_num)
    have b1 := abs_sub_abs_le_abs_sub X (BigFloat.bval (toBigFloat r))
    have b2 := abs_sub_abs_le_abs_sub (BigFloat.bval (toBigFloat r)) X
    rw [abs_sub_comm X] at b1
    have k1 : 1 / 2 ^ 1000 ≤ |BigFloat.bval (toBigFloat r)| := by
      have : (1 : ℝ) / 2 ^ 1000 ≤ 1 / 2 ^ 492 / 2 := by norm_num
      linarith
    obtain ⟨f1, f2⟩ := big_rel (v := BigFloat.bval (toBigFloat r)) t1 k1 (by linarith) (by rw [sub_self, abs_zero]; positivity)
    refine ⟨f1, ?_⟩
    generalize BigFloat.toF256 (toBigFloat r) = z at *
    generalize BigFloat.bval (toBigFloat r) = B at *
    have B0 := abs_nonneg B
    have v1 := abs_sub_abs_le_abs_sub (val z.pat) B
    have v2 := abs_sub_abs_le_abs_sub B (val z.pat)
    rw [abs_sub_comm B] at v2
    have v0 := abs_nonneg (val z.pat)
    have u : 51 / 100 * (2 : ℝ) ^ quantumExp z.pat ≤ 52 / 100 * (|B| / 2 ^ 236) := by
      rcases quantum_cases z.pat with g | g
      · have u1 : |val z.pat| / 2 ^ 236 ≤ |val z.pat| / 1000 := div_le_div_of_nonneg_left v0 (by norm_num) (by norm_num)
        have w1 : |val z.pat| ≤ 101 / 100 * |B| := by linarith
        have w2 : |val z.pat| / 2 ^ 236 ≤ 101 / 100 * |B| / 2 ^ 236 := div_le_div_of_nonneg_right w1 (by positivity)
        have e : 101 / 100 * |B| / 2 ^ 236 = 101 / 100 * (|B| / 2 ^ 236) := by ring
        have : 0 ≤ |B| / 2 ^ 236 := by positivity
        linarith
      · rw [g]
        have h2 : (2 : ℝ) ^ (-262378 : ℤ) ≤ 2 ^ (-1000 : ℤ) := zpow_le_zpow_right₀ (by norm_num) (by norm_num)
        have h3 : (2 : ℝ) ^ (-1000 : ℤ) ≤ 1 / 2 ^ 493 / 2 ^ 236 := by norm_num
        have h4 : (1 : ℝ) / 2 ^ 493 ≤ |B| := by
          have : (1 : ℝ) / 2 ^ 493 = 1 / 2 ^ 492 / 2 := by norm_num
          linarith
        have h5 : (1 : ℝ) / 2 ^ 493 / 2 ^ 236 ≤ |B| / 2 ^ 236 := div_le_div_of_nonneg_right h4 (by positivity)
        have h6 := h2.trans (h3.trans h5)
        have h7 : 0 ≤ |B| / 2 ^ 236 := by positivity
        clear h2 h3 h5
        generalize (2 : ℝ) ^ (-262378 : ℤ) = u at *
        generalize |B| / 2 ^ 236 = w at *
        linarith
    have w2 : |B| ≤ 101 / 100 * |X| := by
      have : |X| / 2 ^ 254 ≤ |X| / 100 := div_le_div_of_nonneg_left X0 (by norm_num) (by norm_num)
      linarith
    have w3 : |X| ≤ 101 / 100 * |a| + 5 / 2 ^ 492 := by
      have := abs_sub_abs_le_abs_sub X a
      have : |a| / 2 ^ 251 ≤ |a| / 100 := div_le_div_of_nonneg_left a0 (by norm_num) (by norm_num)
      linarith
    have s1 := abs_sub_le (val z.pat) B a
    have s2 := abs_sub_le B X a
    have g1 : |B| / 2 ^ 236 ≤ (101 / 100 * |X|) / 2 ^ 236 := div_le_div_of_nonneg_right w2 (by positivity)
    have g2 : |X| / 2 ^ 236 ≤ (101 / 100 * |a| + 5 / 2 ^ 492) / 2 ^ 236 := div_le_div_of_nonneg_right w3 (by positivity)
    have g3 : |X| / 2 ^ 254 ≤ 1 / 100 * (|X| / 2 ^ 236) := by
      rw [div_mul_div_comm, one_mul]
      exact div_le_div_of_nonneg_left X0 (by positivity) (by norm_num)
    have g4 : |a| / 2 ^ 251 ≤ 1 / 100 * (|a| / 2 ^ 236) := by
      rw [div_mul_div_comm, one_mul]
      exact div_le_div_of_nonneg_left a0 (by positivity) (by norm_num)
    have g5 : 101 / 100 * |X| / 2 ^ 236 = 101 / 100 * (|X| / 2 ^ 236) := by ring
    have g6 : (101 / 100 * |a| + 5 / 2 ^ 492) / 2 ^ 236 = 101 / 100 * (|a| / 2 ^ 236) + 5 / 2 ^ 492 / 2 ^ 236 := by ring
    have g7 : (5 : ℝ) / 2 ^ 492 / 2 ^ 236 ≤ 1 / 100 * (1 / 2 ^ 492) := by norm_num
    have g8 : (6 : ℝ) / 2 ^ 492 = 6 * (1 / 2 ^ 492) := by ring
    have g9 : (5 : ℝ) / 2 ^ 492 = 5 * (1 / 2 ^ 492) := by ring
    have g0 : (0 : ℝ) ≤ 1 / 2 ^ 492 := by positivity
    have ga : 0 ≤ |a| / 2 ^ 236 := by positivity
    rw [g5] at g1
    rw [g6] at g2
    rw [g8]
    rw [g9] at r3
    generalize |X| / 2 ^ 236 = Xs at *
    generalize |a| / 2 ^ 236 = as at *
    generalize (1 : ℝ) / 2 ^ 492 = ε at *
    linarith

/-- `(1 + 2^-236) * 2^-400` -/
def smallY : F256 := ⟨U256.new 0x3fe6f000000000000000000000000000#128 1#128⟩

/-- C63 is false for many smaller quotients in the right half plane, although the result is not zero: for
`atan2((1 + 2^-236) * 2^-400, 1)` it is `2^-400`, a whole unit in the last place off. -/
theorem C63_small_false : IsFin smallY.pat ∧ val smallY.pat = (1 + 1 / 2 ^ 236) / 2 ^ 400 ∧
    ∃ z, smallY.atan2 F256.ONE = some z ∧ val z.pat = 1 / 2 ^ 400 ∧
      99 / 100 * (2 : ℝ) ^ quantumExp z.pat ≤ |val z.pat - Complex.arg ⟨val F256.ONE.pat, val smallY.pat⟩| := by
  have f : IsFin smallY.pat ∧ significandOf smallY.pat = 2 ^ 236 + 1 ∧ quantumExp smallY.pat = -636 ∧ signBit smallY.pat = 0 ∧
    smallY.atan2 F256.ONE = some (twoPow (-400)) ∧ significandOf (twoPow (-400)).pat = 2 ^ 236 ∧
    quantumExp (twoPow (-400)).pat = -636 ∧ signBit (twoPow (-400)).pat = 0 := by decide +kernel
  obtain ⟨f1, f2, f3, f4, f5, f6, f7, f8⟩ := f
  have e1 : val smallY.pat = (1 + 1 / 2 ^ 236) / 2 ^ 400 := by
    rw [val, f2, f3, f4]
    norm_num
  have e2 : val (twoPow (-400)).pat = 1 / 2 ^ 400 := by
    rw [val, f6, f7, f8]
    norm_num
  refine ⟨f1, e1, _, f5, e2, ?_⟩
  rw [arg_right _ (by rw [val_ONE]; norm_num), e1, e2, f7, val_ONE, div_one]
  have p0 : (0 : ℝ) ≤ (1 + 1 / 2 ^ 236) / 2 ^ 400 := by positivity
  obtain ⟨-, c2⟩ := arctan_cubic p0
  have c3 : ((1 + 1 / 2 ^ 236 : ℝ) / 2 ^ 400) ^ 3 / 3 ≤ 1 / 100 * 2 ^ (-636 : ℤ) := by norm_num
  have c4 : (1 + 1 / 2 ^ 236 : ℝ) / 2 ^ 400 = 1 / 2 ^ 400 + 2 ^ (-636 : ℤ) := by norm_num
  rw [abs_sub_comm]
  refine le_trans ?_ (le_abs_self _)
  generalize Real.arctan ((1 + 1 / 2 ^ 236) / 2 ^ 400) = a at *
  rw [c4] at c2 c3
  generalize (2 : ℝ) ^ (-636 : ℤ) = u at *
  linarith

/-- Operands for `C63_small`: `atan2((1 + 2^-236) * 2^-400, 1)` -/
example : IsFin F256.ONE.pat ∧ IsFin smallY.pat ∧ ¬ IsZero F256.ONE.pat ∧ ¬ IsZero smallY.pat ∧
    |val smallY.pat| < |val F256.ONE.pat| ∧ 0 < val F256.ONE.pat := by
  refine ⟨by decide, by decide +kernel, by decide, by decide +kernel, ?_, by rw [val_ONE]; norm_num⟩
  rw [C63_small_false.2.1, val_ONE, abs_one, abs_of_nonneg (by positivity)]
  norm_num

end Verif.Props
