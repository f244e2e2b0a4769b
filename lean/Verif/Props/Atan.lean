import Verif.Proofs.AtanFinal
import Verif.Props.Trig
import Verif.Props.Laws
import Verif.Props.Consts

/-!
# C62: the arc tangent

`Real.arctan` is that of Mathlib.
-/

set_option exponentiation.threshold 2000

namespace Verif.Props

open Verif Verif.Spec Verif.Trig Verif.FP492

/-- The quotient of two finite numbers, the smaller one divided by the larger one, and its arc tangent -/
theorem quot_atan {x y : F256} (hx : IsFin x.pat) (hy : IsFin y.pat) (y0 : ¬ IsZero y.pat)
    (h : |val y.pat| < |val x.pat|) : ∃ q r, BigFloat.div (BigFloat.fromF256 y) (BigFloat.fromF256 x) = some q ∧
      approxAtan (FP492.fromBigFloat q) = some r ∧ |val y.pat / val x.pat| < 1 ∧
      |(sval r : ℝ) / 2 ^ 492 - Real.arctan (val y.pat / val x.pat)| ≤ |val y.pat / val x.pat| / 2 ^ 252 + 5 / 2 ^ 492 := by
  have x0 : ¬ IsZero x.pat := fun c => by
    rw [val_zero c, abs_zero] at h
    exact absurd h (not_lt.mpr (abs_nonneg _))
  obtain ⟨nx, vx⟩ := bigFrom_spec x0
  obtain ⟨ny, vy⟩ := bigFrom_spec y0
  obtain ⟨q, q1, q2, q3⟩ := BigFloat.div_spec ny nx
  rw [vx, vy] at q3
  have hp : 0 < |val x.pat| := (abs_nonneg _).trans_lt h
  have ht : |val y.pat / val x.pat| ≤ 1 - 1 / 2 ^ 238 := by
    rw [abs_div, div_le_iff₀ hp]
    refine (val_gap hy hx h).trans ?_
    have e : (1 - 1 / 2 ^ 238) * |val x.pat| - (|val x.pat| - |val x.pat| / 2 ^ 237) = |val x.pat| * (1 / 2 ^ 237 - 1 / 2 ^ 238) := by
      ring
    have : 0 ≤ |val x.pat| * (1 / 2 ^ 237 - 1 / 2 ^ 238 : ℝ) := mul_nonneg hp.le (by norm_num)
    linarith
  obtain ⟨r, r1, r2⟩ := approx_big q2 ht q3
  exact ⟨q, r, q1, r1, lt_of_le_of_lt ht (by norm_num), r2⟩

theorem quot_weak {t B : ℝ} (ht : |t| < 1) (h : B ≤ |t| / 2 ^ 252 + 5 / 2 ^ 492) : B ≤ 1 / 2 ^ 252 + 5 / 2 ^ 492 := by
  have : |t| / 2 ^ 252 ≤ 1 / 2 ^ 252 := div_le_div_of_nonneg_right ht.le (by positivity)
  linarith

theorem arctan_small {t : ℝ} (ht : |t| < 1) : |Real.arctan t| ≤ Real.pi / 4 := by
  rw [abs_lt] at ht
  rw [abs_le]
  have h1 := Real.arctan_mono ht.1.le
  have h2 := Real.arctan_mono ht.2.le
  rw [Real.arctan_neg, Real.arctan_one] at h1
  rw [Real.arctan_one] at h2
  exact ⟨by linarith, h2⟩

theorem arctan_small_one {t : ℝ} (ht : |t| < 1) : |Real.arctan t| ≤ 1 :=
  (arctan_small ht).trans (by linarith [Real.pi_le_four])

theorem one_nonzero : ¬ IsZero F256.ONE.pat := by decide

/-- Beyond one -/
theorem atan_large {x : F256} (hx : IsFin x.pat) (h1 : 1 < |val x.pat|) :
    WithinUlps 0.51 (Real.arctan (val x.pat)) (do
      let xr ← BigFloat.recip (BigFloat.fromF256 x)
      let r ← approxAtan (FP492.fromBigFloat xr)
      let s ← BigFloat.sub (if x.sign = 0 then BigFloat.FRAC_PI_2 else BigFloat.neg BigFloat.FRAC_PI_2) (FP492.toBigFloat r)
      return BigFloat.toF256 s) := by
  obtain ⟨q, r, q1, r1, ht, r2⟩ := quot_atan (y := F256.ONE) hx (by decide) one_nonzero
    (by rw [val_ONE, abs_one]; exact h1)
  have hone : BigFloat.fromF256 F256.ONE = BigFloat.ONE := by decide +kernel
  rw [hone] at q1
  rw [val_ONE] at ht r2
  have q1' : BigFloat.recip (BigFloat.fromF256 x) = some q := q1
  rw [q1', Option.bind_eq_bind, Option.bind_some, r1, Option.bind_eq_bind, Option.bind_some]
  have nr := near_approx (arctan_small_one ht) (quot_weak ht r2)
  have hpi := Real.pi_gt_three
  have hpi2 := Real.pi_lt_d2
  have ha := arctan_small ht
  have hs := val_abs_sign x
  have hv : 0 < val x.abs.pat := by rw [C18_abs_val]; linarith
  have key : ∃ (H : BigFloat) (u : ℝ), (if x.sign = 0 then BigFloat.FRAC_PI_2 else BigFloat.neg BigFloat.FRAC_PI_2) = H ∧
      Near H u 1 ∧ |u| ≤ 33 / 10 ∧ -254 ≤ H.exp ∧ Real.arctan (val x.pat) = u - Real.arctan (1 / val x.pat) ∧
      1 / 2 ≤ |u - Real.arctan (1 / val x.pat)| ∧ |u - Real.arctan (1 / val x.pat)| ≤ 33 / 10 := by
    rw [abs_le] at ha
    rcases sign01 x with g | g
    · refine ⟨_, Real.pi / 2, if_pos g, near_half, ?_, by decide, ?_, ?_, ?_⟩
      · rw [abs_of_pos (by linarith)]; linarith
      · rw [if_pos g, one_mul] at hs
        rw [one_div, Real.arctan_inv_of_pos (by rw [hs]; exact hv)]
        ring
      · refine le_trans ?_ (le_abs_self _); linarith
      · rw [abs_le]; constructor <;> linarith
    · refine ⟨_, -(Real.pi / 2), if_neg (by rw [g]; norm_num), near_half.neg, ?_, by decide, ?_, ?_, ?_⟩
      · rw [abs_neg, abs_of_pos (by linarith)]; linarith
      · rw [if_neg (by rw [g]; norm_num)] at hs
        rw [one_div, Real.arctan_inv_of_neg (by rw [hs]; linarith)]
        ring
      · refine le_trans ?_ (neg_le_abs _); linarith
      · rw [abs_le]; constructor <;> linarith
  obtain ⟨H, u, hH, nH, bu, eH, e1, e2, e3⟩ := key
  rw [hH]
  obtain ⟨S, S1, S2, S3⟩ := near_sub nH nr (by norm_num) (by norm_num) bu ((arctan_small_one ht).trans (by norm_num))
    (Or.inr (Or.inr eH)) e2
  rw [S1, Option.bind_some]
  obtain ⟨f1, f2⟩ := near_round S2 S3 (by norm_num) e2 e3
  rw [e1]
  exact ⟨_, rfl, f1, f2.trans (by norm_num)⟩

/-- Between the small cut-off and one -/
theorem atan_mid {x : F256} (hx : IsFin x.pat) (h1 : |val x.pat| < 1) (h2 : 1 / 2 ^ 200 ≤ |val x.pat|) :
    WithinUlps 0.51 (Real.arctan (val x.pat)) (do
      let r ← approxAtan (FP492.fromF256 x)
      return FP492.toF256 r) := by
  have h0 : ¬ IsZero x.pat := fun hz => by
    rw [val_zero hz, abs_zero] at h2
    exact absurd h2 (by norm_num)
  obtain ⟨m, E, h⟩ := abs_arg x hx h0
  have g1 : -256 ≤ E := h.exp_ge (by
    rw [C18_abs_val, zpow_neg, ← one_div]
    refine le_trans ?_ h2
    norm_num)
  have g2 : E < 0 := h.exp_lt (by rw [C18_abs_val, zpow_zero]; exact h1) (by norm_num)
  have he := fpFrom_exact hx h0 h (by omega) g1
  have hn : (sval (FP492.fromF256 x)).natAbs < 2 ^ 492 := by
    rw [← he, abs_div, abs_of_pos (by positivity : (0 : ℝ) < 2 ^ 492), div_lt_one (by positivity)] at h1
    have h5 : |(sval (FP492.fromF256 x) : ℝ)| = ((sval (FP492.fromF256 x)).natAbs : ℝ) := by
      rw [Nat.cast_natAbs, Int.cast_abs]
    rw [h5] at h1
    exact_mod_cast h1
  obtain ⟨r, r1, r2⟩ := approxAtan_spec hn
  rw [he] at r2
  rw [r1, Option.bind_eq_bind, Option.bind_some]
  have hlow := arctan_ge h1.le
  have hup := arctan_small_one h1
  have e1 : |(sval r : ℝ) / 2 ^ 492 - Real.arctan (val x.pat)| ≤ 4 / 2 ^ 492 := by
    have : (sval r : ℝ) / 2 ^ 492 - Real.arctan (val x.pat) = (sval r - Real.arctan (val x.pat) * 2 ^ 492) / 2 ^ 492 := by
      rw [sub_div, mul_div_assoc, div_self (pow_ne_zero _ two_ne_zero), mul_one]
    rw [this, abs_div, abs_of_pos (by positivity : (0 : ℝ) < 2 ^ 492)]
    exact div_le_div_of_nonneg_right r2 (by positivity)
  have hR := FP492.toF256_spec r
  generalize (sval r : ℝ) / 2 ^ 492 = X at *
  have c1 : (4 : ℝ) / 2 ^ 492 ≤ 1 / 2 ^ 202 / 2 ^ 244 := by norm_num
  have c2 : (4 : ℝ) / 2 ^ 492 ≤ 1 / 2 ^ 202 := by norm_num
  have c3 : (1 : ℝ) / 2 ^ 200 / 2 = 2 * (1 / 2 ^ 202) := by norm_num
  have c4 : (1 : ℝ) / 2 ^ 202 ≤ 1 := by norm_num
  have c5 : (0 : ℝ) < 1 / 2 ^ 202 := by positivity
  have b1 := abs_sub_abs_le_abs_sub (Real.arctan (val x.pat)) X
  have b2 := abs_sub_abs_le_abs_sub X (Real.arctan (val x.pat))
  rw [abs_sub_comm] at b1
  have b3 : 1 / 2 ^ 202 ≤ |X| := by linarith
  obtain ⟨f1, f2⟩ := rne_rel hR (abs_pos.mp (c5.trans_le b3)) (by linarith)
    (e1.trans (c1.trans (div_le_div_of_nonneg_right b3 (by positivity))))
  exact ⟨_, rfl, f1, f2.trans (by norm_num)⟩

/-! ## Below the small cut-off -/

theorem arctan_cubic {x : ℝ} (h0 : 0 ≤ x) : Real.arctan x ≤ x ∧ x - Real.arctan x ≤ x ^ 3 / 3 := by
  constructor
  · have := arctan_lip x 0
    rw [Real.arctan_zero, sub_zero, sub_zero, abs_of_nonneg (Real.arctan_nonneg.mpr h0), abs_of_nonneg h0] at this
    exact this
  · have hd : ∀ y : ℝ, HasDerivAt (fun t : ℝ => Real.arctan t - t + t ^ 3 / 3) (1 / (1 + y ^ 2) - 1 + 3 * y ^ 2 / 3) y := by
      intro y
      have h := ((Real.hasDerivAt_arctan y).sub (hasDerivAt_id y)).add ((hasDerivAt_pow 3 y).div_const 3)
      norm_num at h ⊢
      exact h
    have hm : Monotone (fun t : ℝ => Real.arctan t - t + t ^ 3 / 3) := by
      refine monotone_of_deriv_nonneg (fun y => (hd y).differentiableAt) fun y => ?_
      rw [(hd y).deriv]
      have hp : 0 < 1 + y ^ 2 := by positivity
      have : 1 / (1 + y ^ 2) - 1 + 3 * y ^ 2 / 3 = y ^ 4 / (1 + y ^ 2) := by field_simp; ring
      rw [this]
      positivity
    have := hm h0
    simp only [Real.arctan_zero] at this
    linarith

theorem arctan_cubic_abs (x : ℝ) : |x - Real.arctan x| ≤ |x| ^ 3 / 3 := by
  rcases le_total 0 x with h | h
  · obtain ⟨h1, h2⟩ := arctan_cubic h
    rw [abs_of_nonneg h, abs_of_nonneg (by linarith)]
    exact h2
  · obtain ⟨h1, h2⟩ := arctan_cubic (x := -x) (by linarith)
    rw [Real.arctan_neg] at h1 h2
    rw [abs_of_nonpos h, abs_of_nonpos (by linarith)]
    linarith

/-- The cut-off as a number -/
def atanCut : F256 := ⟨ATAN_SMALL_CUT_OFF⟩

theorem atanCut_facts : absBits atanCut = ATAN_SMALL_CUT_OFF ∧ IsFin atanCut.pat ∧ signBit atanCut.pat = 0 ∧
    quantumExp atanCut.pat = -354 ∧ significandOf atanCut.pat < 2 ^ 237 ∧ 2 ^ 236 < significandOf atanCut.pat ∧
    1000 * significandOf atanCut.pat ^ 3 ≤ 1503 * 2 ^ 708 := by decide +kernel

theorem atanCut_val : 1 / 2 ^ 118 < |val atanCut.pat| ∧ |val atanCut.pat| < 1 / 2 ^ 117 ∧
    |val atanCut.pat| ^ 3 / 3 ≤ 501 / 1000 * (1 / 2 ^ 354) := by
  obtain ⟨-, -, h1, h2, h3, h4, h5⟩ := atanCut_facts
  have e : |val atanCut.pat| = significandOf atanCut.pat / 2 ^ 354 := by
    rw [val, h1, h2, pow_zero, one_mul, abs_mul, abs_of_nonneg (Nat.cast_nonneg _), abs_of_pos (zpow_pos (by norm_num) _),
      show (-354 : ℤ) = -((354 : ℕ) : ℤ) by norm_num, zpow_neg, zpow_natCast, div_eq_mul_inv]
  rw [e]
  have h3' : (significandOf atanCut.pat : ℝ) < 2 ^ 237 := by exact_mod_cast h3
  have h4' : (2 : ℝ) ^ 236 < significandOf atanCut.pat := by exact_mod_cast h4
  have h5' : 1000 * (significandOf atanCut.pat : ℝ) ^ 3 ≤ 1503 * 2 ^ 708 := by exact_mod_cast h5
  generalize (significandOf atanCut.pat : ℝ) = N at *
  refine ⟨?_, ?_, ?_⟩
  · rw [lt_div_iff₀ (by positivity)]
    refine lt_of_le_of_lt (le_of_eq ?_) h4'
    norm_num
  · rw [div_lt_iff₀ (by positivity)]
    refine lt_of_lt_of_le h3' (le_of_eq ?_)
    norm_num
  · rw [div_pow, div_div, div_le_iff₀ (by positivity)]
    have : 501 / 1000 * (1 / 2 ^ 354) * ((2 ^ 354) ^ 3 * 3) = 1503 / 1000 * (2 : ℝ) ^ 708 := by norm_num
    rw [this]
    linarith

theorem ulp_abs (x : F256) {m : ℕ} {E : ℤ} (h : Arg x.abs m E) : quantumExp x.pat = E - 236 := by
  have h2 := h.2.2.2.2
  have hlt := pat_lt x
  rw [← h2, pat_abs]
  unfold quantumExp expField
  split <;> split <;> omega

theorem atan_tiny {x : F256} (hx : IsFin x.pat) (h : |val x.pat| ≤ |val atanCut.pat|) :
    WithinUlps 0.67 (Real.arctan (val x.pat)) (some x) := by
  refine ⟨x, rfl, hx, ?_⟩
  by_cases h0 : IsZero x.pat
  · rw [val_zero h0, Real.arctan_zero, sub_self, abs_zero]
    positivity
  refine (arctan_cubic_abs _).trans ?_
  obtain ⟨m, E, hA⟩ := abs_arg x hx h0
  rw [ulp_abs x hA]
  obtain ⟨c1, c2, c3⟩ := atanCut_val
  have hm : (m : ℝ) < 2 ^ 237 := by exact_mod_cast hA.m_lt
  have hv := hA.val_eq
  rw [C18_abs_val] at hv
  have hq : (0 : ℝ) < 2 ^ (E - 236) := zpow_pos (by norm_num) _
  have hub : |val x.pat| < 2 ^ 237 * 2 ^ (E - 236) := by
    rw [hv]; exact mul_lt_mul_of_pos_right hm hq
  rcases lt_or_ge E (-118) with hE | hE
  · have hlt : |val x.pat| ≤ 1 / 2 ^ 118 := by
      refine hub.le.trans ?_
      have : (2 : ℝ) ^ (E - 236) ≤ 2 ^ (-355 : ℤ) := zpow_le_zpow_right₀ (by norm_num) (by omega)
      refine (mul_le_mul_of_nonneg_left this (by positivity)).trans ?_
      norm_num
    have h2 : |val x.pat| ^ 2 ≤ (1 / 2 ^ 118) ^ 2 := pow_le_pow_left₀ (abs_nonneg _) hlt 2
    have h3 : |val x.pat| ^ 3 = |val x.pat| ^ 2 * |val x.pat| := by ring
    have h4 := mul_le_mul h2 hub.le (abs_nonneg _) (by positivity)
    rw [h3]
    generalize (2 : ℝ) ^ (E - 236) = t at *
    have e : (1 / 2 ^ 118 : ℝ) ^ 2 * (2 ^ 237 * t) = 2 * t := by
      have : (1 / 2 ^ 118 : ℝ) ^ 2 * 2 ^ 237 = 2 := by norm_num
      rw [← mul_assoc, this]
    rw [e] at h4
    have h5 : (0.67 : ℝ) = 67 / 100 := by norm_num
    rw [h5]
    linarith
  · have hc : |val x.pat| ^ 3 / 3 ≤ |val atanCut.pat| ^ 3 / 3 :=
      div_le_div_of_nonneg_right (pow_le_pow_left₀ (abs_nonneg _) h 3) (by norm_num)
    have : (2 : ℝ) ^ (-354 : ℤ) ≤ 2 ^ (E - 236) := zpow_le_zpow_right₀ (by norm_num) (by omega)
    have e : (2 : ℝ) ^ (-354 : ℤ) = 1 / 2 ^ 354 := by norm_num
    rw [e] at this
    have p : (0 : ℝ) < 1 / 2 ^ 354 := by positivity
    norm_num at this p c3 ⊢
    linarith

/-! ## Beyond the large cut-off -/

theorem fracPi2_check : (let N := nat256 BigFloat.FRAC_PI_2.signif
    let P := significandOf Consts.FRAC_PI_2.pat
    decide (P * 2 ^ 18 + 2 ≤ N) && decide (N + 2 ≤ P * 2 ^ 18 + 2 ^ 17) && decide (quantumExp Consts.FRAC_PI_2.pat = -236) &&
    decide (signBit Consts.FRAC_PI_2.pat = 0)) = true := by decide +kernel

theorem fracPi2_val : val Consts.FRAC_PI_2.pat ≤ Real.pi / 2 ∧ Real.pi / 2 - 1 / 2 ^ 237 ≤ val Consts.FRAC_PI_2.pat ∧
    quantumExp Consts.FRAC_PI_2.pat = -236 := by
  have h := fracPi2_check
  have hs := half_spec.2
  dsimp only at h
  have e1 : BigFloat.bval BigFloat.FRAC_PI_2 =
      ((1 : ℤ) : ℝ) * (nat256 BigFloat.FRAC_PI_2.signif : ℝ) * (2 : ℝ) ^ ((0 : ℤ) - 254) := rfl
  have e2 : (2 : ℝ) ^ ((0 : ℤ) - 254) = 1 / 2 ^ 254 := by norm_num
  rw [e1, e2, Int.cast_one, one_mul] at hs
  rw [val]
  generalize nat256 BigFloat.FRAC_PI_2.signif = N at *
  simp only [Bool.and_eq_true, decide_eq_true_iff] at h
  obtain ⟨⟨⟨h1, h2⟩, h3⟩, h4⟩ := h
  rw [h3, h4]
  generalize significandOf Consts.FRAC_PI_2.pat = P at *
  have h1' : (P : ℝ) * 2 ^ 18 + 2 ≤ N := by exact_mod_cast h1
  have h2' : (N : ℝ) + 2 ≤ P * 2 ^ 18 + 2 ^ 17 := by exact_mod_cast h2
  have e3 : (2 : ℝ) ^ (-236 : ℤ) = 2 ^ 18 * (1 / 2 ^ 254) := by norm_num
  have e4 : (1 : ℝ) / 2 ^ 237 = 2 ^ 17 * (1 / 2 ^ 254) := by norm_num
  have e5 : (2 : ℝ) / 2 ^ 254 = 2 * (1 / 2 ^ 254) := by norm_num
  rw [abs_le, e5] at hs
  have p : (0 : ℝ) < 1 / 2 ^ 254 := by positivity
  have k1 := mul_le_mul_of_nonneg_right h1' p.le
  have k2 := mul_le_mul_of_nonneg_right h2' p.le
  rw [e3, e4, pow_zero, one_mul]
  clear e1 e2 e3 e4 e5 h1 h2 h1' h2' h3 h4
  generalize (1 : ℝ) / 2 ^ 254 = u at *
  refine ⟨?_, ?_, rfl⟩
  · nlinarith
  · nlinarith

/-- `FRAC_PI_2` with the sign of `x` -/
theorem fracPi2_signed (x : F256) : F256.mk ⟨Consts.FRAC_PI_2.bits.hi ^^^ signBitsHi x, Consts.FRAC_PI_2.bits.lo⟩ =
    if x.sign = 0 then Consts.FRAC_PI_2 else Consts.FRAC_PI_2.negated := by
  have hb : signBitsHi x = if x.sign = 0 then 0#128 else HI_SIGN_MASK := by
    have h1 : x.sign = x.bits.hi.toNat / 2 ^ 127 := by
      have hl := x.bits.lo.isLt
      have hh := x.bits.hi.isLt
      rw [(C18_sign_predicates x).2.2]
      unfold signBit F256.pat
      omega
    refine BitVec.eq_of_toNat_eq ?_
    rw [signBitsHi, toNat_and_sign, ← h1]
    rcases sign01 x with g | g <;> rw [g] <;> decide
  rw [hb]
  rcases sign01 x with g | g <;> rw [g] <;> decide +kernel

theorem atan_huge {x : F256} (hx : 2 ^ 237 ≤ |val x.pat|) :
    WithinUlps 0.51 (Real.arctan (val x.pat)) (some (if x.sign = 0 then Consts.FRAC_PI_2 else Consts.FRAC_PI_2.negated)) := by
  obtain ⟨f1, f2, f3⟩ := fracPi2_val
  have hp : 0 < val x.abs.pat := by rw [C18_abs_val]; exact lt_of_lt_of_le (by positivity) hx
  have hi : Real.arctan (val x.abs.pat) ≤ Real.pi / 2 ∧ Real.pi / 2 - 1 / 2 ^ 237 ≤ Real.arctan (val x.abs.pat) := by
    refine ⟨(Real.arctan_lt_pi_div_two _).le, ?_⟩
    have h1 := Real.arctan_inv_of_pos hp
    have h2 := (arctan_cubic (inv_nonneg.mpr hp.le)).1
    have h3 : (val x.abs.pat)⁻¹ ≤ 1 / 2 ^ 237 := by
      rw [← one_div]
      refine one_div_le_one_div_of_le (by positivity) ?_
      rw [C18_abs_val]; exact hx
    linarith
  have e : (2 : ℝ) ^ (-236 : ℤ) = 2 * (1 / 2 ^ 237) := by norm_num
  have p : (0 : ℝ) < 1 / 2 ^ 237 := by positivity
  have hs := val_abs_sign x
  have q : quantumExp Consts.FRAC_PI_2.negated.pat = -236 := by decide +kernel
  rcases sign01 x with g | g
  · rw [if_pos g, one_mul] at hs
    rw [if_pos g, hs]
    refine ⟨_, rfl, by decide +kernel, ?_⟩
    rw [f3, e, abs_le]
    constructor <;> linarith
  · have g' : ¬ x.sign = 0 := by rw [g]; norm_num
    rw [if_neg g'] at hs
    rw [if_neg g', hs, neg_one_mul, Real.arctan_neg]
    refine ⟨_, rfl, by decide +kernel, ?_⟩
    rw [q, e, C18_neg_val, abs_le]
    constructor <;> linarith

theorem atan_one {x : F256} (hx : |val x.pat| = 1) :
    WithinUlps 0.51 (Real.arctan (val x.pat)) (some (if x.sign = 0 then Consts.FRAC_PI_4 else Consts.FRAC_PI_4.negated)) := by
  have h := FRAC_PI_4_rne
  have hpi := Real.pi_gt_three
  have hpi2 := Real.pi_le_four
  have hb : |Real.pi / 4| ≤ 4 := by rw [abs_of_pos (by linarith)]; linarith
  obtain ⟨r1, r2⟩ := rne_rel (v := Real.pi / 4) h (by linarith) hb (by
    rw [sub_self, abs_zero]; positivity)
  have hs := val_abs_sign x
  rw [C18_abs_val, hx, mul_one] at hs
  have q : quantumExp Consts.FRAC_PI_4.negated.pat = quantumExp Consts.FRAC_PI_4.pat := by decide +kernel
  rcases sign01 x with g | g
  · rw [if_pos g] at hs
    rw [if_pos g, hs, Real.arctan_one]
    exact ⟨_, rfl, r1, r2.trans (by norm_num)⟩
  · have g' : ¬ x.sign = 0 := by rw [g]; norm_num
    rw [if_neg g'] at hs
    rw [if_neg g', hs, Real.arctan_neg, Real.arctan_one]
    refine ⟨_, rfl, by decide +kernel, ?_⟩
    rw [q, C18_neg_val, neg_sub_neg, abs_sub_comm]
    exact r2.trans (by norm_num)

/-! ## The function -/

theorem atan_nan_test (x : F256) : HI_EXP_MASK < ((absBits x).hi ||| BigUInt.boolU128 (decide ((absBits x).lo ≠ 0))) ↔ IsNaN x.pat := by
  have e : x.isNan = decide (HI_EXP_MASK < ((absBits x).hi ||| BigUInt.boolU128 (decide ((absBits x).lo ≠ 0)))) := rfl
  rw [isNaN_iff, ← nan_iff, e]
  exact decide_eq_true_iff.symm

theorem absBits_one : absBits F256.ONE = F256.ONE.bits := by decide

/-- `2^237` -/
def atanHuge : F256 := ⟨ATAN_LARGE_CUT_OFF⟩

theorem atanHuge_facts : absBits atanHuge = ATAN_LARGE_CUT_OFF ∧ IsFin atanHuge.pat ∧ ATAN_LARGE_CUT_OFF.lo = 0 ∧
    signBit atanHuge.pat = 0 ∧ significandOf atanHuge.pat = 2 ^ 236 ∧ quantumExp atanHuge.pat = 1 := by decide +kernel

theorem atanHuge_val : |val atanHuge.pat| = 2 ^ 237 := by
  obtain ⟨-, -, -, h1, h2, h3⟩ := atanHuge_facts
  rw [val, h1, h2, h3]
  norm_num

theorem huge_test (x : F256) : ATAN_LARGE_CUT_OFF.hi ≤ (absBits x).hi ↔ nat256 (absBits atanHuge) ≤ nat256 (absBits x) := by
  rw [atanHuge_facts.1, BitVec.le_def]
  have e1 : nat256 ATAN_LARGE_CUT_OFF = ATAN_LARGE_CUT_OFF.hi.toNat * 2 ^ 128 := by
    have : nat256 ATAN_LARGE_CUT_OFF = ATAN_LARGE_CUT_OFF.hi.toNat * 2 ^ 128 + ATAN_LARGE_CUT_OFF.lo.toNat := rfl
    rw [this, atanHuge_facts.2.2.1]
    rfl
  have e2 : nat256 (absBits x) = (absBits x).hi.toNat * 2 ^ 128 + (absBits x).lo.toNat := rfl
  have hl := (absBits x).lo.isLt
  rw [e1, e2]
  generalize ATAN_LARGE_CUT_OFF.hi.toNat = a at *
  omega

/-- The branches of `atan` for a finite number -/
theorem atan_branches {x : F256} (hx : IsFin x.pat) :
    (2 ^ 237 ≤ |val x.pat| → x.atan = some (if x.sign = 0 then Consts.FRAC_PI_2 else Consts.FRAC_PI_2.negated)) ∧
    (|val x.pat| ≤ |val atanCut.pat| → x.atan = some x) ∧
    (|val atanCut.pat| < |val x.pat| → |val x.pat| < 1 → x.atan = (do
      let r ← approxAtan (FP492.fromF256 x)
      return FP492.toF256 r)) ∧
    (1 < |val x.pat| → |val x.pat| < 2 ^ 237 → x.atan = (do
      let xr ← BigFloat.recip (BigFloat.fromF256 x)
      let r ← approxAtan (FP492.fromBigFloat xr)
      let s ← BigFloat.sub (if x.sign = 0 then BigFloat.FRAC_PI_2 else BigFloat.neg BigFloat.FRAC_PI_2) (FP492.toBigFloat r)
      return BigFloat.toF256 s)) ∧
    (|val x.pat| = 1 → x.atan = some (if x.sign = 0 then Consts.FRAC_PI_4 else Consts.FRAC_PI_4.negated)) := by
  have hn : ¬ IsNaN x.pat := fun c => by unfold IsFin at hx; exact hx c.1
  have i1 := abs_lt_iff hx (y := atanHuge) atanHuge_facts.2.1
  have i2 := abs_lt_iff (x := atanCut) atanCut_facts.2.1 hx
  have i3 := abs_lt_iff hx (y := F256.ONE) (by decide)
  have i4 := abs_lt_iff (x := F256.ONE) (by decide) hx
  rw [atanHuge_val] at i1
  rw [val_ONE, abs_one, absBits_one] at i3 i4
  rw [atanCut_facts.1] at i2
  have c2 := atanCut_val.2.1
  have c3 : (1 : ℝ) / 2 ^ 117 < 1 := by norm_num
  have c4 : (1 : ℝ) < 2 ^ 237 := by norm_num
  have e : x.atan = if nat256 (absBits atanHuge) ≤ nat256 (absBits x) then
        some (if x.sign = 0 then Consts.FRAC_PI_2 else Consts.FRAC_PI_2.negated)
      else if nat256 (absBits x) ≤ nat256 ATAN_SMALL_CUT_OFF then some x
      else if nat256 (absBits x) < nat256 F256.ONE.bits then (do
        let r ← approxAtan (FP492.fromF256 x)
        return FP492.toF256 r)
      else if nat256 F256.ONE.bits < nat256 (absBits x) then (do
        let xr ← BigFloat.recip (BigFloat.fromF256 x)
        let r ← approxAtan (FP492.fromBigFloat xr)
        let s ← BigFloat.sub (if x.sign = 0 then BigFloat.FRAC_PI_2 else BigFloat.neg BigFloat.FRAC_PI_2) (FP492.toBigFloat r)
        return BigFloat.toF256 s)
      else some (if x.sign = 0 then Consts.FRAC_PI_4 else Consts.FRAC_PI_4.negated) := by
    unfold F256.atan
    dsimp only
    have le256 : BigUInt.le (absBits x) ATAN_SMALL_CUT_OFF = decide (nat256 (absBits x) ≤ nat256 ATAN_SMALL_CUT_OFF) :=
      LawfulBigUInt.le_eq (α := U256) _ _
    rw [if_neg (fun c => hn ((atan_nan_test x).mp c)), fracPi2_signed, le256, BigFloat.lt256, BigFloat.gt256]
    simp only [huge_test, decide_eq_true_iff]
  rw [e]
  clear e
  refine ⟨fun g => ?_, fun g => ?_, fun g g2 => ?_, fun g g2 => ?_, fun g => ?_⟩
  · rw [if_pos (not_lt.mp fun c => absurd (i1.mp c) (not_lt.mpr g))]
  · rw [if_neg (not_le.mpr (i1.mpr (by linarith))), if_pos (not_lt.mp fun c => absurd (i2.mp c) (not_lt.mpr g))]
  · rw [if_neg (not_le.mpr (i1.mpr (by linarith))), if_neg (not_le.mpr (i2.mpr g)), if_pos (i3.mpr g2)]
  · rw [if_neg (not_le.mpr (i1.mpr g2)), if_neg (not_le.mpr (i2.mpr (by linarith))),
      if_neg (fun c => absurd (i3.mp c) (not_lt.mpr g.le)), if_pos (i4.mpr g)]
  · rw [if_neg (not_le.mpr (i1.mpr (by linarith))), if_neg (not_le.mpr (i2.mpr (by linarith))),
      if_neg (fun c => absurd (i3.mp c) (not_lt.mpr g.ge)), if_neg (fun c => absurd (i4.mp c) (not_lt.mpr g.le))]

/-- C62: for numbers of at least `2^-117` in absolute value the arc tangent is at most 0.51 units in the last place off. -/
theorem C62_atan_sharp (x : F256) (hx : IsFin x.pat) (h : 1 / 2 ^ 117 ≤ |val x.pat|) :
    WithinUlps 0.51 (Real.arctan (val x.pat)) x.atan := by
  obtain ⟨b1, -, b3, b4, b5⟩ := atan_branches hx
  rcases lt_trichotomy |val x.pat| 1 with g | g | g
  · rw [b3 (lt_of_lt_of_le atanCut_val.2.1 h) g]
    exact atan_mid hx g (le_trans (by norm_num) h)
  · rw [b5 g]
    exact atan_one g
  · rcases lt_or_ge |val x.pat| (2 ^ 237) with g2 | g2
    · rw [b4 g g2]
      exact atan_large hx g
    · rw [b1 g2]
      exact atan_huge g2

/-- C62: the arc tangent of every finite number is a finite number at most 0.67 units in the last place off; the call never
panics. -/
theorem C62_atan (x : F256) (hx : IsFin x.pat) : WithinUlps 0.67 (Real.arctan (val x.pat)) x.atan := by
  have weak : WithinUlps 0.51 (Real.arctan (val x.pat)) x.atan → WithinUlps 0.67 (Real.arctan (val x.pat)) x.atan := by
    rintro ⟨z, z1, z2, z3⟩
    refine ⟨z, z1, z2, z3.trans ?_⟩
    exact mul_le_mul_of_nonneg_right (by norm_num) (zpow_pos (by norm_num) _).le
  rcases le_or_gt |val x.pat| |val atanCut.pat| with g | g
  · rw [(atan_branches hx).2.1 g]
    exact atan_tiny hx g
  · rcases lt_or_ge |val x.pat| 1 with g2 | g2
    · rw [(atan_branches hx).2.2.1 g g2] at weak ⊢
      exact weak (atan_mid hx g2 ((le_trans (by norm_num) atanCut_val.1.le).trans g.le))
    · exact weak (C62_atan_sharp x hx (le_trans (by norm_num) g2))

/-- C62: NaN gives NaN, the infinities give `±FRAC_PI_2`, and the zeros give themselves. -/
theorem C62_special (x : F256) : (IsNaN x.pat → NaNResult x.atan) ∧
    (IsInf x.pat → x.atan = some (if x.sign = 0 then Consts.FRAC_PI_2 else Consts.FRAC_PI_2.negated)) ∧
    (IsZero x.pat → x.atan = some x) := by
  refine ⟨fun h => ?_, fun h => ?_, fun h => ?_⟩
  · unfold F256.atan
    dsimp only
    rw [if_pos ((atan_nan_test x).mpr h)]
    exact ⟨_, rfl, nan_isNaN⟩
  · unfold F256.atan
    dsimp only
    rw [if_neg (fun c => ?_), if_pos, fracPi2_signed]
    · rw [huge_test, nat_absBits x, (isInf_iff _).mp h]
      decide +kernel
    · have := (atan_nan_test x).mp c
      rw [isInf_iff] at h
      unfold IsNaN at this
      unfold INF at h
      have hlt := pat_lt x
      unfold fracField at this
      omega
  · have hf : IsFin x.pat := by
      unfold IsZero at h
      unfold IsFin
      omega
    refine (atan_branches hf).2.1 ?_
    rw [val_zero h, abs_zero]
    exact abs_nonneg _

theorem fracPi2_check' : (let N := nat256 BigFloat.FRAC_PI_2.signif
    let P := significandOf Consts.FRAC_PI_2.pat
    decide (100 * (N + 2) ≤ 100 * (P * 2 ^ 18) + 46 * 2 ^ 18)) = true := by decide +kernel

theorem fracPi2_close : Real.pi / 2 ≤ val Consts.FRAC_PI_2.pat + 46 / 100 * (1 / 2 ^ 236) ∧
    val Consts.FRAC_PI_2.pat = significandOf Consts.FRAC_PI_2.pat * (1 / 2 ^ 236) := by
  have h := fracPi2_check'
  have h0 := fracPi2_check
  have hs := half_spec.2
  dsimp only at h h0
  have e1 : BigFloat.bval BigFloat.FRAC_PI_2 =
      ((1 : ℤ) : ℝ) * (nat256 BigFloat.FRAC_PI_2.signif : ℝ) * (2 : ℝ) ^ ((0 : ℤ) - 254) := rfl
  have e2 : (2 : ℝ) ^ ((0 : ℤ) - 254) = 1 / 2 ^ 254 := by norm_num
  rw [e1, e2, Int.cast_one, one_mul] at hs
  rw [val]
  generalize nat256 BigFloat.FRAC_PI_2.signif = N at *
  simp only [Bool.and_eq_true, decide_eq_true_iff] at h h0
  obtain ⟨⟨-, h3⟩, h4⟩ := h0
  rw [h3, h4]
  generalize significandOf Consts.FRAC_PI_2.pat = P at *
  have h2' : 100 * ((N : ℝ) + 2) ≤ 100 * (P * 2 ^ 18) + 46 * 2 ^ 18 := by exact_mod_cast h
  have e3 : (2 : ℝ) ^ (-236 : ℤ) = 2 ^ 18 * (1 / 2 ^ 254) := by norm_num
  have e4 : (1 : ℝ) / 2 ^ 236 = 2 ^ 18 * (1 / 2 ^ 254) := by norm_num
  have e5 : (2 : ℝ) / 2 ^ 254 = 2 * (1 / 2 ^ 254) := by norm_num
  rw [abs_le, e5] at hs
  have p : (0 : ℝ) < 1 / 2 ^ 254 := by positivity
  have k2 := mul_le_mul_of_nonneg_right h2' p.le
  rw [e3, e4, pow_zero, one_mul]
  clear e1 e2 e3 e4 e5 h h2' h3 h4
  generalize (1 : ℝ) / 2 ^ 254 = u at *
  refine ⟨?_, rfl⟩
  nlinarith

theorem ulp_le {z : F256} (hz : IsFin z.pat) (h1 : 1 ≤ |val z.pat|) :
    (2 : ℝ) ^ quantumExp z.pat ≤ |val z.pat| * (1 / 2 ^ 236) ∧
    (|val z.pat| < 2 → quantumExp z.pat = -236 ∧ ∃ m : ℕ, |val z.pat| = m * (1 / 2 ^ 236)) := by
  have h0 : ¬ IsZero z.pat := fun c => by
    rw [val_zero c, abs_zero] at h1
    exact absurd h1 (by norm_num)
  obtain ⟨m, E, hA⟩ := abs_arg z hz h0
  have hE : 0 ≤ E := hA.exp_ge (by rw [C18_abs_val, zpow_zero]; exact h1)
  have hm : (2 : ℝ) ^ 236 ≤ m := by exact_mod_cast hA.m_ge (by omega)
  have hv := hA.val_eq
  rw [C18_abs_val] at hv
  have hq := ulp_abs z hA
  constructor
  · rw [hq, hv, mul_one_div, le_div_iff₀ (by positivity), mul_comm]
    exact mul_le_mul_of_nonneg_right hm (zpow_pos (by norm_num) _).le
  · intro h2
    have hE1 : E < 1 := hA.exp_lt (by rw [C18_abs_val]; norm_num; exact h2) (by norm_num)
    have hE0 : E = 0 := by omega
    rw [hE0] at hq hv
    refine ⟨by rw [hq]; norm_num, m, ?_⟩
    rw [hv]
    norm_num

/-- C62: the results are in the documented range; none is larger than `FRAC_PI_2`, which is below `π/2`. -/
theorem C62_range (x : F256) (hx : ¬ IsNaN x.pat) :
    ∃ z, x.atan = some z ∧ |val z.pat| ≤ val Consts.FRAC_PI_2.pat ∧ val Consts.FRAC_PI_2.pat ≤ Real.pi / 2 := by
  obtain ⟨f1, -, -⟩ := fracPi2_val
  obtain ⟨f2, f3⟩ := fracPi2_close
  have hpi := Real.pi_gt_three
  have hpi2 := Real.pi_lt_d2
  have s1 : (1 : ℝ) / 2 ^ 236 ≤ 1 / 100 := by norm_num
  have s0 : (0 : ℝ) < 1 / 2 ^ 236 := by positivity
  by_cases hf : IsFin x.pat
  · rcases lt_or_ge |val x.pat| (1 / 2 ^ 117) with g | g
    · obtain ⟨z, z1, z2, z3⟩ := C62_atan x hf
      refine ⟨z, z1, ?_, f1⟩
      by_contra hc
      push Not at hc
      have hz1 : 1 ≤ |val z.pat| := by linarith
      have hu := mul_le_mul_of_nonneg_left (ulp_le z2 hz1).1 (by norm_num : (0 : ℝ) ≤ 0.67)
      have ha := (arctan_small_one (t := val x.pat) (g.trans (by norm_num)))
      have t := abs_sub_abs_le_abs_sub (val z.pat) (Real.arctan (val x.pat))
      have hu2 : |val z.pat| * (1 / 2 ^ 236) ≤ |val z.pat| * (1 / 100) := mul_le_mul_of_nonneg_left s1 (abs_nonneg _)
      norm_num at hu hu2 z3 f2 s0 s1
      linarith
    · obtain ⟨z, z1, z2, z3⟩ := C62_atan_sharp x hf g
      refine ⟨z, z1, ?_, f1⟩
      by_contra hc
      push Not at hc
      have ha := Real.arctan_lt_pi_div_two (val x.pat)
      have hb := Real.neg_pi_div_two_lt_arctan (val x.pat)
      have hab : |Real.arctan (val x.pat)| ≤ Real.pi / 2 := by rw [abs_le]; constructor <;> linarith
      have hz1 : 1 ≤ |val z.pat| := by linarith
      obtain ⟨u1, u2⟩ := ulp_le z2 hz1
      have t := abs_sub_abs_le_abs_sub (val z.pat) (Real.arctan (val x.pat))
      have hlt : |val z.pat| < 2 := by
        have hu := mul_le_mul_of_nonneg_left u1 (by norm_num : (0 : ℝ) ≤ 0.51)
        have hu2 : |val z.pat| * (1 / 2 ^ 236) ≤ |val z.pat| * (1 / 100) := mul_le_mul_of_nonneg_left s1 (abs_nonneg _)
        norm_num at hu hu2 z3 f2 s0 s1
        linarith
      obtain ⟨q1, m, q2⟩ := u2 hlt
      rw [q1] at z3
      rw [q2, f3] at hc
      have hmP := lt_of_mul_lt_mul_right hc s0.le
      generalize significandOf Consts.FRAC_PI_2.pat = P at *
      have hmP' : ((P + 1 : ℕ) : ℝ) ≤ m := Nat.cast_le.mpr (Nat.cast_lt.mp hmP)
      have hge := mul_le_mul_of_nonneg_right hmP' s0.le
      rw [← q2, Nat.cast_add, Nat.cast_one, add_mul, ← f3, one_mul] at hge
      have e : (2 : ℝ) ^ (-236 : ℤ) = 1 / 2 ^ 236 := by norm_num
      rw [e] at z3
      have e2 : (0.51 : ℝ) = 51 / 100 := by norm_num
      rw [e2] at z3
      generalize (1 : ℝ) / 2 ^ 236 = u at *
      linarith
  · have hi : IsInf x.pat := by
      rw [isInf_iff]
      rw [isNaN_iff] at hx
      rw [fin_iff] at hf
      omega
    refine ⟨_, (C62_special x).2.1 hi, ?_, f1⟩
    split
    · exact le_of_eq (abs_of_pos (by linarith))
    · rw [C18_neg_val, abs_neg]
      exact le_of_eq (abs_of_pos (by linarith))

/-- `2^n` -/
def twoPow (n : ℤ) : F256 := ⟨⟨BitVec.ofNat 128 ((262143 + n).toNat * 2 ^ 108), 0⟩⟩

/-- Numbers of all ranges: `2^-200`, `2^-1`, `1`, `2^100` and `2^300` -/
example : ∀ n ∈ [(-200 : ℤ), -1, 0, 100, 300], IsFin (twoPow n).pat ∧ significandOf (twoPow n).pat = 2 ^ 236 ∧
    quantumExp (twoPow n).pat = n - 236 := by
  decide +kernel

end Verif.Props
