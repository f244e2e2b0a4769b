import Mathlib.Analysis.SpecialFunctions.Trigonometric.Bounds
import Verif.Proofs.AsinFinal
import Verif.Proofs.RelErr
import Verif.Props.Atan

/-!
# C64: the arc sine

`Real.arcsin` is that of Mathlib.
-/

set_option exponentiation.threshold 2000

namespace Verif.Props

open Verif Verif.Spec Verif.Trig Verif.FP492

/-! ## Below the small cut-off -/

theorem arcsin_cubic {x : ℝ} (h0 : 0 ≤ x) (h1 : x ≤ 1 / 256) : x ≤ Real.arcsin x ∧ Real.arcsin x - x ≤ 1001 / 6000 * x ^ 3 := by
  obtain ⟨y, hy⟩ : ∃ y, y = Real.arcsin x := ⟨_, rfl⟩
  have hs : Real.sin y = x := by rw [hy, Real.sin_arcsin (by linarith) (by linarith)]
  have y0 : 0 ≤ y := by rw [hy]; exact Real.arcsin_nonneg.mpr h0
  have y1 : y ≤ Real.pi / 2 := by rw [hy]; exact Real.arcsin_le_pi_div_two _
  have c := Real.sin_ge_sub_cube y0
  have j := Real.mul_le_sin y0 y1
  have l := Real.sin_le y0
  rw [hs] at c j l
  rw [← hy]
  refine ⟨l, ?_⟩
  have hpi := Real.pi_pos
  have hpi4 := Real.pi_le_four
  have y2 : y ≤ 2 * x := by
    rw [div_mul_eq_mul_div, div_le_iff₀ hpi] at j
    nlinarith
  have y3 : y ^ 3 ≤ 8 * x ^ 3 := by
    have := pow_le_pow_left₀ y0 y2 3
    linarith [this, (by ring : (2 * x) ^ 3 = 8 * x ^ 3)]
  have x2 : x ^ 2 ≤ (1 / 256) ^ 2 := pow_le_pow_left₀ h0 h1 2
  have y4 : y ≤ x * (1 + 1 / 10000) := by nlinarith
  have y5 : y ^ 3 ≤ (x * (1 + 1 / 10000)) ^ 3 := pow_le_pow_left₀ y0 y4 3
  have x3 : 0 ≤ x ^ 3 := by positivity
  have e : (x * (1 + 1 / 10000)) ^ 3 = x ^ 3 * (1 + 1 / 10000) ^ 3 := by ring
  have k : (1 + 1 / 10000 : ℝ) ^ 3 ≤ 1001 / 1000 := by norm_num
  have := mul_le_mul_of_nonneg_left k x3
  linarith

theorem arcsin_cubic_abs {x : ℝ} (h : |x| ≤ 1 / 256) : |x - Real.arcsin x| ≤ 1001 / 6000 * |x| ^ 3 := by
  rcases le_total 0 x with g | g
  · rw [abs_of_nonneg g] at h
    obtain ⟨h1, h2⟩ := arcsin_cubic g h
    rw [abs_of_nonneg g, abs_of_nonpos (by linarith)]
    linarith
  · rw [abs_of_nonpos g] at h
    obtain ⟨h1, h2⟩ := arcsin_cubic (by linarith) h
    rw [Real.arcsin_neg] at h1 h2
    rw [abs_of_nonpos g, abs_of_nonneg (by linarith)]
    linarith

/-- The arc sine is at least as large as its argument. -/
theorem arcsin_ge {x : ℝ} (h : |x| ≤ 1) : |x| ≤ |Real.arcsin x| := by
  rw [abs_le] at h
  have := Real.abs_sin_le_abs (x := Real.arcsin x)
  rw [Real.sin_arcsin h.1 h.2] at this
  exact this

/-- The cut-off as a number -/
def asinCut : F256 := ⟨ASIN_SMALL_CUT_OFF⟩

theorem asinCut_facts : absBits asinCut = ASIN_SMALL_CUT_OFF ∧ IsFin asinCut.pat ∧ signBit asinCut.pat = 0 ∧
    quantumExp asinCut.pat = -354 ∧ significandOf asinCut.pat < 2 ^ 237 ∧ 2 ^ 236 < significandOf asinCut.pat ∧
    1001 * significandOf asinCut.pat ^ 3 ≤ 3030 * 2 ^ 708 := by decide +kernel

theorem asinCut_val : 1 / 2 ^ 118 < |val asinCut.pat| ∧ |val asinCut.pat| < 1 / 2 ^ 117 ∧
    1001 / 6000 * |val asinCut.pat| ^ 3 ≤ 505 / 1000 * (1 / 2 ^ 354) := by
  obtain ⟨-, -, h1, h2, h3, h4, h5⟩ := asinCut_facts
  have e : |val asinCut.pat| = significandOf asinCut.pat / 2 ^ 354 := by
    rw [val, h1, h2, pow_zero, one_mul, abs_mul, abs_of_nonneg (Nat.cast_nonneg _), abs_of_pos (zpow_pos (by norm_num) _),
      show (-354 : ℤ) = -((354 : ℕ) : ℤ) by norm_num, zpow_neg, zpow_natCast, div_eq_mul_inv]
  rw [e]
  have h3' : (significandOf asinCut.pat : ℝ) < 2 ^ 237 := by exact_mod_cast h3
  have h4' : (2 : ℝ) ^ 236 < significandOf asinCut.pat := by exact_mod_cast h4
  have h5' : 1001 * (significandOf asinCut.pat : ℝ) ^ 3 ≤ 3030 * 2 ^ 708 := by exact_mod_cast h5
  generalize (significandOf asinCut.pat : ℝ) = N at *
  refine ⟨?_, ?_, ?_⟩
  · rw [lt_div_iff₀ (by positivity)]
    refine lt_of_le_of_lt (le_of_eq ?_) h4'
    norm_num
  · rw [div_lt_iff₀ (by positivity)]
    refine lt_of_lt_of_le h3' (le_of_eq ?_)
    norm_num
  · rw [div_pow, mul_div_assoc', div_le_iff₀ (by positivity)]
    have : 505 / 1000 * (1 / 2 ^ 354) * (2 ^ 354) ^ 3 = 3030 / 6000 * (2 : ℝ) ^ 708 := by norm_num
    rw [this]
    linarith

theorem asin_tiny {x : F256} (hx : IsFin x.pat) (h : |val x.pat| ≤ |val asinCut.pat|) :
    WithinUlps 0.51 (Real.arcsin (val x.pat)) (some x) := by
  refine ⟨x, rfl, hx, ?_⟩
  by_cases h0 : IsZero x.pat
  · rw [val_zero h0, Real.arcsin_zero, sub_self, abs_zero]
    positivity
  obtain ⟨c1, c2, c3⟩ := asinCut_val
  have k0 : (1 : ℝ) / 2 ^ 117 ≤ 1 / 256 := by norm_num
  refine (arcsin_cubic_abs (by linarith)).trans ?_
  obtain ⟨m, E, hA⟩ := abs_arg x hx h0
  rw [ulp_abs x hA]
  have hm : (m : ℝ) < 2 ^ 237 := by exact_mod_cast hA.m_lt
  have hv := hA.val_eq
  rw [C18_abs_val] at hv
  have hq : (0 : ℝ) < 2 ^ (E - 236) := zpow_pos (by norm_num) _
  have hub : |val x.pat| < 2 ^ 237 * 2 ^ (E - 236) := by
    rw [hv]; exact mul_lt_mul_of_pos_right hm hq
  rcases lt_or_ge E (-118) with hE | hE
  · have hlt : |val x.pat| ≤ 1 / 2 ^ 118 := by
      refine hub.le.trans ?_
      have : (2 : ℝ) ^ (E - 236) ≤ 2 ^ (-355 : ℤ) := zpow_le_zpow_right₀ (by norm_num) (by omega)
      refine (mul_le_mul_of_nonneg_left this (by positivity)).trans ?_
      norm_num
    have h2 : |val x.pat| ^ 2 ≤ (1 / 2 ^ 118) ^ 2 := pow_le_pow_left₀ (abs_nonneg _) hlt 2
    have h3 : |val x.pat| ^ 3 = |val x.pat| ^ 2 * |val x.pat| := by ring
    have h4 := mul_le_mul h2 hub.le (abs_nonneg _) (by positivity)
    rw [h3]
    generalize (2 : ℝ) ^ (E - 236) = t at *
    have e : (1 / 2 ^ 118 : ℝ) ^ 2 * (2 ^ 237 * t) = 2 * t := by
      have : (1 / 2 ^ 118 : ℝ) ^ 2 * 2 ^ 237 = 2 := by norm_num
      rw [← mul_assoc, this]
    rw [e] at h4
    have h5 : (0.51 : ℝ) = 51 / 100 := by norm_num
    rw [h5]
    linarith
  · have hc : 1001 / 6000 * |val x.pat| ^ 3 ≤ 1001 / 6000 * |val asinCut.pat| ^ 3 :=
      mul_le_mul_of_nonneg_left (pow_le_pow_left₀ (abs_nonneg _) h 3) (by norm_num)
    have : (2 : ℝ) ^ (-354 : ℤ) ≤ 2 ^ (E - 236) := zpow_le_zpow_right₀ (by norm_num) (by omega)
    have e : (2 : ℝ) ^ (-354 : ℤ) = 1 / 2 ^ 354 := by norm_num
    rw [e] at this
    have p : (0 : ℝ) < 1 / 2 ^ 354 := by positivity
    norm_num at this p c3 ⊢
    linarith

/-! ## The branches -/

/-- The test for numbers outside of the domain -/
theorem asin_domain_test (x : F256) : nat256 F256.ONE.bits < nat256 (absBits x) ↔ (IsFin x.pat → 1 < |val x.pat|) := by
  by_cases hx : IsFin x.pat
  · have i4 := abs_lt_iff (x := F256.ONE) (by decide) hx
    rw [val_ONE, abs_one, absBits_one] at i4
    rw [i4]
    exact ⟨fun h _ => h, fun h => h hx⟩
  · refine ⟨fun _ h => absurd h hx, fun _ => ?_⟩
    rw [fin_iff] at hx
    have e : nat256 F256.ONE.bits < INF := by decide +kernel
    rw [nat_absBits]
    omega

theorem asin_one_test {x : F256} (hx : IsFin x.pat) : nat256 (absBits x) = nat256 F256.ONE.bits ↔ |val x.pat| = 1 := by
  have i3 := abs_lt_iff hx (y := F256.ONE) (by decide)
  have i4 := abs_lt_iff (x := F256.ONE) (by decide) hx
  rw [val_ONE, abs_one, absBits_one] at i3 i4
  constructor
  · intro h
    rw [h] at i3 i4
    exact le_antisymm (not_lt.mp fun c => absurd (i4.mpr c) (lt_irrefl _)) (not_lt.mp fun c => absurd (i3.mpr c) (lt_irrefl _))
  · intro h
    rw [h] at i3 i4
    exact le_antisymm (not_lt.mp fun c => absurd (i4.mp c) (lt_irrefl _)) (not_lt.mp fun c => absurd (i3.mp c) (lt_irrefl _))

theorem asin_outside {x : F256} (h : IsFin x.pat → 1 < |val x.pat|) : x.asin = some F256.NAN := by
  unfold F256.asin
  dsimp only
  rw [BigFloat.gt256, decide_eq_true ((asin_domain_test x).mpr h), if_pos rfl]

theorem acos_outside {x : F256} (h : IsFin x.pat → 1 < |val x.pat|) : x.acos = some F256.NAN := by
  unfold F256.acos
  dsimp only
  rw [BigFloat.gt256, decide_eq_true ((asin_domain_test x).mpr h), if_pos rfl]

theorem asin_branches {x : F256} (hx : IsFin x.pat) :
    (|val x.pat| = 1 → x.asin = some (if x.sign = 0 then Consts.FRAC_PI_2 else Consts.FRAC_PI_2.negated)) ∧
    (|val x.pat| ≤ |val asinCut.pat| → x.asin = some x) ∧
    (|val asinCut.pat| < |val x.pat| → |val x.pat| < 1 → x.asin = (do
      let q ← asinArg x
      let r ← atanBig q
      return FP492.toF256 r)) := by
  have i2 := abs_lt_iff (x := asinCut) asinCut_facts.2.1 hx
  rw [asinCut_facts.1] at i2
  have d := asin_domain_test x
  have o := asin_one_test hx
  have c2 := asinCut_val.2.1
  have c3 : (1 : ℝ) / 2 ^ 117 < 1 := by norm_num
  have le256 : BigUInt.le (absBits x) ASIN_SMALL_CUT_OFF = decide (nat256 (absBits x) ≤ nat256 ASIN_SMALL_CUT_OFF) :=
    LawfulBigUInt.le_eq (α := U256) _ _
  unfold F256.asin
  dsimp only
  rw [BigFloat.gt256, BigFloat.beq256, le256]
  simp only [decide_eq_true_iff]
  refine ⟨fun g => ?_, fun g => ?_, fun g g2 => ?_⟩
  · rw [if_neg (fun c => absurd (d.mp c hx) (by rw [g]; exact lt_irrefl _)), if_pos (o.mpr g)]
  · rw [if_neg (fun c => absurd (d.mp c hx) (by linarith)), if_neg (fun c => absurd (o.mp c) (by linarith)),
      if_pos (not_lt.mp fun c => absurd (i2.mp c) (not_lt.mpr g))]
  · rw [if_neg (fun c => absurd (d.mp c hx) (by linarith)), if_neg (fun c => absurd (o.mp c) (by linarith)),
      if_neg (not_le.mpr (i2.mpr g))]

theorem acos_branches {x : F256} (hx : IsFin x.pat) :
    (|val x.pat| = 1 → x.acos = some (if x.sign = 0 then F256.ZERO else Consts.PI)) ∧
    (|val x.pat| < 1 → x.acos = (do
      let q ← asinArg x
      let r ← atanBig q
      return FP492.toF256 (FP492.sub FP_FRAC_PI_2' r))) := by
  have d := asin_domain_test x
  have o := asin_one_test hx
  unfold F256.acos
  dsimp only
  rw [BigFloat.gt256, BigFloat.beq256]
  simp only [decide_eq_true_iff]
  refine ⟨fun g => ?_, fun g => ?_⟩
  · rw [if_neg (fun c => absurd (d.mp c hx) (by rw [g]; exact lt_irrefl _)), if_pos (o.mpr g)]
  · rw [if_neg (fun c => absurd (d.mp c hx) (by linarith)), if_neg (fun c => absurd (o.mp c) (by linarith))]

/-! ## Before the final rounding -/

theorem below_one {x : F256} (hx : IsFin x.pat) (h : |val x.pat| < 1) : |val x.pat| ≤ 1 - 1 / 2 ^ 237 := by
  have := val_gap hx (M := F256.ONE.pat) (by decide) (by rw [val_ONE, abs_one]; exact h)
  rw [val_ONE, abs_one] at this
  exact this

theorem sqrt_low {v t s : ℝ} (hv : |v| ≤ 1 - t) (h : s ^ 2 ≤ t * (2 - t)) : s ≤ Real.sqrt (1 - v ^ 2) := by
  refine Real.le_sqrt_of_sq_le (h.trans ?_)
  rw [← sq_abs v]
  have := abs_nonneg v
  nlinarith

/-- The relative error of the argument, as an absolute error of the result -/
theorem pre_err {v s : ℝ} (s0 : 0 < s) (hs : s ≤ Real.sqrt (1 - v ^ 2)) :
    1001 / 1000 * |v| / Real.sqrt (1 - v ^ 2) / 2 ^ 250 ≤ 1001 / 1000 * |v| / s / 2 ^ 250 := by
  refine div_le_div_of_nonneg_right ?_ (by positivity)
  exact div_le_div_of_nonneg_left (by positivity) s0 hs

theorem rne_abs {X : ℝ} {N : ℕ} (h : IsRNE X N) (h1 : 1 / 2 ^ 1000 ≤ |X|) (h4 : |X| ≤ 4) :
    IsFin N ∧ |val N - X| ≤ 1 / 2 ^ 235 := by
  refine ⟨h.fin (lt_thr4 h4), (_root_.Verif.IsRNE.rel_error h ?_ (lt_thr4 h4)).trans ?_⟩
  · have e : (2 : ℝ) ^ 262378 = 2 ^ 1000 * (2 ^ 236 * 2 ^ 261142) := by
      rw [← pow_add, ← pow_add]
    have h2 : (1 : ℝ) ≤ 2 ^ 261142 := one_le_pow₀ (by norm_num)
    rw [e]
    have h3 : (1 : ℝ) / 2 ^ 1000 * 2 ^ 1000 = 1 := by
      rw [one_div]
      exact inv_mul_cancel₀ (pow_ne_zero _ two_ne_zero)
    generalize (2 : ℝ) ^ 261142 = B at *
    have h5 : 1 ≤ |X| * 2 ^ 1000 := by
      rw [← h3]
      exact mul_le_mul_of_nonneg_right h1 (by positivity)
    generalize (2 : ℝ) ^ 1000 = C at *
    rw [← mul_assoc]
    have h6 : (0 : ℝ) < 2 ^ 236 := by positivity
    generalize (2 : ℝ) ^ 236 = D at *
    calc D ≤ 1 * (D * 1) := by linarith
      _ ≤ |X| * C * (D * B) := mul_le_mul h5 (mul_le_mul_of_nonneg_left h2 h6.le) (by linarith) (by linarith)
  · calc |X| / 2 ^ 237 ≤ 4 / 2 ^ 237 := div_le_div_of_nonneg_right h4 (by positivity)
      _ = 1 / 2 ^ 235 := by norm_num

/-- Rounding does not leave an interval between numbers. -/
theorem rne_le {X b : ℝ} {N M : ℕ} (h : IsRNE X N) (hN : IsFin N) (hM : IsRNE b M) (fM : IsFin M) (hb : X ≤ b) :
    val N ≤ val M := by
  have := IsRNE.mono h hM hb
  rw [extVal_fin hN, extVal_fin fM] at this
  exact EReal.coe_le_coe_iff.mp this

theorem fracPi2_fin : IsFin Consts.FRAC_PI_2.pat := by decide +kernel

/-! ## The arc sine -/

/-- Between the cut-off and one, by how much is the result before rounding off? -/
theorem asin_pre {x : F256} (hx : IsFin x.pat) (h1 : |val asinCut.pat| < |val x.pat|) (h2 : |val x.pat| < 1) :
    ∃ r, x.asin = some (FP492.toF256 r) ∧ |(sval r : ℝ) / 2 ^ 492 - Real.arcsin (val x.pat)| ≤
      1001 / 1000 * |val x.pat| / Real.sqrt (1 - val x.pat ^ 2) / 2 ^ 250 + |val x.pat| / 2 ^ 250 ∧
      |(sval r : ℝ) / 2 ^ 492| ≤ Real.pi / 2 := by
  have h0 : ¬ IsZero x.pat := fun hz => by
    rw [val_zero hz, abs_zero] at h1
    exact absurd h1 (not_lt.mpr (abs_nonneg _))
  obtain ⟨q, r, q1, r1, e1, e2, e3⟩ := asinRes_spec h0 (below_one hx h2)
  refine ⟨r, ?_, ?_, ?_⟩
  · rw [(asin_branches hx).2.2 h1 h2, q1, Option.bind_eq_bind, Option.bind_some, r1, Option.bind_eq_bind, Option.bind_some]
    rfl
  · have c := asinCut_val.1
    generalize |val x.pat| = a at *
    generalize 1001 / 1000 * a / Real.sqrt (1 - val x.pat ^ 2) / 2 ^ 250 = P at *
    have p : (0 : ℝ) < 2 ^ 250 := by positivity
    rcases le_or_gt a (1 / 2) with g | g
    · refine (e2 g).trans ?_
      have k : (5 : ℝ) / 2 ^ 492 ≤ 1 / 2 ^ 118 / 2 ^ 250 := by norm_num
      have : 1 / 2 ^ 118 / 2 ^ 250 ≤ a / 2 ^ 250 := div_le_div_of_nonneg_right (c.trans h1).le p.le
      linarith
    · refine e1.trans ?_
      have k : (1 : ℝ) / 2 ^ 252 + 6 / 2 ^ 492 ≤ 1 / 2 / 2 ^ 250 := by norm_num
      have : 1 / 2 / 2 ^ 250 ≤ a / 2 ^ 250 := div_le_div_of_nonneg_right g.le p.le
      linarith
  · have : (0 : ℝ) < 1 / 2 ^ 210 := by positivity
    linarith

theorem arcsin_le_two (v : ℝ) : |Real.arcsin v| ≤ 2 := by
  have h := Real.arcsin_mem_Icc v
  have := Real.pi_le_four
  rw [abs_le]
  exact ⟨by linarith [h.1], by linarith [h.2]⟩

/-- C64: not too close to one the arc sine is at most 0.51 units in the last place off. -/
theorem C64_asin_partial (x : F256) (hx : IsFin x.pat) (h : |val x.pat| ≤ 1 - 1 / 2 ^ 12) :
    WithinUlps 0.51 (Real.arcsin (val x.pat)) x.asin := by
  have c0 : (0 : ℝ) < 1 / 2 ^ 12 := by positivity
  rcases le_or_gt |val x.pat| |val asinCut.pat| with g | g
  · rw [(asin_branches hx).2.1 g]
    exact asin_tiny hx g
  obtain ⟨r, r1, r2, -⟩ := asin_pre hx g (by linarith)
  have hs : 14 / 640 ≤ Real.sqrt (1 - val x.pat ^ 2) := sqrt_low h (by norm_num)
  have hp := pre_err (by norm_num) hs
  have hR := FP492.toF256_spec r
  have hg := arcsin_ge (x := val x.pat) (by linarith)
  have h2 := arcsin_le_two (val x.pat)
  have hc := asinCut_val.1
  rw [r1]
  generalize (sval r : ℝ) / 2 ^ 492 = X at *
  generalize Real.arcsin (val x.pat) = A at *
  have hr : |X - A| ≤ |val x.pat| * (3 / 4) / 2 ^ 244 := by
    refine (r2.trans (add_le_add_left hp _)).trans ?_
    have e1 : 1001 / 1000 * |val x.pat| / (14 / 640) / 2 ^ 250 + |val x.pat| / 2 ^ 250 =
      |val x.pat| * ((1001 / 1000 * (640 / 14) + 1) / 2 ^ 6) / 2 ^ 244 := by ring
    rw [e1]
    have k : ((1001 / 1000 * (640 / 14) + 1) / 2 ^ 6 : ℝ) ≤ 3 / 4 := by norm_num
    exact div_le_div_of_nonneg_right (mul_le_mul_of_nonneg_left k (abs_nonneg _)) (by positivity)
  have b1 := abs_sub_abs_le_abs_sub A X
  have b2 := abs_sub_abs_le_abs_sub X A
  rw [abs_sub_comm] at b1
  have v0 : (0 : ℝ) < 1 / 2 ^ 118 := by positivity
  have c6 : |val x.pat| * (3 / 4) / 2 ^ 244 ≤ |val x.pat| * (3 / 4) / 8 :=
    div_le_div_of_nonneg_left (mul_nonneg (abs_nonneg _) (by norm_num)) (by norm_num) (by norm_num)
  have b3 : |val x.pat| * (3 / 4) ≤ |X| := by linarith
  obtain ⟨f1, f2⟩ := rne_rel hR (abs_pos.mp (by linarith)) (by linarith)
    (hr.trans (div_le_div_of_nonneg_right b3 (by positivity)))
  exact ⟨_, rfl, f1, f2.trans (by norm_num)⟩

/-- C64: the arc sine of ±1 is ±½π, rounded to nearest. -/
theorem C64_one (x : F256) (hx : IsFin x.pat) (h : |val x.pat| = 1) :
    WithinUlps 0.51 (Real.arcsin (val x.pat)) x.asin := by
  rw [(asin_branches hx).1 h]
  have hr := FRAC_PI_2_rne
  have hpi := Real.pi_gt_three
  have hpi2 := Real.pi_le_four
  have hb : |Real.pi / 2| ≤ 4 := by rw [abs_of_pos (by linarith)]; linarith
  obtain ⟨r1, r2⟩ := rne_rel (v := Real.pi / 2) hr (by linarith) hb (by
    rw [sub_self, abs_zero]; positivity)
  have hs := val_abs_sign x
  rw [C18_abs_val, h, mul_one] at hs
  have q : quantumExp Consts.FRAC_PI_2.negated.pat = quantumExp Consts.FRAC_PI_2.pat := by decide +kernel
  rcases sign01 x with g | g
  · rw [if_pos g] at hs
    rw [if_pos g, hs, Real.arcsin_one]
    exact ⟨_, rfl, r1, r2.trans (by norm_num)⟩
  · have g' : ¬ x.sign = 0 := by rw [g]; norm_num
    rw [if_neg g'] at hs
    rw [if_neg g', hs, Real.arcsin_neg, Real.arcsin_one]
    refine ⟨_, rfl, by decide +kernel, ?_⟩
    rw [q, C18_neg_val, neg_sub_neg, abs_sub_comm]
    exact r2.trans (by norm_num)

/-- C64: outside of the domain the arc sine is NaN. -/
theorem C64_outside (x : F256) (h : IsFin x.pat → 1 < |val x.pat|) : NaNResult x.asin :=
  ⟨_, asin_outside h, nan_isNaN⟩

theorem fracPi2_signed_fin (x : F256) :
    IsFin (if x.sign = 0 then Consts.FRAC_PI_2 else Consts.FRAC_PI_2.negated).pat ∧
    |val (if x.sign = 0 then Consts.FRAC_PI_2 else Consts.FRAC_PI_2.negated).pat| ≤ Real.pi / 2 := by
  obtain ⟨f1, f2, -⟩ := fracPi2_val
  have hpi := Real.pi_gt_three
  have k : (1 : ℝ) / 2 ^ 237 ≤ 1 := by norm_num
  have ha : |val Consts.FRAC_PI_2.pat| ≤ Real.pi / 2 := by rw [abs_of_pos (by linarith)]; exact f1
  split
  · exact ⟨fracPi2_fin, ha⟩
  · exact ⟨by decide +kernel, by rw [C18_neg_val, abs_neg]; exact ha⟩

/-- C64: on the whole domain there is no panic, the result is off by at most `2^-131`, and it is in the range from -½π to ½π. -/
theorem C64_total (x : F256) (hx : IsFin x.pat) (h : |val x.pat| ≤ 1) :
    ∃ z, x.asin = some z ∧ IsFin z.pat ∧ |val z.pat - Real.arcsin (val x.pat)| ≤ 1 / 2 ^ 131 ∧ |val z.pat| ≤ Real.pi / 2 := by
  obtain ⟨f1, f2, f3⟩ := fracPi2_val
  have hpi := Real.pi_gt_three
  have hpi4 := Real.pi_le_four
  have hc := asinCut_val
  have k5 : (1 : ℝ) / 2 ^ 117 ≤ 1 := by norm_num
  rcases eq_or_lt_of_le h with g1 | g1
  · obtain ⟨a1, a2⟩ := fracPi2_signed_fin x
    obtain ⟨z, z1, z2, z3⟩ := C64_one x hx g1
    have e := (asin_branches hx).1 g1
    rw [e, Option.some_inj] at z1
    rw [e]
    refine ⟨_, rfl, a1, ?_, a2⟩
    rw [z1]
    refine z3.trans ?_
    have q : quantumExp z.pat = -236 := by
      rw [← z1]
      rcases sign01 x with g | g <;> rw [g] <;> decide +kernel
    rw [q]
    norm_num
  rcases le_or_gt |val x.pat| |val asinCut.pat| with g | g
  · refine ⟨x, (asin_branches hx).2.1 g, hx, ?_, by linarith⟩
    have k0 : (1 : ℝ) / 2 ^ 117 ≤ 1 / 256 := by norm_num
    refine (arcsin_cubic_abs (by linarith)).trans ?_
    have h3 := pow_le_pow_left₀ (abs_nonneg _) (g.trans hc.2.1.le) 3
    have k : 1001 / 6000 * (1 / 2 ^ 117 : ℝ) ^ 3 ≤ 1 / 2 ^ 131 := by norm_num
    linarith
  · obtain ⟨r, r1, r2, r3⟩ := asin_pre hx g g1
    have hs : 19 / 10 / 2 ^ 119 ≤ Real.sqrt (1 - val x.pat ^ 2) := sqrt_low (below_one hx g1) (by norm_num)
    have hp := pre_err (by positivity) hs
    have hR := FP492.toF256_spec r
    have hg := arcsin_ge (x := val x.pat) (by linarith)
    refine ⟨_, r1, ?_⟩
    generalize (sval r : ℝ) / 2 ^ 492 = X at *
    generalize Real.arcsin (val x.pat) = A at *
    have hr : |X - A| ≤ |val x.pat| * (1 - 1 / 100) / 2 ^ 131 := by
      refine (r2.trans (add_le_add_left hp _)).trans ?_
      have e1 : 1001 / 1000 * |val x.pat| / (19 / 10 / 2 ^ 119) / 2 ^ 250 + |val x.pat| / 2 ^ 250 =
        |val x.pat| * ((1001 / 1000 * (10 / 19) + 1 / 2 ^ 119)) / 2 ^ 131 := by ring
      rw [e1]
      have k : ((1001 / 1000 * (10 / 19) + 1 / 2 ^ 119) : ℝ) ≤ 1 - 1 / 100 := by norm_num
      exact div_le_div_of_nonneg_right (mul_le_mul_of_nonneg_left k (abs_nonneg _)) (by positivity)
    have b1 := abs_sub_abs_le_abs_sub A X
    rw [abs_sub_comm] at b1
    have c6 : |val x.pat| * (1 - 1 / 100) / 2 ^ 131 ≤ |val x.pat| * (1 - 1 / 100) / 8 :=
      div_le_div_of_nonneg_left (mul_nonneg (abs_nonneg _) (by norm_num)) (by norm_num) (by norm_num)
    have k1 : (1 : ℝ) / 2 ^ 1000 ≤ 1 / 2 ^ 118 / 2 := by norm_num
    have v0 : (0 : ℝ) < 1 / 2 ^ 118 := by positivity
    obtain ⟨z1, z2⟩ := rne_abs hR (by linarith) (by linarith)
    refine ⟨z1, ?_, ?_⟩
    · have t := abs_sub_le (val (FP492.toF256 r).pat) X A
      have k2 : (1 : ℝ) / 2 ^ 235 ≤ 1 / 100 / 2 ^ 131 := by norm_num
      have k3 : |val x.pat| * (1 - 1 / 100) / 2 ^ 131 ≤ 1 * (1 - 1 / 100) / 2 ^ 131 :=
        div_le_div_of_nonneg_right (mul_le_mul_of_nonneg_right h (by norm_num)) (by positivity)
      have k4 : (1 : ℝ) * (1 - 1 / 100) / 2 ^ 131 + 1 / 100 / 2 ^ 131 = 1 / 2 ^ 131 := by ring
      linarith
    · rw [abs_le] at r3
      have u1 := rne_le hR z1 FRAC_PI_2_rne fracPi2_fin r3.2
      have u2 := rne_le (isRNE_neg FRAC_PI_2_rne) (by decide +kernel) hR z1 r3.1
      rw [C18_neg_val] at u2
      rw [abs_le]
      constructor <;> linarith

end Verif.Props
