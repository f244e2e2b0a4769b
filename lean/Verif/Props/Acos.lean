import Verif.Props.Asin

/-!
# C65: the arc cosine

`Real.arccos` is that of Mathlib.
-/

set_option exponentiation.threshold 2000

namespace Verif.Props

open Verif Verif.Spec Verif.Trig Verif.FP492

theorem zero_or_neg {z : F256} (h : IsZero z.pat) : z = F256.ZERO ∨ z = F256.NEG_ZERO := by
  rw [isZero_iff] at h
  have hlt := pat_lt z
  rcases (by omega : z.pat = 0 ∨ z.pat = 2 ^ 255) with h1 | h1
  · left; exact pat_inj (by rw [h1]; decide)
  · right; exact pat_inj (by rw [h1]; decide)

theorem acos_zero {x : F256} (h : IsZero x.pat) : x.acos = some Consts.FRAC_PI_2 := by
  rcases zero_or_neg h with rfl | rfl <;> decide +kernel

/-- Below one, by how much is the result before rounding off? -/
theorem acos_pre {x : F256} (hx : IsFin x.pat) (h0 : ¬ IsZero x.pat) (h2 : |val x.pat| < 1) :
    ∃ r, x.acos = some (FP492.toF256 r) ∧ |(sval r : ℝ) / 2 ^ 492 - Real.arccos (val x.pat)| ≤
      1001 / 1000 * |val x.pat| / Real.sqrt (1 - val x.pat ^ 2) / 2 ^ 250 + 1 / 2 ^ 251 ∧
      1 / 2 ^ 211 ≤ (sval r : ℝ) / 2 ^ 492 ∧ (sval r : ℝ) / 2 ^ 492 ≤ Real.pi := by
  obtain ⟨q, r, q1, r1, e1, -, e3⟩ := asinRes_spec h0 (below_one hx h2)
  obtain ⟨c1, -, -, -, -, -, c7, -⟩ := fp_consts
  have hpi4 := Real.pi_le_four
  have hn : (sval r).natAbs ≤ 2 ^ 498 := by
    have k : (0 : ℝ) < 1 / 2 ^ 210 := by positivity
    have h2 : |(sval r : ℝ) / 2 ^ 492| ≤ 2 := by linarith
    rw [abs_div, abs_of_pos (by positivity : (0 : ℝ) < 2 ^ 492), div_le_iff₀ (by positivity)] at h2
    have h5 : |(sval r : ℝ)| = ((sval r).natAbs : ℝ) := by rw [Nat.cast_natAbs, Int.cast_abs]
    rw [h5] at h2
    have h6 : ((sval r).natAbs : ℝ) ≤ ((2 ^ 498 : ℕ) : ℝ) := by
      refine h2.trans ?_
      norm_num
    exact Nat.cast_le.mp h6
  have hsub : (sval (FP492.sub FP_FRAC_PI_2' r) : ℝ) / 2 ^ 492 = (sval FP_FRAC_PI_2 : ℝ) / 2 ^ 492 - (sval r : ℝ) / 2 ^ 492 := by
    rw [c1, sval_sub c7 hn, Int.cast_sub, sub_div]
  have hp := half_pi_fp
  refine ⟨FP492.sub FP_FRAC_PI_2' r, ?_, ?_⟩
  · rw [(acos_branches hx).2 h2, q1, Option.bind_eq_bind, Option.bind_some, r1, Option.bind_eq_bind, Option.bind_some]
    rfl
  rw [hsub]
  generalize (sval FP_FRAC_PI_2 : ℝ) / 2 ^ 492 = H at *
  generalize (sval r : ℝ) / 2 ^ 492 = R at *
  generalize 1001 / 1000 * |val x.pat| / Real.sqrt (1 - val x.pat ^ 2) / 2 ^ 250 = P at *
  have k1 : (1 : ℝ) / 2 ^ 492 + (1 / 2 ^ 252 + 6 / 2 ^ 492) ≤ 1 / 2 ^ 251 := by norm_num
  have k2 : (1 : ℝ) / 2 ^ 492 + 1 / 2 ^ 211 ≤ 1 / 2 ^ 210 := by norm_num
  have k3 : (1 : ℝ) / 2 ^ 492 ≤ 1 / 2 ^ 210 := by norm_num
  have ha : Real.arccos (val x.pat) = Real.pi / 2 - Real.arcsin (val x.pat) := rfl
  rw [ha]
  refine ⟨?_, ?_, ?_⟩
  · have t := abs_sub (H - Real.pi / 2) (R - Real.arcsin (val x.pat))
    rw [show H - Real.pi / 2 - (R - Real.arcsin (val x.pat)) = H - R - (Real.pi / 2 - Real.arcsin (val x.pat)) by ring] at t
    linarith
  · rw [abs_le] at e3 hp
    linarith
  · rw [abs_le] at e3 hp
    linarith

theorem arccos_bounds (v : ℝ) : 0 ≤ Real.arccos v ∧ Real.arccos v ≤ 4 :=
  ⟨Real.arccos_nonneg v, (Real.arccos_le_pi v).trans Real.pi_le_four⟩

theorem arccos_quarter {v : ℝ} (h : v ≤ 31 / 32) : 1 / 4 ≤ Real.arccos v := by
  have hc := Real.one_sub_sq_div_two_le_cos (x := 1 / 4)
  have h1 : v ≤ Real.cos (1 / 4) := by
    refine h.trans (le_trans ?_ hc)
    norm_num
  have := Real.arccos_le_arccos h1
  rw [Real.arccos_cos (by norm_num) (by linarith [Real.pi_gt_three])] at this
  exact this

/-- C65: not too close to one the arc cosine is at most 0.51 units in the last place off. -/
theorem C65_acos_partial (x : F256) (hx : IsFin x.pat) (h1 : -(1 - 1 / 2 ^ 12) ≤ val x.pat) (h2 : val x.pat ≤ 31 / 32) :
    WithinUlps 0.51 (Real.arccos (val x.pat)) x.acos := by
  have hpi := Real.pi_gt_three
  have hpi4 := Real.pi_le_four
  by_cases h0 : IsZero x.pat
  · rw [acos_zero h0, val_zero h0, Real.arccos_zero]
    have hb : |Real.pi / 2| ≤ 4 := by rw [abs_of_pos (by linarith)]; linarith
    obtain ⟨r1, r2⟩ := rne_rel (v := Real.pi / 2) FRAC_PI_2_rne (by linarith) hb (by
      rw [sub_self, abs_zero]; positivity)
    exact ⟨_, rfl, r1, r2.trans (by norm_num)⟩
  have c0 : (0 : ℝ) < 1 / 2 ^ 12 := by positivity
  have hlt : |val x.pat| < 1 := by rw [abs_lt]; constructor <;> linarith
  obtain ⟨r, r1, r2, r3, r4⟩ := acos_pre hx h0 hlt
  have hA : 1 / 4 ≤ Real.arccos (val x.pat) := arccos_quarter h2
  obtain ⟨-, hA4⟩ := arccos_bounds (val x.pat)
  have hR := FP492.toF256_spec r
  rw [r1]
  have hr : |(sval r : ℝ) / 2 ^ 492 - Real.arccos (val x.pat)| ≤ Real.arccos (val x.pat) * (4 / 5) / 2 ^ 244 := by
    refine r2.trans ?_
    rcases le_total 0 (val x.pat) with g | g
    · have hs : 24 / 100 ≤ Real.sqrt (1 - val x.pat ^ 2) :=
        sqrt_low (t := 1 / 32) (by rw [abs_of_nonneg g]; linarith) (by norm_num)
      refine (add_le_add_left (pre_err (by norm_num) hs) _).trans ?_
      have k1 : 1001 / 1000 * |val x.pat| / (24 / 100) / 2 ^ 250 ≤ 1001 / 1000 * 1 / (24 / 100) / 2 ^ 250 := by
        gcongr
      have k2 : (1001 / 1000 * 1 / (24 / 100) / 2 ^ 250 + 1 / 2 ^ 251 : ℝ) ≤ 1 / 4 * (4 / 5) / 2 ^ 244 := by norm_num
      have k3 : 1 / 4 * (4 / 5) / 2 ^ 244 ≤ Real.arccos (val x.pat) * (4 / 5) / 2 ^ 244 :=
        div_le_div_of_nonneg_right (mul_le_mul_of_nonneg_right hA (by norm_num)) (by positivity)
      linarith
    · have hA2 : 1 ≤ Real.arccos (val x.pat) := by
        have : Real.arccos 0 ≤ Real.arccos (val x.pat) := Real.arccos_le_arccos g
        rw [Real.arccos_zero] at this
        linarith
      have hs : 14 / 640 ≤ Real.sqrt (1 - val x.pat ^ 2) :=
        sqrt_low (t := 1 / 2 ^ 12) (by rw [abs_of_nonpos g]; linarith) (by norm_num)
      refine (add_le_add_left (pre_err (by norm_num) hs) _).trans ?_
      have k1 : 1001 / 1000 * |val x.pat| / (14 / 640) / 2 ^ 250 ≤ 1001 / 1000 * 1 / (14 / 640) / 2 ^ 250 := by
        gcongr
      have k2 : (1001 / 1000 * 1 / (14 / 640) / 2 ^ 250 + 1 / 2 ^ 251 : ℝ) ≤ 1 * (4 / 5) / 2 ^ 244 := by norm_num
      have k3 : 1 * (4 / 5) / 2 ^ 244 ≤ Real.arccos (val x.pat) * (4 / 5) / 2 ^ 244 :=
        div_le_div_of_nonneg_right (mul_le_mul_of_nonneg_right hA2 (by norm_num)) (by positivity)
      linarith
  generalize (sval r : ℝ) / 2 ^ 492 = X at *
  generalize Real.arccos (val x.pat) = A at *
  have k4 : (1 : ℝ) / 2 ^ 211 > 0 := by positivity
  have hX : |X| = X := abs_of_pos (by linarith)
  have c6 : A * (4 / 5) / 2 ^ 244 ≤ A * (4 / 5) / 8 :=
    div_le_div_of_nonneg_left (mul_nonneg (by linarith) (by norm_num)) (by norm_num) (by norm_num)
  have b3 : A * (4 / 5) ≤ |X| := by
    rw [hX]
    have := (abs_le.mp hr).1
    linarith
  obtain ⟨f1, f2⟩ := rne_rel hR (by linarith) (by linarith) (hr.trans (div_le_div_of_nonneg_right b3 (by positivity)))
  exact ⟨_, rfl, f1, f2.trans (by norm_num)⟩

theorem pi_facts : IsFin Consts.PI.pat ∧ 0 ≤ val Consts.PI.pat ∧ val Consts.PI.pat ≤ Real.pi := by
  have hf : IsFin Consts.PI.pat := by decide +kernel
  have h := fracPi2_val
  have hq : signBit Consts.PI.pat = 0 ∧ signBit Consts.FRAC_PI_2.pat = 0 ∧
      significandOf Consts.PI.pat = significandOf Consts.FRAC_PI_2.pat ∧ quantumExp Consts.PI.pat = -235 := by decide +kernel
  have e : val Consts.PI.pat = 2 * val Consts.FRAC_PI_2.pat := by
    rw [val, val, hq.1, hq.2.1, hq.2.2.1, hq.2.2.2, h.2.2]
    have : (2 : ℝ) ^ (-235 : ℤ) = 2 * 2 ^ (-236 : ℤ) := by norm_num
    rw [this]
    ring
  have hpi := Real.pi_gt_three
  have k : (1 : ℝ) / 2 ^ 237 ≤ 1 := by norm_num
  refine ⟨hf, ?_, ?_⟩ <;> rw [e] <;> linarith [h.1, h.2.1]

/-- C65: the arc cosine of 1 is 0 and that of -1 is π, rounded to nearest. -/
theorem C65_one (x : F256) (hx : IsFin x.pat) :
    (val x.pat = 1 → x.acos = some F256.ZERO) ∧ (val x.pat = -1 → x.acos = some Consts.PI ∧ IsRNE (Real.arccos (-1)) Consts.PI.pat) := by
  have hs := val_abs_sign x
  refine ⟨fun h => ?_, fun h => ?_⟩
  · rw [(acos_branches hx).1 (by rw [h, abs_one])]
    rw [C18_abs_val, h, abs_one, mul_one] at hs
    rcases sign01 x with g | g
    · rw [if_pos g]
    · rw [if_neg (by rw [g]; norm_num)] at hs
      norm_num at hs
  · rw [(acos_branches hx).1 (by rw [h, abs_neg, abs_one]), Real.arccos_neg_one]
    rw [C18_abs_val, h, abs_neg, abs_one, mul_one] at hs
    rcases sign01 x with g | g
    · rw [if_pos g] at hs
      norm_num at hs
    · rw [if_neg (by rw [g]; norm_num)]
      exact ⟨rfl, PI_rne⟩

/-- C65: outside of the domain the arc cosine is NaN. -/
theorem C65_outside (x : F256) (h : IsFin x.pat → 1 < |val x.pat|) : NaNResult x.acos :=
  ⟨_, acos_outside h, nan_isNaN⟩

/-- C65: on the whole domain there is no panic, the result is off by at most `2^-131`, and it is in the range from 0 to π. -/
theorem C65_total (x : F256) (hx : IsFin x.pat) (h : |val x.pat| ≤ 1) :
    ∃ z, x.acos = some z ∧ IsFin z.pat ∧ |val z.pat - Real.arccos (val x.pat)| ≤ 1 / 2 ^ 131 ∧ 0 ≤ val z.pat ∧
      val z.pat ≤ Real.pi := by
  obtain ⟨p1, p2, p3⟩ := pi_facts
  have hpi := Real.pi_gt_three
  have hpi4 := Real.pi_le_four
  have k0 : (1 : ℝ) / 2 ^ 235 ≤ 1 / 2 ^ 131 := by norm_num
  have k9 : (1 : ℝ) / 2 ^ 1000 ≤ 1 := by norm_num
  rcases eq_or_lt_of_le h with g1 | g1
  · rcases (abs_eq (by norm_num)).mp g1 with g | g
    · refine ⟨_, (C65_one x hx).1 g, by decide, ?_, ?_, ?_⟩
      · rw [g, Real.arccos_one, val_zero (by decide : IsZero F256.ZERO.pat), sub_self, abs_zero]
        positivity
      · rw [val_zero (by decide : IsZero F256.ZERO.pat)]
      · rw [val_zero (by decide : IsZero F256.ZERO.pat)]; linarith
    · obtain ⟨e1, e2⟩ := (C65_one x hx).2 g
      rw [Real.arccos_neg_one] at e2
      have hp : |Real.pi| = Real.pi := abs_of_pos (by linarith)
      refine ⟨_, e1, p1, ?_, p2, p3⟩
      rw [g, Real.arccos_neg_one]
      exact ((rne_abs e2 (by rw [hp]; linarith) (by rw [hp]; exact hpi4)).2).trans k0
  by_cases h0 : IsZero x.pat
  · obtain ⟨f1, f2, f3⟩ := fracPi2_val
    have k : (1 : ℝ) / 2 ^ 237 ≤ 1 := by norm_num
    refine ⟨_, acos_zero h0, fracPi2_fin, ?_, by linarith, by linarith⟩
    rw [val_zero h0, Real.arccos_zero, abs_le]
    have k1 : (1 : ℝ) / 2 ^ 237 ≤ 1 / 2 ^ 131 := by norm_num
    constructor <;> linarith
  obtain ⟨r, r1, r2, r3, r4⟩ := acos_pre hx h0 g1
  have hs : 19 / 10 / 2 ^ 119 ≤ Real.sqrt (1 - val x.pat ^ 2) := sqrt_low (below_one hx g1) (by norm_num)
  have hp := pre_err (by positivity) hs
  have hR := FP492.toF256_spec r
  refine ⟨_, r1, ?_⟩
  generalize (sval r : ℝ) / 2 ^ 492 = X at *
  generalize Real.arccos (val x.pat) = A at *
  have k1 : (1 : ℝ) / 2 ^ 1000 ≤ 1 / 2 ^ 211 := by norm_num
  have k2 : (0 : ℝ) < 1 / 2 ^ 211 := by positivity
  have hX : |X| = X := abs_of_pos (by linarith)
  obtain ⟨z1, z2⟩ := rne_abs hR (by rw [hX]; linarith) (by rw [hX]; linarith)
  refine ⟨z1, ?_, ?_, ?_⟩
  · have t := abs_sub_le (val (FP492.toF256 r).pat) X A
    have k3 : 1001 / 1000 * |val x.pat| / (19 / 10 / 2 ^ 119) / 2 ^ 250 ≤ 1001 / 1000 * 1 / (19 / 10 / 2 ^ 119) / 2 ^ 250 := by
      gcongr
    have k4 : (1001 / 1000 * 1 / (19 / 10 / 2 ^ 119) / 2 ^ 250 + 1 / 2 ^ 251 + 1 / 2 ^ 235 : ℝ) ≤ 1 / 2 ^ 131 := by norm_num
    linarith
  · have h1 := (abs_le.mp z2).1
    have k5 : (1 : ℝ) / 2 ^ 235 ≤ 1 / 2 ^ 211 := by norm_num
    linarith
  · exact (rne_le hR z1 PI_rne p1 r4).trans p3

/-! ## Close to one -/

/-- `1 - 2^-129` -/
def belowOne : F256 := ⟨⟨BitVec.ofNat 128 (262143 * 2 ^ 108 - 1), BitVec.ofNat 128 (2 ^ 128 - 2 ^ 108)⟩⟩

theorem belowOne_val : IsFin belowOne.pat ∧ val belowOne.pat = 1 - 1 / 2 ^ 129 := by
  have h : IsFin belowOne.pat ∧ signBit belowOne.pat = 0 ∧ significandOf belowOne.pat = 2 ^ 237 - 2 ^ 108 ∧
      quantumExp belowOne.pat = -237 := by decide +kernel
  obtain ⟨h0, h1, h2, h3⟩ := h
  refine ⟨h0, ?_⟩
  rw [val, h1, h2, h3]
  norm_num

theorem cos_gap {r a d s : ℝ} (hd : |r - a| ≤ d) (h0 : 0 ≤ r) (h1 : 0 ≤ a) (h2 : r ≤ s) (h3 : a ≤ s) :
    |Real.cos r - Real.cos a| ≤ d * s := by
  rw [Real.cos_sub_cos, abs_mul, abs_mul, abs_neg, abs_two]
  have e1 : |Real.sin ((r + a) / 2)| ≤ s := by
    refine Real.abs_sin_le_abs.trans ?_
    rw [abs_of_nonneg (by linarith)]
    linarith
  have e2 : |Real.sin ((r - a) / 2)| ≤ d / 2 := by
    refine Real.abs_sin_le_abs.trans ?_
    rw [abs_div, abs_two]
    linarith
  have d0 : 0 ≤ d := (abs_nonneg _).trans hd
  have := mul_le_mul e1 e2 (abs_nonneg _) (by linarith)
  linarith

/-- A number that is too large to be the arc cosine of `x` -/
theorem acos_far {x r d s : ℝ} (h0 : 0 ≤ r) (h1 : r ≤ 1) (hs : r + d ≤ s) (hx : x ≤ 1) (hx' : -1 ≤ x)
    (h : 1 - r ^ 2 / 2 + r ^ 4 * (5 / 96) + d * s < x) : d < |r - Real.arccos x| := by
  by_contra hc
  push Not at hc
  have hd : 0 ≤ d := (abs_nonneg _).trans hc
  have ha := (abs_le.mp hc).1
  have g := cos_gap (s := s) hc h0 (Real.arccos_nonneg x) (by linarith) (by linarith)
  rw [Real.cos_arccos hx' hx] at g
  have b := Real.cos_bound (x := r) (by rw [abs_of_nonneg h0]; exact h1)
  rw [abs_of_nonneg h0] at b
  have := (abs_le.mp g).1
  have := (abs_le.mp b).2
  linarith

/-- The arc cosine close to one is not that accurate: it may be off by more than `2^100` units in the last place. -/
theorem C65_near_one_false : IsFin belowOne.pat ∧ |val belowOne.pat| ≤ 1 ∧
    ¬ WithinUlps (2 ^ 100) (Real.arccos (val belowOne.pat)) belowOne.acos := by
  obtain ⟨n1, n2⟩ := belowOne_val
  have hx : val belowOne.pat ≤ 1 ∧ -1 ≤ val belowOne.pat := by
    rw [n2]
    constructor <;> norm_num
  refine ⟨n1, abs_le.mpr ⟨hx.2, hx.1⟩, ?_⟩
  rintro ⟨z, hz, -, hb⟩
  have e : belowOne.acos = some ⟨⟨85049498024246818128602746716604596224#128, 54086425609737787797192670096043#128⟩⟩ := by
    decide +kernel
  rw [e, Option.some_inj] at hz
  have f : signBit z.pat = 0 ∧ significandOf z.pat = 110427941548649020598956093796432407239271829980335922670397580250884779 ∧
      quantumExp z.pat = -300 := by
    rw [← hz]
    decide +kernel
  have hv : val z.pat = 110427941548649020598956093796432407239271829980335922670397580250884779 / 2 ^ 300 := by
    rw [val, f.1, f.2.1, f.2.2]
    norm_num
  have hq : (2 : ℝ) ^ 100 * 2 ^ (-300 : ℤ) = 1 / 2 ^ 200 := by norm_num
  rw [f.2.2, hq] at hb
  refine absurd hb (not_le.mpr (acos_far (s := 1 / 2 ^ 63) ?_ ?_ ?_ hx.1 hx.2 ?_))
  · rw [hv]; norm_num
  · rw [hv]; norm_num
  · rw [hv]; norm_num
  · rw [hv, n2]; norm_num

/-- The arc sine close to one is not that accurate either: it may be off by more than `2^38` units in the last place. -/
theorem C64_near_one_false : IsFin belowOne.pat ∧ |val belowOne.pat| ≤ 1 ∧
    ¬ WithinUlps (2 ^ 38) (Real.arcsin (val belowOne.pat)) belowOne.asin := by
  obtain ⟨n1, n2⟩ := belowOne_val
  have hx : val belowOne.pat ≤ 1 ∧ -1 ≤ val belowOne.pat := by
    rw [n2]
    constructor <;> norm_num
  refine ⟨n1, abs_le.mpr ⟨hx.2, hx.1⟩, ?_⟩
  rintro ⟨z, hz, -, hb⟩
  have e : belowOne.asin = some ⟨⟨85070452445679362461652620062657441819#128, 174929234171320688473765930655428517048#128⟩⟩ := by
    decide +kernel
  rw [e, Option.some_inj] at hz
  have f : signBit z.pat = 0 ∧ significandOf z.pat = 173459804960139429220047349599340677798138522377956913531571050316963000 ∧
      quantumExp z.pat = -236 := by
    rw [← hz]
    decide +kernel
  have hv : val z.pat = 173459804960139429220047349599340677798138522377956913531571050316963000 / 2 ^ 236 := by
    rw [val, f.1, f.2.1, f.2.2]
    norm_num
  have hq : (2 : ℝ) ^ 38 * 2 ^ (-236 : ℤ) = 1 / 2 ^ 198 := by norm_num
  rw [f.2.2, hq] at hb
  have hs := half_spec.2
  have hn : nat256 BigFloat.FRAC_PI_2.signif = 45471447111470790535029367847216232831674172166049053744846518889742361808273 := by decide +kernel
  have e1 : BigFloat.bval BigFloat.FRAC_PI_2 =
      ((1 : ℤ) : ℝ) * (nat256 BigFloat.FRAC_PI_2.signif : ℝ) * (2 : ℝ) ^ ((0 : ℤ) - 254) := rfl
  have e2 : (2 : ℝ) ^ ((0 : ℤ) - 254) = 1 / 2 ^ 254 := by norm_num
  rw [e1, e2, hn, Int.cast_one, one_mul, abs_le] at hs
  have ha : Real.arcsin (val belowOne.pat) = Real.pi / 2 - Real.arccos (val belowOne.pat) := by
    rw [Real.arccos]
    ring
  rw [ha, show val z.pat - (Real.pi / 2 - Real.arccos (val belowOne.pat)) =
    -((Real.pi / 2 - val z.pat) - Real.arccos (val belowOne.pat)) by ring, abs_neg] at hb
  have r1 : 1569275433846670190958947355801916604026357475452413136271 / 2 ^ 254 ≤ Real.pi / 2 - val z.pat := by
    rw [hv]
    push_cast at hs
    norm_num at hs ⊢
    linarith
  have r2 : Real.pi / 2 - val z.pat ≤ 1569275433846670190958947355801916604026357475452413136275 / 2 ^ 254 := by
    rw [hv]
    push_cast at hs
    norm_num at hs ⊢
    linarith
  generalize Real.pi / 2 - val z.pat = r at *
  have r0 : 0 ≤ r := le_trans (by norm_num) r1
  refine absurd hb (not_le.mpr (acos_far (s := 1 / 2 ^ 63) r0 ?_ ?_ hx.1 hx.2 ?_))
  · exact r2.trans (by norm_num)
  · refine (add_le_add_left r2 _).trans ?_
    norm_num
  · have p2 := pow_le_pow_left₀ (by norm_num) r1 2
    have p4 := pow_le_pow_left₀ r0 r2 4
    have k : (1 - (1569275433846670190958947355801916604026357475452413136271 / 2 ^ 254) ^ 2 / 2 + (1569275433846670190958947355801916604026357475452413136275 / 2 ^ 254) ^ 4 * (5 / 96) + 1 / 2 ^ 198 * (1 / 2 ^ 63) : ℝ) < 1 - 1 / 2 ^ 129 := by
      norm_num
    rw [n2]
    linarith

/-- Non-trivial arguments: `±½`, `2^-200` and `0.75` -/
example : ∀ y ∈ [twoPow (-1), (twoPow (-1)).negated, twoPow (-200), ⟨⟨BitVec.ofNat 128 (262142 * 2 ^ 108 + 2 ^ 107), 0⟩⟩],
    IsFin y.pat ∧ ¬ IsZero y.pat ∧ y.pat % 2 ^ 255 < F256.ONE.pat - 2 ^ 226 := by
  decide +kernel

end Verif.Props
