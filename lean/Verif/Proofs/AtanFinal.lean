import Verif.Proofs.AtanArg
import Verif.Proofs.Order

/-!
# From the pieces of the arc tangent to its rounded value
-/

set_option exponentiation.threshold 2000

namespace Verif.Trig

open FP492 Spec BigFloat

/-! ## Comparing absolute values -/

theorem abs_lt_iff {x y : F256} (hx : IsFin x.pat) (hy : IsFin y.pat) :
    nat256 (absBits x) < nat256 (absBits y) ↔ |val x.pat| < |val y.pat| := by
  rw [nat_absBits, nat_absBits, ← Props.C18_abs_val, ← Props.C18_abs_val, val_eq, val_eq, (Props.C18_abs x).1,
    (Props.C18_abs y).1, pow_zero, one_mul, one_mul, ← mag_abs x.abs.pat, ← mag_abs y.abs.pat, (Props.C18_abs x).2,
    (Props.C18_abs y).2, div_lt_div_iff_of_pos_right (by positivity), Nat.cast_lt]
  rw [fin_iff] at hx hy
  exact (mag_lt_iff hx hy).symm

theorem abs_eq_iff {x y : F256} (hx : IsFin x.pat) (hy : IsFin y.pat) :
    nat256 (absBits x) = nat256 (absBits y) ↔ |val x.pat| = |val y.pat| := by
  have h1 := abs_lt_iff hx hy
  have h2 := abs_lt_iff hy hx
  constructor
  · intro h
    refine le_antisymm (not_lt.mp fun c => ?_) (not_lt.mp fun c => ?_)
    · have := h2.mpr c; omega
    · have := h1.mpr c; omega
  · intro h
    by_contra c
    rcases Nat.lt_or_gt_of_ne c with c | c
    · exact absurd (h1.mp c) (by rw [h]; exact lt_irrefl _)
    · exact absurd (h2.mp c) (by rw [h]; exact lt_irrefl _)

/-! ## Rounding -/

theorem lt_thr4 {q : ℝ} (h : |q| ≤ 4) : |q| < overflowThreshold := by
  unfold overflowThreshold
  have h2 : (2 : ℝ) ^ (3 : ℤ) ≤ 2 ^ (262143 : ℤ) := zpow_le_zpow_right₀ (by norm_num) (by norm_num)
  have h5 : (2 : ℝ) ^ (3 : ℤ) = 8 := by norm_num
  have h6 : (1 : ℝ) ≤ 2 - (2 : ℝ) ^ (-237 : ℤ) := by
    have : (2 : ℝ) ^ (-237 : ℤ) ≤ 2 ^ (0 : ℤ) := zpow_le_zpow_right₀ (by norm_num) (by norm_num)
    rw [zpow_zero] at this
    linarith
  rw [h5] at h2
  have h7 := mul_le_mul h6 h2 (by norm_num) (by linarith)
  exact lt_of_le_of_lt h (lt_of_lt_of_le (by norm_num) h7)

/-- A number close to `v` rounds to within 0.51 units in the last place. -/
theorem rne_rel {a v : ℝ} {N : ℕ} (h : IsRNE a N) (ha : a ≠ 0) (h4 : |a| ≤ 4) (hv : |a - v| ≤ |a| / 2 ^ 244) :
    IsFin N ∧ |val N - v| ≤ 51 / 100 * (2 : ℝ) ^ quantumExp N := by
  have hlt := lt_thr4 h4
  refine ⟨h.fin hlt, ?_⟩
  obtain ⟨e, e1, e2⟩ := exists_mem_Ico_zpow (abs_pos.mpr ha) (by norm_num : (1 : ℝ) < 2)
  rw [zpow_add_one₀ (by norm_num), mul_comm] at e2
  have h3 : |a - v| ≤ 1 / 100 * 2 ^ (e - 236) := by
    have e3 : (2 : ℝ) ^ (e - 236) = 2 ^ e / 2 ^ 236 := by
      rw [zpow_sub₀ (by norm_num)]; norm_num
    rw [e3]
    refine hv.trans ?_
    have hp : (0 : ℝ) < 2 ^ e := zpow_pos (by norm_num) _
    have : |a| / 2 ^ 244 ≤ 2 * 2 ^ e / 2 ^ 244 := div_le_div_of_nonneg_right e2.le (by positivity)
    refine this.trans ?_
    generalize (2 : ℝ) ^ e = t at *
    rw [div_le_iff₀ (by positivity)]
    have e4 : 1 / 100 * (t / 2 ^ 236) * 2 ^ 244 = 256 / 100 * t := by
      field_simp; norm_num
    rw [e4]
    linarith
  refine (h.ulp_error hlt e1 (by norm_num) h3).trans (le_of_eq ?_)
  norm_num

/-- The same for a `BigFloat` -/
theorem big_rel {r : BigFloat} {v : ℝ} (h : Norm r) (h1 : 1 / 2 ^ 1000 ≤ |bval r|) (h4 : |bval r| ≤ 4)
    (hv : |bval r - v| ≤ |bval r| / 2 ^ 244) :
    IsFin (BigFloat.toF256 r).pat ∧ |val (BigFloat.toF256 r).pat - v| ≤ 51 / 100 * (2 : ℝ) ^ quantumExp (BigFloat.toF256 r).pat := by
  have u := h.upper
  have l := h.weaken.lower
  refine rne_rel (BigFloat.toF256_spec h ?_ ?_) h.weaken.ne_zero h4 hv
  · by_contra hc
    push Not at hc
    have : (2 : ℝ) ^ (r.exp + 1) ≤ 2 ^ (-1000 : ℤ) := zpow_le_zpow_right₀ (by norm_num) (by omega)
    have e : (2 : ℝ) ^ (-1000 : ℤ) = 1 / 2 ^ 1000 := by norm_num
    rw [e] at this
    linarith
  · by_contra hc
    push Not at hc
    have : (2 : ℝ) ^ (3 : ℤ) ≤ 2 ^ r.exp := zpow_le_zpow_right₀ (by norm_num) (by omega)
    have e : (2 : ℝ) ^ (3 : ℤ) = 8 := by norm_num
    rw [e] at this
    linarith

/-! ## Sums and differences that do not cancel -/

theorem bval_neg (x : BigFloat) : bval (neg x) = -bval x := by
  unfold bval neg
  dsimp only
  push_cast
  ring

theorem norm_neg {x : BigFloat} (h : Norm x) : Norm (neg x) := by
  refine ⟨?_, h.2⟩
  show Sgn (x.signum * -1)
  rcases h.1 with g | g <;> rw [g]
  · exact Or.inr rfl
  · exact Or.inl rfl

theorem bigAdd_spec {x y : BigFloat} (hx : Norm x) (hy : Norm y)
    (h : (|bval x| + |bval y|) / 2 ^ 253 < |bval x + bval y|) :
    ∃ r, BigFloat.add x y = some r ∧ Norm r ∧ |bval r - (bval x + bval y)| ≤ (|bval x| + |bval y|) / 2 ^ 253 := by
  obtain ⟨r, r1, r2, -, r3⟩ := add_core (Or.inr hx.weaken) (Or.inr hy.weaken) (fun c => absurd c.1 (by
    have := hx.2.2
    omega))
  have r4 := r3 hx.weaken.ne_zero hy.weaken.ne_zero
  refine ⟨r, r1, ?_, r4⟩
  rcases r2 with g | g | g | g
  · rw [g, bval_zero, zero_sub, abs_neg] at r4
    exact absurd h (not_lt.mpr r4)
  · exact g
  · rw [g]; exact hx
  · rw [g]; exact hy

theorem bigSub_spec {x y : BigFloat} (hx : Norm x) (hy : Norm y)
    (h : (|bval x| + |bval y|) / 2 ^ 253 < |bval x - bval y|) :
    ∃ r, BigFloat.sub x y = some r ∧ Norm r ∧ |bval r - (bval x - bval y)| ≤ (|bval x| + |bval y|) / 2 ^ 253 := by
  have hne : x ≠ y := by
    rintro rfl
    rw [sub_self, abs_zero] at h
    exact absurd h (not_lt.mpr (div_nonneg (add_nonneg (abs_nonneg _) (abs_nonneg _)) (pow_nonneg zero_le_two _)))
  unfold BigFloat.sub
  rw [if_neg hne]
  have := bigAdd_spec hx (norm_neg hy) (by rw [bval_neg, abs_neg, ← sub_eq_add_neg]; exact h)
  rw [bval_neg, abs_neg, ← sub_eq_add_neg] at this
  exact this

/-! ## The arc tangent of a quotient -/

theorem arctan_ge {t : ℝ} (h : |t| ≤ 1) : |t| / 2 ≤ |Real.arctan t| := by
  have key : ∀ t : ℝ, 0 ≤ t → t ≤ 1 → t / 2 ≤ Real.arctan t := by
    intro t h0 h1
    have a0 : 0 ≤ Real.arctan t := Real.arctan_nonneg.mpr h0
    have a1 : Real.arctan t ≤ 1 := by
      have := Real.arctan_mono h1
      rw [Real.arctan_one] at this
      linarith [Real.pi_lt_four]
    have a2 := Real.sin_le a0
    have a3 := Real.one_sub_sq_div_two_le_cos (x := Real.arctan t)
    have a4 : (Real.arctan t) ^ 2 ≤ 1 := by nlinarith
    have a5 : 1 / 2 ≤ Real.cos (Real.arctan t) := by linarith
    have a6 : t * Real.cos (Real.arctan t) = Real.sin (Real.arctan t) := by
      rw [← Real.tan_mul_cos (by linarith : Real.cos (Real.arctan t) ≠ 0), Real.tan_arctan]
    have a7 : t * (1 / 2) ≤ t * Real.cos (Real.arctan t) := mul_le_mul_of_nonneg_left a5 h0
    linarith
  rcases le_total 0 t with g | g
  · rw [abs_of_nonneg g] at h ⊢
    exact (key t g h).trans (le_abs_self _)
  · rw [abs_of_nonpos g] at h ⊢
    have := key (-t) (by linarith) h
    rw [Real.arctan_neg] at this
    exact this.trans (neg_le_abs _)

theorem approx_big {q : BigFloat} {t : ℝ} (hq : Norm q) (ht : |t| ≤ 1 - 1 / 2 ^ 238) (h : |bval q - t| ≤ |t| / 2 ^ 252) :
    ∃ r, approxAtan (FP492.fromBigFloat q) = some r ∧
      |(sval r : ℝ) / 2 ^ 492 - Real.arctan t| ≤ |t| / 2 ^ 252 + 5 / 2 ^ 492 := by
  have hd : |t| / 2 ^ 252 ≤ 1 / 2 ^ 252 := div_le_div_of_nonneg_right (ht.trans (by norm_num)) (by positivity)
  have hb : |bval q| ≤ 1 - 1 / 2 ^ 239 := by
    have h1 := abs_sub_abs_le_abs_sub (bval q) t
    have h2 : (1 : ℝ) / 2 ^ 252 ≤ 1 / 2 ^ 238 - 1 / 2 ^ 239 := by norm_num
    linarith
  have hf := fromBigFloat_spec (Or.inr hq.weaken) (hb.trans (by norm_num))
  have hn : (sval (FP492.fromBigFloat q)).natAbs < 2 ^ 492 := by
    have h1 := abs_sub_abs_le_abs_sub (sval (FP492.fromBigFloat q) : ℝ) (bval q * 2 ^ 492)
    rw [abs_mul, abs_of_pos (by positivity : (0 : ℝ) < 2 ^ 492)] at h1
    have h2 := mul_le_mul_of_nonneg_right hb (by positivity : (0 : ℝ) ≤ 2 ^ 492)
    have h3 : (1 - 1 / 2 ^ 239 : ℝ) * 2 ^ 492 + 1 < 2 ^ 492 := by norm_num
    have h4 : |(sval (FP492.fromBigFloat q) : ℝ)| < 2 ^ 492 := by linarith
    have h5 : |(sval (FP492.fromBigFloat q) : ℝ)| = ((sval (FP492.fromBigFloat q)).natAbs : ℝ) := by
      rw [Nat.cast_natAbs, Int.cast_abs]
    rw [h5] at h4
    exact_mod_cast h4
  obtain ⟨r, r1, r2⟩ := approxAtan_spec hn
  refine ⟨r, r1, ?_⟩
  have l := arctan_lip ((sval (FP492.fromBigFloat q) : ℝ) / 2 ^ 492) t
  generalize (sval (FP492.fromBigFloat q) : ℝ) = X at *
  generalize (sval r : ℝ) = R at *
  generalize bval q = Q at *
  have hW : (0 : ℝ) < 2 ^ 492 := by positivity
  have e1 : |R / 2 ^ 492 - Real.arctan (X / 2 ^ 492)| ≤ 4 / 2 ^ 492 := by
    have : R / 2 ^ 492 - Real.arctan (X / 2 ^ 492) = (R - Real.arctan (X / 2 ^ 492) * 2 ^ 492) / 2 ^ 492 := by
      rw [sub_div, mul_div_assoc, div_self hW.ne', mul_one]
    rw [this, abs_div, abs_of_pos hW]
    exact div_le_div_of_nonneg_right r2 hW.le
  have e2 : |X / 2 ^ 492 - Q| ≤ 1 / 2 ^ 492 := by
    have : X / 2 ^ 492 - Q = (X - Q * 2 ^ 492) / 2 ^ 492 := by
      rw [sub_div, mul_div_assoc, div_self hW.ne', mul_one]
    rw [this, abs_div, abs_of_pos hW]
    exact div_le_div_of_nonneg_right hf hW.le
  have e3 : (5 : ℝ) / 2 ^ 492 = 4 / 2 ^ 492 + 1 / 2 ^ 492 := by rw [← add_div]; norm_num
  rw [e3]
  clear hW hf r2 hd hb ht hq r1 hn
  generalize (4 : ℝ) / 2 ^ 492 = A at *
  generalize (1 : ℝ) / 2 ^ 492 = B at *
  generalize |t| / 2 ^ 252 = C at *
  have t1 := abs_sub_le (R / 2 ^ 492) (Real.arctan (X / 2 ^ 492)) (Real.arctan t)
  have t2 := abs_sub_le (X / 2 ^ 492) Q t
  linarith

/-! ## The constants -/

theorem bigHalf_check : (let S := TWO_OVER_PI >>> 261872
    let N := nat256 BigFloat.FRAC_PI_2.signif
    decide ((N - 2) * (S + 1) ≤ 2 ^ 1254) && decide (2 ^ 1254 ≤ (N + 2) * S) && decide (2 ^ 254 ≤ N) &&
    decide (N < 2 ^ 255)) = true := by decide +kernel

theorem half_spec : Norm BigFloat.FRAC_PI_2 ∧ |Real.pi / 2 - bval BigFloat.FRAC_PI_2| ≤ 2 / 2 ^ 254 := by
  have h := bigHalf_check
  obtain ⟨w1, w2⟩ := window1000
  dsimp only at h
  have e1 : bval BigFloat.FRAC_PI_2 = ((1 : ℤ) : ℝ) * (nat256 BigFloat.FRAC_PI_2.signif : ℝ) * (2 : ℝ) ^ ((0 : ℤ) - 254) := rfl
  have sg : Sgn BigFloat.FRAC_PI_2.signum := Or.inl rfl
  generalize TWO_OVER_PI >>> 261872 = S at *
  unfold BigFloat.Norm
  generalize nat256 BigFloat.FRAC_PI_2.signif = N at *
  simp only [Bool.and_eq_true, decide_eq_true_iff] at h
  obtain ⟨⟨⟨h1, h2⟩, h3⟩, h4⟩ := h
  refine ⟨⟨sg, h3, h4⟩, ?_⟩
  rw [e1, show ((0 : ℤ) - 254) = -((254 : ℕ) : ℤ) by norm_num, zpow_neg, zpow_natCast, Int.cast_one, one_mul, ← div_eq_mul_inv]
  exact half_pi_near (k := 254) w1 w2 h1 h2 (le_trans (by norm_num) h3)

theorem pi_spec : Norm BigFloat.PI ∧ |Real.pi - bval BigFloat.PI| ≤ 4 / 2 ^ 254 := by
  obtain ⟨h1, h2⟩ := half_spec
  have e : bval BigFloat.PI = 2 * bval BigFloat.FRAC_PI_2 := by
    have e1 : bval BigFloat.FRAC_PI_2 = ((1 : ℤ) : ℝ) * (nat256 BigFloat.FRAC_PI_2.signif : ℝ) * (2 : ℝ) ^ ((0 : ℤ) - 254) := rfl
    have e2 : bval BigFloat.PI = ((1 : ℤ) : ℝ) * (nat256 BigFloat.FRAC_PI_2.signif : ℝ) * (2 : ℝ) ^ ((1 : ℤ) - 254) := rfl
    rw [e1, e2, show ((1 : ℤ) - 254) = 0 - 254 + 1 by norm_num, zpow_add_one₀ (by norm_num)]
    ring
  refine ⟨⟨Or.inl rfl, h1.2⟩, ?_⟩
  rw [e, show Real.pi - 2 * bval BigFloat.FRAC_PI_2 = 2 * (Real.pi / 2 - bval BigFloat.FRAC_PI_2) by ring, abs_mul, abs_two,
    show (4 : ℝ) / 2 ^ 254 = 2 * (2 / 2 ^ 254) by rw [← mul_div_assoc]; norm_num]
  exact mul_le_mul_of_nonneg_left h2 zero_le_two

/-! ## Combining approximations -/

/-- `S` is zero or normalised and at most `k / 2^252` away from `v`. -/
def Near (S : BigFloat) (v k : ℝ) : Prop := (S = BigFloat.ZERO ∨ BigFloat.Norm S) ∧ |bval S - v| ≤ k / 2 ^ 252

theorem near_half : Near BigFloat.FRAC_PI_2 (Real.pi / 2) 1 := by
  refine ⟨Or.inr half_spec.1, ?_⟩
  rw [abs_sub_comm]
  exact half_spec.2.trans (by norm_num)

theorem near_pi : Near BigFloat.PI Real.pi 1 := by
  refine ⟨Or.inr pi_spec.1, ?_⟩
  rw [abs_sub_comm]
  exact pi_spec.2.trans (by norm_num)

theorem Near.neg {S : BigFloat} {v k : ℝ} (h : Near S v k) : Near (BigFloat.neg S) (-v) k := by
  refine ⟨?_, ?_⟩
  · rcases h.1 with g | g
    · rw [g]; exact Or.inl (by decide)
    · exact Or.inr (norm_neg g)
  · rw [bval_neg, neg_sub_neg, abs_sub_comm]
    exact h.2

theorem toBig_zero {r : FP492} (h : sval r = 0) : toBigFloat r = BigFloat.ZERO := by
  have : UInt.nat r = 0 := by
    have := sval_mod r
    have h2 := nat_lt r
    rw [h] at this
    omega
  have e : r = FP492.ZERO := by
    refine nat_inj ?_
    rw [this]
    decide
  rw [e]
  decide +kernel

theorem near_approx {r : FP492} {a : ℝ} (ha : |a| ≤ 1) (h : |(sval r : ℝ) / 2 ^ 492 - a| ≤ 1 / 2 ^ 252 + 5 / 2 ^ 492) :
    Near (toBigFloat r) a 3 := by
  have hs : (1 : ℝ) / 2 ^ 252 + 5 / 2 ^ 492 ≤ 3 / 2 / 2 ^ 252 := by norm_num
  have h1 : |(sval r : ℝ) / 2 ^ 492| ≤ 2 := by
    have := abs_sub_abs_le_abs_sub ((sval r : ℝ) / 2 ^ 492) a
    have h3 : (3 : ℝ) / 2 / 2 ^ 252 ≤ 1 := by norm_num
    linarith
  by_cases h0 : sval r = 0
  · rw [toBig_zero h0]
    refine ⟨Or.inl rfl, ?_⟩
    rw [h0, Int.cast_zero, zero_div] at h
    rw [bval_zero]
    refine h.trans (hs.trans ?_)
    norm_num
  · have hb : (sval r).natAbs ≤ 2 ^ 500 := by
      rw [abs_div, abs_of_pos (by positivity : (0 : ℝ) < 2 ^ 492), div_le_iff₀ (by positivity)] at h1
      have h5 : |(sval r : ℝ)| = ((sval r).natAbs : ℝ) := by rw [Nat.cast_natAbs, Int.cast_abs]
      rw [h5] at h1
      have h6 : ((sval r).natAbs : ℝ) ≤ 2 ^ 500 := h1.trans (by norm_num)
      exact_mod_cast h6
    obtain ⟨t1, t2⟩ := FP492.toBigFloat_spec h0 hb
    refine ⟨Or.inr t1, ?_⟩
    have t3 : |(sval r : ℝ) / 2 ^ 492| / 2 ^ 254 ≤ 1 / 2 / 2 ^ 252 := by
      refine (div_le_div_of_nonneg_right h1 (by positivity)).trans ?_
      norm_num
    have t4 := abs_sub_le (bval (toBigFloat r)) ((sval r : ℝ) / 2 ^ 492) a
    have t5 : (3 : ℝ) / 2 ^ 252 = 1 / 2 / 2 ^ 252 + 3 / 2 / 2 ^ 252 + 1 / 2 ^ 252 := by norm_num
    have t6 : (0 : ℝ) ≤ 1 / 2 ^ 252 := by positivity
    rw [t5]
    linarith

theorem near_size {S : BigFloat} {v k : ℝ} (h : Near S v k) (hk : k ≤ 20) : |bval S| ≤ |v| + 1 / 100 := by
  have h1 := abs_sub_abs_le_abs_sub (bval S) v
  have h2 : k / 2 ^ 252 ≤ 20 / 2 ^ 252 := div_le_div_of_nonneg_right hk (by positivity)
  have h3 : (20 : ℝ) / 2 ^ 252 ≤ 1 / 100 := by norm_num
  linarith [h.2]

theorem near_add {X Y : BigFloat} {u w k l : ℝ} (hX : Near X u k) (hY : Near Y w l) (hk : k ≤ 20) (hl : l ≤ 20)
    (hu : |u| ≤ 33 / 10) (hw : |w| ≤ 33 / 10) (hX0 : BigFloat.Norm Y ∨ X = BigFloat.ZERO ∨ -254 ≤ X.exp)
    (h : 1 / 2 ≤ |u + w|) : ∃ S, BigFloat.add X Y = some S ∧ BigFloat.Norm S ∧ Near S (u + w) (k + l + 4) := by
  have sX := near_size hX hk
  have sY := near_size hY hl
  have kp : 0 ≤ k / 2 ^ 252 := (abs_nonneg _).trans hX.2
  have lp : 0 ≤ l / 2 ^ 252 := (abs_nonneg _).trans hY.2
  have eX : k / 2 ^ 252 ≤ 1 / 100 := (div_le_div_of_nonneg_right hk (by positivity)).trans (by norm_num)
  have eY : l / 2 ^ 252 ≤ 1 / 100 := (div_le_div_of_nonneg_right hl (by positivity)).trans (by norm_num)
  have e4 : (0 : ℝ) ≤ 4 / 2 ^ 252 := by positivity
  have tri : |bval X + bval Y - (u + w)| ≤ k / 2 ^ 252 + l / 2 ^ 252 := by
    have : bval X + bval Y - (u + w) = (bval X - u) + (bval Y - w) := by ring
    rw [this]
    exact (abs_add_le _ _).trans (add_le_add hX.2 hY.2)
  have goal0 : ∀ S : BigFloat, BigFloat.Norm S → bval S = bval X + bval Y → Near S (u + w) (k + l + 4) := by
    intro S hS e
    refine ⟨Or.inr hS, ?_⟩
    rw [e, add_div, add_div]
    linarith
  have sum : 1 / 4 < |bval X + bval Y| := by
    have := abs_sub_abs_le_abs_sub (u + w) (bval X + bval Y)
    rw [abs_sub_comm] at this
    linarith
  rcases hX.1 with gX | nX
  · have gY : BigFloat.Norm Y := by
      rcases hY.1 with gY | gY
      · rw [gX, gY, bval_zero, add_zero, abs_zero] at sum
        exact absurd sum (by norm_num)
      · exact gY
    refine ⟨Y, ?_, gY, goal0 Y gY (by rw [gX, bval_zero, zero_add])⟩
    rw [gX]
    unfold BigFloat.add
    dsimp only
    rw [if_pos (Or.inl isZero_zero)]
  · rcases hY.1 with gY | nY
    · refine ⟨X, ?_, nX, goal0 X nX (by rw [gY, bval_zero, add_zero])⟩
      have hexp : -254 ≤ X.exp := by
        rcases hX0 with g | g | g
        · rw [gY] at g
          exact absurd g.1 (by unfold Sgn; decide)
        · rw [g]; decide
        · exact g
      have hz : X.isZero = false := isZero_false nX.1
      rw [gY]
      unfold BigFloat.add
      dsimp only
      rw [hz, if_neg, if_pos (Or.inl isZero_zero)]
      rintro (c | c)
      · exact Bool.false_ne_true c
      · rw [show BigFloat.ZERO.exp = 0 from rfl] at c
        omega
    · have small : (|bval X| + |bval Y|) / 2 ^ 253 ≤ 4 / 2 ^ 252 := by
        have : |bval X| + |bval Y| ≤ 8 := by linarith
        refine (div_le_div_of_nonneg_right this (by positivity)).trans ?_
        norm_num
      have t4 : (4 : ℝ) / 2 ^ 252 < 1 / 4 := by norm_num
      obtain ⟨S, S1, S2, S3⟩ := bigAdd_spec nX nY (by linarith)
      refine ⟨S, S1, S2, Or.inr S2, ?_⟩
      have := abs_sub_le (bval S) (bval X + bval Y) (u + w)
      rw [add_div, add_div]
      linarith

theorem near_sub {X Y : BigFloat} {u w k l : ℝ} (hX : Near X u k) (hY : Near Y w l) (hk : k ≤ 20) (hl : l ≤ 20)
    (hu : |u| ≤ 33 / 10) (hw : |w| ≤ 33 / 10) (hX0 : BigFloat.Norm Y ∨ X = BigFloat.ZERO ∨ -254 ≤ X.exp)
    (h : 1 / 2 ≤ |u - w|) : ∃ S, BigFloat.sub X Y = some S ∧ BigFloat.Norm S ∧ Near S (u - w) (k + l + 4) := by
  have hne : X ≠ Y := by
    rintro rfl
    have h1 := hX.2
    have h2 := hY.2
    have eX : k / 2 ^ 252 ≤ 1 / 100 := (div_le_div_of_nonneg_right hk (by positivity)).trans (by norm_num)
    have eY : l / 2 ^ 252 ≤ 1 / 100 := (div_le_div_of_nonneg_right hl (by positivity)).trans (by norm_num)
    have := abs_sub_le u (bval X) w
    rw [abs_sub_comm u (bval X)] at this
    linarith
  unfold BigFloat.sub
  rw [if_neg hne]
  have := near_add hX hY.neg hk hl hu (by rwa [abs_neg]) (hX0.imp_left norm_neg) (by rwa [← sub_eq_add_neg])
  rwa [← sub_eq_add_neg] at this

/-- The final rounding -/
theorem near_round {S : BigFloat} {v k : ℝ} (hS : BigFloat.Norm S) (h : Near S v k) (hk : k ≤ 20) (h1 : 1 / 2 ≤ |v|) (h2 : |v| ≤ 33 / 10) :
    IsFin (BigFloat.toF256 S).pat ∧ |val (BigFloat.toF256 S).pat - v| ≤ 51 / 100 * (2 : ℝ) ^ quantumExp (BigFloat.toF256 S).pat := by
  have s := near_size h hk
  have eX : k / 2 ^ 252 ≤ 20 / 2 ^ 252 := div_le_div_of_nonneg_right hk (by positivity)
  have e1 : (20 : ℝ) / 2 ^ 252 ≤ 1 / 4 / 2 ^ 244 := by norm_num
  have e3 : (20 : ℝ) / 2 ^ 252 ≤ 1 / 4 := by norm_num
  have l : 1 / 4 ≤ |bval S| := by
    have := abs_sub_abs_le_abs_sub v (bval S)
    rw [abs_sub_comm] at this
    linarith [h.2]
  refine big_rel hS (le_trans (by norm_num) l) (by linarith) ?_
  refine (h.2.trans (eX.trans e1)).trans ?_
  exact div_le_div_of_nonneg_right l (by positivity)

end Verif.Trig
