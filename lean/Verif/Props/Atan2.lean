import Mathlib.Analysis.SpecialFunctions.Complex.Arg
import Verif.Props.Atan
import Verif.Props.Mul

/-!
# C63: the arc tangent with two arguments

The exact result is the argument of the complex number `x + iy`; `Complex.arg` is that of Mathlib.
-/

set_option exponentiation.threshold 2000

namespace Verif.Props

open Verif Verif.Spec Verif.Trig Verif.FP492

/-! ## The argument of a complex number in terms of the arc tangent -/

theorem arg_polar {r t : ℝ} (hr : 0 < r) (h1 : -Real.pi < t) (h2 : t ≤ Real.pi) :
    Complex.arg ⟨r * Real.cos t, r * Real.sin t⟩ = t := by
  have e : (⟨r * Real.cos t, r * Real.sin t⟩ : ℂ) = (r : ℂ) * (Complex.cos t + Complex.sin t * Complex.I) := by
    rw [← Complex.ofReal_cos, ← Complex.ofReal_sin]
    apply Complex.ext <;> simp [Complex.cos_ofReal_re, Complex.sin_ofReal_re]
  rw [e]
  exact Complex.arg_mul_cos_add_sin_mul_I hr ⟨h1, h2⟩

theorem arctan_polar {a : ℝ} (b : ℝ) (ha : a ≠ 0) :
    ∃ r : ℝ, a = r * Real.cos (Real.arctan (b / a)) ∧ b = r * Real.sin (Real.arctan (b / a)) ∧ (0 < r ↔ 0 < a) ∧ (r < 0 ↔ a < 0) := by
  have hc := Real.cos_arctan_pos (b / a)
  have ht : Real.sin (Real.arctan (b / a)) = b / a * Real.cos (Real.arctan (b / a)) := by
    have := Real.tan_arctan (b / a)
    rw [Real.tan_eq_sin_div_cos, div_eq_iff hc.ne'] at this
    exact this
  refine ⟨a / Real.cos (Real.arctan (b / a)), ?_, ?_, div_pos_iff_of_pos_right hc, ?_⟩
  · field_simp
  · rw [ht]; field_simp
  · rw [div_lt_iff₀ hc, zero_mul]

theorem arg_right {a : ℝ} (b : ℝ) (ha : 0 < a) : Complex.arg ⟨a, b⟩ = Real.arctan (b / a) := by
  obtain ⟨r, h1, h2, h3, -⟩ := arctan_polar b ha.ne'
  have l1 := Real.arctan_lt_pi_div_two (b / a)
  have l2 := Real.neg_pi_div_two_lt_arctan (b / a)
  have := Real.pi_pos
  have := arg_polar (h3.mpr ha) (t := Real.arctan (b / a)) (by linarith) (by linarith)
  rwa [← h1, ← h2] at this

theorem arg_left_up {a b : ℝ} (ha : a < 0) (hb : 0 < b) : Complex.arg ⟨a, b⟩ = Real.arctan (b / a) + Real.pi := by
  obtain ⟨r, h1, h2, -, h3⟩ := arctan_polar b ha.ne
  have l1 : Real.arctan (b / a) < 0 := by
    have := Real.arctan_strictMono (div_neg_of_pos_of_neg hb ha)
    rwa [Real.arctan_zero] at this
  have l2 := Real.neg_pi_div_two_lt_arctan (b / a)
  have := Real.pi_pos
  have := arg_polar (r := -r) (by linarith [h3.mpr ha]) (t := Real.arctan (b / a) + Real.pi) (by linarith) (by linarith)
  rwa [Real.cos_add_pi, Real.sin_add_pi, neg_mul_neg, neg_mul_neg, ← h1, ← h2] at this

theorem arg_left_down {a b : ℝ} (ha : a < 0) (hb : b < 0) : Complex.arg ⟨a, b⟩ = Real.arctan (b / a) - Real.pi := by
  obtain ⟨r, h1, h2, -, h3⟩ := arctan_polar b ha.ne
  have l1 : 0 < Real.arctan (b / a) := by
    have := Real.arctan_strictMono (div_pos_of_neg_of_neg hb ha)
    rwa [Real.arctan_zero] at this
  have l2 := Real.arctan_lt_pi_div_two (b / a)
  have := Real.pi_pos
  have := arg_polar (r := -r) (by linarith [h3.mpr ha]) (t := Real.arctan (b / a) - Real.pi) (by linarith) (by linarith)
  rwa [Real.cos_sub_pi, Real.sin_sub_pi, neg_mul_neg, neg_mul_neg, ← h1, ← h2] at this

/-! ## Finite operands other than zero -/

theorem sign_pos {x : F256} (hf : IsFin x.pat) (h0 : ¬ IsZero x.pat) (h : x.sign = 0) : 0 < val x.pat := by
  have := val_abs_sign x
  rw [if_pos h, one_mul, C18_abs_val] at this
  rw [this]
  exact abs_pos.mpr (val_ne_zero hf h0)

theorem sign_neg {x : F256} (hf : IsFin x.pat) (h0 : ¬ IsZero x.pat) (h : x.sign = 1) : val x.pat < 0 := by
  have := val_abs_sign x
  rw [if_neg (by rw [h]; norm_num), C18_abs_val] at this
  have := abs_pos.mpr (val_ne_zero hf h0)
  linarith

/-- The constant chosen by the sign of the quotient -/
def halfOf (y x : F256) : BigFloat :=
  if (y.sign + x.sign) % 2 = 0 then BigFloat.FRAC_PI_2 else BigFloat.neg BigFloat.FRAC_PI_2

/-- The last steps of `atan2` -/
def atan2Tail (y x : F256) (a : BigFloat) : Option F256 := do
  let a ← if x.sign = 0 then pure a
    else if y.sign = 0 then BigFloat.add a BigFloat.PI
    else BigFloat.sub a BigFloat.PI
  return BigFloat.toF256 a

/-- The branches of `atan2` for finite operands other than zero -/
theorem atan2_branches {x y : F256} (hx : IsFin x.pat) (hy : IsFin y.pat) (x0 : ¬ IsZero x.pat) (y0 : ¬ IsZero y.pat) :
    (|val y.pat| < |val x.pat| → y.atan2 x = (do
      let q ← BigFloat.div (BigFloat.fromF256 y) (BigFloat.fromF256 x)
      let r ← approxAtan (FP492.fromBigFloat q)
      atan2Tail y x (FP492.toBigFloat r))) ∧
    (|val x.pat| < |val y.pat| → y.atan2 x = (do
      let q ← BigFloat.div (BigFloat.fromF256 x) (BigFloat.fromF256 y)
      let r ← approxAtan (FP492.fromBigFloat q)
      let a ← BigFloat.sub (halfOf y x) (FP492.toBigFloat r)
      atan2Tail y x a)) ∧
    (|val y.pat| = |val x.pat| → y.atan2 x = atan2Tail y x (halfOf y x)) := by
  have hs := anySpecial2_false (x := x) (y := y) ⟨hx, x0⟩ ⟨hy, y0⟩
  have i1 := abs_lt_iff hy hx
  have i2 := abs_lt_iff hx hy
  have e : y.atan2 x = if nat256 (absBits y) < nat256 (absBits x) then (do
        let q ← BigFloat.div (BigFloat.fromF256 y) (BigFloat.fromF256 x)
        let r ← approxAtan (FP492.fromBigFloat q)
        atan2Tail y x (FP492.toBigFloat r))
      else if nat256 (absBits x) < nat256 (absBits y) then (do
        let q ← BigFloat.div (BigFloat.fromF256 x) (BigFloat.fromF256 y)
        let r ← approxAtan (FP492.fromBigFloat q)
        let a ← BigFloat.sub (halfOf y x) (FP492.toBigFloat r)
        atan2Tail y x a)
      else atan2Tail y x (halfOf y x) := by
    unfold F256.atan2
    dsimp only
    rw [hs, if_neg Bool.false_ne_true, BigFloat.lt256, BigFloat.gt256]
    simp only [decide_eq_true_iff]
    split
    · simp only [pure_bind]
      rfl
    · split
      · rfl
      · rfl
  rw [e]
  clear e
  refine ⟨fun g => ?_, fun g => ?_, fun g => ?_⟩
  · rw [if_pos (i1.mpr g)]
  · rw [if_neg (fun c => absurd (i1.mp c) (not_lt.mpr g.le)), if_pos (i2.mpr g)]
  · rw [if_neg (fun c => absurd (i1.mp c) (not_lt.mpr g.ge)), if_neg (fun c => absurd (i2.mp c) (not_lt.mpr g.le))]

/-- The last steps, once the arc tangent of the quotient is known to an absolute accuracy -/
theorem atan2Tail_spec {x y : F256} (hx : IsFin x.pat) (hy : IsFin y.pat) (x0 : ¬ IsZero x.pat) (y0 : ¬ IsZero y.pat) {A : BigFloat} {k : ℝ} (hk : k ≤ 10)
    (nA : Near A (Real.arctan (val y.pat / val x.pat)) k)
    (h : x.sign = 1 ∨ (BigFloat.Norm A ∧ 1 / 2 ≤ |Real.arctan (val y.pat / val x.pat)|)) :
    WithinUlps 0.51 (Complex.arg ⟨val x.pat, val y.pat⟩) (atan2Tail y x A) := by
  have hpi := Real.pi_gt_three
  have hpi2 := Real.pi_lt_d2
  have l1 := Real.arctan_lt_pi_div_two (val y.pat / val x.pat)
  have l2 := Real.neg_pi_div_two_lt_arctan (val y.pat / val x.pat)
  have lb : |Real.arctan (val y.pat / val x.pat)| ≤ 33 / 10 := by rw [abs_le]; constructor <;> linarith
  have lp : |Real.pi| ≤ 33 / 10 := by rw [abs_le]; constructor <;> linarith
  unfold atan2Tail
  rcases sign01 x with gx | gx
  · obtain ⟨nrm, low⟩ := h.resolve_left (by rw [gx]; norm_num)
    rw [if_pos gx, pure_bind, arg_right _ (sign_pos hx x0 gx)]
    obtain ⟨f1, f2⟩ := near_round nrm nA (by linarith) low lb
    exact ⟨_, rfl, f1, f2.trans (by norm_num)⟩
  · have hxn := sign_neg hx x0 gx
    rw [if_neg (by rw [gx]; norm_num)]
    rcases sign01 y with gy | gy
    · have hyn := sign_pos hy y0 gy
      rw [if_pos gy, arg_left_up hxn hyn]
      have l3 : Real.arctan (val y.pat / val x.pat) < 0 := by
        have := Real.arctan_strictMono (div_neg_of_pos_of_neg hyn hxn)
        rwa [Real.arctan_zero] at this
      have e2 : 1 / 2 ≤ |Real.arctan (val y.pat / val x.pat) + Real.pi| := le_trans (by linarith) (le_abs_self _)
      obtain ⟨S, S1, S2, S3⟩ := near_add nA near_pi (by linarith) (by norm_num) lb lp (Or.inl pi_spec.1) e2
      rw [S1, Option.bind_eq_bind, Option.bind_some]
      obtain ⟨f1, f2⟩ := near_round S2 S3 (by linarith) e2 (by rw [abs_le]; constructor <;> linarith)
      exact ⟨_, rfl, f1, f2.trans (by norm_num)⟩
    · have hyn := sign_neg hy y0 gy
      rw [if_neg (by rw [gy]; norm_num), arg_left_down hxn hyn]
      have l3 : 0 < Real.arctan (val y.pat / val x.pat) := by
        have := Real.arctan_strictMono (div_pos_of_neg_of_neg hyn hxn)
        rwa [Real.arctan_zero] at this
      have e2 : 1 / 2 ≤ |Real.arctan (val y.pat / val x.pat) - Real.pi| := le_trans (by linarith) (neg_le_abs _)
      obtain ⟨S, S1, S2, S3⟩ := near_sub nA near_pi (by linarith) (by norm_num) lb lp (Or.inl pi_spec.1) e2
      rw [S1, Option.bind_eq_bind, Option.bind_some]
      obtain ⟨f1, f2⟩ := near_round S2 S3 (by linarith) e2 (by rw [abs_le]; constructor <;> linarith)
      exact ⟨_, rfl, f1, f2.trans (by norm_num)⟩

/-- The constant is near the half of `π`, with the sign of the quotient. -/
theorem halfOf_spec {x y : F256} (hx : IsFin x.pat) (hy : IsFin y.pat) (x0 : ¬ IsZero x.pat) (y0 : ¬ IsZero y.pat) :
    (0 < val y.pat / val x.pat ∧ halfOf y x = BigFloat.FRAC_PI_2) ∨
    (val y.pat / val x.pat < 0 ∧ halfOf y x = BigFloat.neg BigFloat.FRAC_PI_2) := by
  unfold halfOf
  rcases sign01 x with gx | gx <;> rcases sign01 y with gy | gy <;> rw [gx, gy]
  · exact Or.inl ⟨div_pos (sign_pos hy y0 gy) (sign_pos hx x0 gx), rfl⟩
  · exact Or.inr ⟨div_neg_of_neg_of_pos (sign_neg hy y0 gy) (sign_pos hx x0 gx), rfl⟩
  · exact Or.inr ⟨div_neg_of_pos_of_neg (sign_pos hy y0 gy) (sign_neg hx x0 gx), rfl⟩
  · exact Or.inl ⟨div_pos_of_neg_of_neg (sign_neg hy y0 gy) (sign_neg hx x0 gx), rfl⟩

/-- `y` is the larger operand. -/
theorem atan2_steep {x y : F256} (hx : IsFin x.pat) (hy : IsFin y.pat) (x0 : ¬ IsZero x.pat) (y0 : ¬ IsZero y.pat)
    (h : |val x.pat| < |val y.pat|) : WithinUlps 0.51 (Complex.arg ⟨val x.pat, val y.pat⟩) (y.atan2 x) := by
  rw [(atan2_branches hx hy x0 y0).2.1 h]
  obtain ⟨q, r, q1, r1, ht, r2⟩ := quot_atan hy hx x0 h
  rw [q1, Option.bind_eq_bind, Option.bind_some, r1, Option.bind_eq_bind, Option.bind_some]
  have nr := near_approx (arctan_small_one ht) (quot_weak ht r2)
  have ha := arctan_small ht
  have ha1 := arctan_small_one ht
  have hpi := Real.pi_gt_three
  have hpi2 := Real.pi_lt_d2
  have key : ∃ (H : BigFloat) (u : ℝ), halfOf y x = H ∧
      Near H u 1 ∧ |u| ≤ 33 / 10 ∧ -254 ≤ H.exp ∧
      Real.arctan (val y.pat / val x.pat) = u - Real.arctan (val x.pat / val y.pat) ∧
      1 / 2 ≤ |u - Real.arctan (val x.pat / val y.pat)| := by
    rw [abs_le] at ha
    rcases halfOf_spec hx hy x0 y0 with ⟨g, e⟩ | ⟨g, e⟩
    · refine ⟨_, Real.pi / 2, e, near_half, ?_, by decide, ?_, ?_⟩
      · rw [abs_of_pos (by linarith)]; linarith
      · rw [← inv_div (val y.pat) (val x.pat), Real.arctan_inv_of_pos g]
        ring
      · refine le_trans ?_ (le_abs_self _); linarith
    · refine ⟨_, -(Real.pi / 2), e, near_half.neg, ?_, by decide, ?_, ?_⟩
      · rw [abs_neg, abs_of_pos (by linarith)]; linarith
      · rw [← inv_div (val y.pat) (val x.pat), Real.arctan_inv_of_neg g]
        ring
      · refine le_trans ?_ (neg_le_abs _); linarith
  obtain ⟨H, u, hH, nH, bu, eH, e1, e2⟩ := key
  rw [hH]
  obtain ⟨S, S1, S2, S3⟩ := near_sub nH nr (by norm_num) (by norm_num) bu (ha1.trans (by norm_num))
    (Or.inr (Or.inr eH)) e2
  rw [S1, Option.bind_some]
  rw [← e1] at S3 e2
  exact atan2Tail_spec hx hy x0 y0 (by norm_num) S3 (Or.inr ⟨S2, e2⟩)

/-- `x` is the larger operand and negative. -/
theorem atan2_flat_left {x y : F256} (hx : IsFin x.pat) (hy : IsFin y.pat) (x0 : ¬ IsZero x.pat) (y0 : ¬ IsZero y.pat)
    (h : |val y.pat| < |val x.pat|) (hs : x.sign = 1) :
    WithinUlps 0.51 (Complex.arg ⟨val x.pat, val y.pat⟩) (y.atan2 x) := by
  rw [(atan2_branches hx hy x0 y0).1 h]
  obtain ⟨q, r, q1, r1, ht, r2⟩ := quot_atan hx hy y0 h
  rw [q1, Option.bind_eq_bind, Option.bind_some, r1, Option.bind_eq_bind, Option.bind_some]
  exact atan2Tail_spec hx hy x0 y0 (by norm_num) (near_approx (arctan_small_one ht) (quot_weak ht r2)) (Or.inl hs)

/-- `x` is the larger operand and positive. -/
theorem atan2_flat_right {x y : F256} (hx : IsFin x.pat) (hy : IsFin y.pat) (x0 : ¬ IsZero x.pat) (y0 : ¬ IsZero y.pat)
    (h : |val y.pat| < |val x.pat|) (hs : x.sign = 0) (hq : 1 / 2 ^ 243 ≤ |val y.pat / val x.pat|) :
    WithinUlps 0.51 (Complex.arg ⟨val x.pat, val y.pat⟩) (y.atan2 x) := by
  rw [(atan2_branches hx hy x0 y0).1 h]
  obtain ⟨q, r, q1, r1, ht, r2⟩ := quot_atan hx hy y0 h
  rw [q1, Option.bind_eq_bind, Option.bind_some, r1, Option.bind_eq_bind, Option.bind_some]
  unfold atan2Tail
  rw [if_pos hs, pure_bind, arg_right _ (sign_pos hx x0 hs)]
  have hlow := arctan_ge ht.le
  have hup := arctan_small_one ht
  generalize val y.pat / val x.pat = t at *
  generalize Real.arctan t = a at *
  have c1 : (5 : ℝ) / 2 ^ 492 = 40 / 2 ^ 252 * (1 / 2 ^ 243) := by norm_num
  have r3 : |(sval r : ℝ) / 2 ^ 492 - a| ≤ 82 / 2 ^ 252 * |a| := by
    have p : (0 : ℝ) ≤ 40 / 2 ^ 252 := by positivity
    have p1 := mul_le_mul_of_nonneg_left hq p
    have p2 := mul_le_mul_of_nonneg_left hlow (by positivity : (0 : ℝ) ≤ 82 / 2 ^ 252)
    have p3 : |t| / 2 ^ 252 + 40 / 2 ^ 252 * |t| = 82 / 2 ^ 252 * (|t| / 2) := by ring
    rw [c1] at r2
    linarith
  have ha0 : 1 / 2 ^ 244 ≤ |a| := by
    have : (1 : ℝ) / 2 ^ 244 = 1 / 2 ^ 243 / 2 := by norm_num
    linarith
  generalize hX : (sval r : ℝ) / 2 ^ 492 = X at *
  have c2 : (82 : ℝ) / 2 ^ 252 ≤ 1 / 100 := by norm_num
  have s1 := mul_le_mul_of_nonneg_right c2 (abs_nonneg a)
  have b1 := abs_sub_abs_le_abs_sub a X
  have b2 := abs_sub_abs_le_abs_sub X a
  rw [abs_sub_comm a X] at b1
  have hX1 : |X| ≤ 2 := by linarith
  have hX0 : 99 / 100 * |a| ≤ |X| := by linarith
  have h0 : sval r ≠ 0 := fun c => by
    rw [c, Int.cast_zero, zero_div] at hX
    rw [← hX, abs_zero] at hX0
    have : (0 : ℝ) < 1 / 2 ^ 244 := by positivity
    linarith
  have hb : (sval r).natAbs ≤ 2 ^ 500 := by
    rw [← hX, abs_div, abs_of_pos (by positivity : (0 : ℝ) < 2 ^ 492), div_le_iff₀ (by positivity)] at hX1
    have h5 : |(sval r : ℝ)| = ((sval r).natAbs : ℝ) := by rw [Nat.cast_natAbs, Int.cast_abs]
    rw [h5] at hX1
    have h6 : ((sval r).natAbs : ℝ) ≤ 2 ^ 500 := hX1.trans (by norm_num)
    exact_mod_cast h6
  obtain ⟨t1, t2⟩ := FP492.toBigFloat_spec h0 hb
  rw [hX] at t2
  generalize hB : BigFloat.bval (toBigFloat r) = B at *
  have d1 : |X| / 2 ^ 254 ≤ 1 / 2 ^ 252 * |a| := by
    have : |X| / 2 ^ 254 ≤ (2 * |a|) / 2 ^ 254 := div_le_div_of_nonneg_right (by linarith [abs_nonneg a]) (by positivity)
    refine this.trans ?_
    have e : 2 * |a| / 2 ^ 254 = 1 / 2 ^ 253 * |a| := by ring
    rw [e]
    exact mul_le_mul_of_nonneg_right (by norm_num) (abs_nonneg a)
  have d2 : |B - a| ≤ 83 / 2 ^ 252 * |a| := by
    have e : (83 : ℝ) / 2 ^ 252 * |a| = 1 / 2 ^ 252 * |a| + 82 / 2 ^ 252 * |a| := by ring
    have := abs_sub_le B X a
    linarith
  have b3 := abs_sub_abs_le_abs_sub a B
  have b4 := abs_sub_abs_le_abs_sub B a
  rw [abs_sub_comm a B] at b3
  have c3 : (83 : ℝ) / 2 ^ 252 ≤ 1 / 100 := by norm_num
  have s2 := mul_le_mul_of_nonneg_right c3 (abs_nonneg a)
  have hB0 : 99 / 100 * |a| ≤ |B| := by linarith
  have k1 : 1 / 2 ^ 1000 ≤ |BigFloat.bval (toBigFloat r)| := by
    rw [hB]
    have : (1 : ℝ) / 2 ^ 1000 ≤ 99 / 100 * (1 / 2 ^ 244) := by norm_num
    linarith
  have k2 : |BigFloat.bval (toBigFloat r) - a| ≤ |BigFloat.bval (toBigFloat r)| / 2 ^ 244 := by
    rw [hB]
    refine d2.trans ?_
    have : (83 : ℝ) / 2 ^ 252 * |a| ≤ 99 / 100 * |a| / 2 ^ 244 := by
      have e : 99 / 100 * |a| / 2 ^ 244 = 99 / 100 / 2 ^ 244 * |a| := by ring
      rw [e]
      exact mul_le_mul_of_nonneg_right (by norm_num) (abs_nonneg a)
    exact this.trans (div_le_div_of_nonneg_right hB0 (by positivity))
  obtain ⟨f1, f2⟩ := big_rel t1 k1 (by rw [hB]; linarith) k2
  exact ⟨_, rfl, f1, f2.trans (by norm_num)⟩

/-- C63: for finite operands other than zero the result is at most 0.51 units in the last place off the argument of
`x + iy`, and the call does not panic. Missing: operands of the same absolute value (the code is wrong there, see
`C63_diagonal_false`), and quotients below `2^-243` in the right half plane (see `C63_underflow_false`). -/
theorem C63_atan2_partial (x y : F256) (hx : IsFin x.pat) (hy : IsFin y.pat) (x0 : ¬ IsZero x.pat) (y0 : ¬ IsZero y.pat)
    (hne : |val y.pat| ≠ |val x.pat|) (h : val x.pat < 0 ∨ 1 / 2 ^ 243 ≤ |val y.pat / val x.pat|) :
    WithinUlps 0.51 (Complex.arg ⟨val x.pat, val y.pat⟩) (y.atan2 x) := by
  rcases lt_or_gt_of_ne hne with g | g
  · rcases sign01 x with s | s
    · exact atan2_flat_right hx hy x0 y0 g s (h.resolve_left (not_lt.mpr (sign_pos hx x0 s).le))
    · exact atan2_flat_left hx hy x0 y0 g s
  · exact atan2_steep hx hy x0 y0 g

theorem tail_half_table : ∀ s ∈ [F256.ONE, F256.ONE.negated], ∀ t ∈ [F256.ONE, F256.ONE.negated],
    atan2Tail s t (halfOf s t) = some (if s.sign = 0 then Consts.FRAC_PI_2 else Consts.FRAC_PI_2.negated) := by
  decide +kernel

/-- C63 is false for operands of the same absolute value: the result is `±π/2` instead of `±π/4` or `±3π/4`. -/
theorem C63_diagonal_false (x y : F256) (hx : IsFin x.pat) (hy : IsFin y.pat) (x0 : ¬ IsZero x.pat) (y0 : ¬ IsZero y.pat)
    (h : |val y.pat| = |val x.pat|) : ∃ z, y.atan2 x = some z ∧
      z = (if y.sign = 0 then Consts.FRAC_PI_2 else Consts.FRAC_PI_2.negated) ∧
      1 / 2 ≤ |val z.pat - Complex.arg ⟨val x.pat, val y.pat⟩| := by
  refine ⟨_, ?_, rfl, ?_⟩
  · rw [(atan2_branches hx hy x0 y0).2.2 h]
    have e : ∀ s t : F256, y.sign = s.sign → x.sign = t.sign → atan2Tail y x (halfOf y x) = atan2Tail s t (halfOf s t) := by
      intro s t h1 h2
      unfold atan2Tail halfOf
      rw [h1, h2]
    have o1 : F256.ONE.sign = 0 := by decide
    have o2 : F256.ONE.negated.sign = 1 := by decide
    rcases sign01 x with gx | gx <;> rcases sign01 y with gy | gy <;> rw [gy]
    · rw [e F256.ONE F256.ONE (by rw [gy, o1]) (by rw [gx, o1]), tail_half_table _ (by simp) _ (by simp), o1]
    · rw [e F256.ONE.negated F256.ONE (by rw [gy, o2]) (by rw [gx, o1]), tail_half_table _ (by simp) _ (by simp), o2]
    · rw [e F256.ONE F256.ONE.negated (by rw [gy, o1]) (by rw [gx, o2]), tail_half_table _ (by simp) _ (by simp), o1]
    · rw [e F256.ONE.negated F256.ONE.negated (by rw [gy, o2]) (by rw [gx, o2]), tail_half_table _ (by simp) _ (by simp), o2]
  · obtain ⟨f1, -, -⟩ := fracPi2_val
    obtain ⟨f2, -⟩ := fracPi2_close
    have f3 : (46 : ℝ) / 100 * (1 / 2 ^ 236) ≤ 1 / 100 := by norm_num
    have hpi := Real.pi_gt_three
    rcases sign01 x with gx | gx <;> rcases sign01 y with gy | gy
    · have px := sign_pos hx x0 gx
      have py := sign_pos hy y0 gy
      rw [abs_of_pos px, abs_of_pos py] at h
      rw [gy, if_pos rfl, arg_right _ px, h, div_self px.ne', Real.arctan_one]
      exact le_trans (by linarith) (le_abs_self _)
    · have px := sign_pos hx x0 gx
      have py := sign_neg hy y0 gy
      rw [abs_of_pos px, abs_of_neg py] at h
      have hy' : val y.pat = -val x.pat := by linarith
      rw [gy, if_neg (by norm_num), C18_neg_val, arg_right _ px, hy', neg_div, div_self px.ne', Real.arctan_neg,
        Real.arctan_one]
      exact le_trans (by linarith) (neg_le_abs _)
    · have px := sign_neg hx x0 gx
      have py := sign_pos hy y0 gy
      rw [abs_of_neg px, abs_of_pos py] at h
      rw [gy, if_pos rfl, arg_left_up px py, h, neg_div, div_self px.ne, Real.arctan_neg, Real.arctan_one]
      exact le_trans (by linarith) (neg_le_abs _)
    · have px := sign_neg hx x0 gx
      have py := sign_neg hy y0 gy
      rw [abs_of_neg px, abs_of_neg py] at h
      have hy' : val y.pat = val x.pat := by linarith
      rw [gy, if_neg (by norm_num), C18_neg_val, arg_left_down px py, hy', div_self px.ne, Real.arctan_one]
      exact le_trans (by linarith) (le_abs_self _)

/-- C63 is false for small quotients in the right half plane: `atan2(2^-500, 1)` is zero. -/
theorem C63_underflow_false : ∃ x y : F256, IsFin x.pat ∧ IsFin y.pat ∧ ¬ IsZero x.pat ∧ ¬ IsZero y.pat ∧ 0 < val x.pat ∧
    y.atan2 x = some F256.ZERO ∧ 1 / 2 ^ 501 ≤ Complex.arg ⟨val x.pat, val y.pat⟩ := by
  have f : IsFin (twoPow (-500)).pat ∧ ¬ IsZero (twoPow (-500)).pat ∧ significandOf (twoPow (-500)).pat = 2 ^ 236 ∧
    quantumExp (twoPow (-500)).pat = -736 ∧ signBit (twoPow (-500)).pat = 0 ∧
    (twoPow (-500)).atan2 F256.ONE = some F256.ZERO := by decide +kernel
  obtain ⟨f1, f2, f3, f4, f5, f6⟩ := f
  refine ⟨F256.ONE, twoPow (-500), by decide, f1, one_nonzero, f2, by rw [val_ONE]; norm_num, f6, ?_⟩
  have e : val (twoPow (-500)).pat = 1 / 2 ^ 500 := by
    rw [val, f3, f4, f5]
    norm_num
  rw [arg_right _ (by rw [val_ONE]; norm_num), e, val_ONE, div_one]
  have c : |(1 : ℝ) / 2 ^ 500| ≤ 1 := by
    rw [abs_of_nonneg (by positivity)]
    norm_num
  have h := arctan_ge c
  rw [abs_of_nonneg (by positivity : (0 : ℝ) ≤ 1 / 2 ^ 500), abs_of_nonneg (Real.arctan_nonneg.mpr (by positivity))] at h
  refine le_trans ?_ h
  norm_num

/-! ## Special operands -/

theorem signBits_if (x : F256) : signBitsHi x = if x.sign = 0 then 0#128 else HI_SIGN_MASK := by
  have h1 : x.sign = x.bits.hi.toNat / 2 ^ 127 := by
    have hl := x.bits.lo.isLt
    have hh := x.bits.hi.isLt
    rw [(C18_sign_predicates x).2.2]
    unfold signBit F256.pat
    omega
  refine BitVec.eq_of_toNat_eq ?_
  rw [signBitsHi, toNat_and_sign, ← h1]
  rcases sign01 x with g | g <;> rw [g] <;> decide

theorem fracPi2_or (x : F256) : F256.mk ⟨Consts.FRAC_PI_2.bits.hi ||| signBitsHi x, Consts.FRAC_PI_2.bits.lo⟩ =
    if x.sign = 0 then Consts.FRAC_PI_2 else Consts.FRAC_PI_2.negated := by
  rw [signBits_if]
  rcases sign01 x with g | g <;> rw [g] <;> decide +kernel

/-- Both infinite: `±π/4` and `±3π/4`; the code does the same if only one operand is infinite. -/
def atan2Inf (y x : F256) : Option F256 :=
  if y.sign = 0 then
    if x.sign = 0 then some Consts.FRAC_PI_4 else F256.sub Consts.PI Consts.FRAC_PI_4
  else if x.sign = 0 then some Consts.FRAC_PI_4.negated else F256.sub Consts.FRAC_PI_4 Consts.PI

theorem atan2_special {x y : F256} (h : IsZero x.pat ∨ IsZero y.pat ∨ ¬ IsFin x.pat ∨ ¬ IsFin y.pat) :
    y.atan2 x = if IsNaN x.pat ∨ IsNaN y.pat then some F256.NAN
      else if IsZero x.pat then
        if IsZero y.pat then some F256.ZERO
        else some (if y.sign = 0 then Consts.FRAC_PI_2 else Consts.FRAC_PI_2.negated)
      else if IsZero y.pat then some (if x.sign = 0 then F256.ZERO else Consts.PI)
      else atan2Inf y x := by
  obtain ⟨x1, x2, x3, x4⟩ := sticky_facts x
  obtain ⟨y1, y2, y3, y4⟩ := sticky_facts y
  have hs := anySpecial2_true h
  unfold F256.atan2
  dsimp only
  rw [hs, if_pos rfl]
  unfold F256.atan2Special
  have hmax : (if absBitsSticky (absBits x) ≤ absBitsSticky (absBits y) then
      absBitsSticky (absBits y) else absBitsSticky (absBits x)).toNat =
      max (absBitsSticky (absBits x)).toNat (absBitsSticky (absBits y)).toNat := by
    split
    · next g => rw [BitVec.le_def] at g; omega
    · next g => rw [BitVec.le_def] at g; omega
  have c1 : (HI_EXP_MASK < (if absBitsSticky (absBits x) ≤ absBitsSticky (absBits y) then
      absBitsSticky (absBits y) else absBitsSticky (absBits x))) ↔ IsNaN x.pat ∨ IsNaN y.pat := by
    rw [BitVec.lt_def, hmax, show HI_EXP_MASK.toNat = 524287 * 2 ^ 108 by decide, lt_max_iff, x4, y4]
  have c2 : absBitsSticky (absBits x) = 0 ↔ IsZero x.pat := by
    rw [← BitVec.toNat_inj, show (0 : BitVec 128).toNat = 0 by decide, x1]
  have c3 : absBitsSticky (absBits y) = 0 ↔ IsZero y.pat := by
    rw [← BitVec.toNat_inj, show (0 : BitVec 128).toNat = 0 by decide, y1]
  simp only [c1, c2, c3, fracPi2_or]
  rfl

/-- `3π/4` as computed for infinite operands -/
theorem threeQuarters_check : ∃ c, F256.sub Consts.PI Consts.FRAC_PI_4 = some c ∧
    F256.sub Consts.FRAC_PI_4 Consts.PI = some c.negated ∧ IsFin c.pat ∧ signBit c.pat = 0 ∧ quantumExp c.pat = -235 ∧
    significandOf c.pat * 2 ^ 20 + 12 ≤ 3 * nat256 BigFloat.PI.signif + 2 ^ 20 ∧
    3 * nat256 BigFloat.PI.signif + 12 ≤ significandOf c.pat * 2 ^ 20 + 2 ^ 20 := by
  have h : (match F256.sub Consts.PI Consts.FRAC_PI_4, F256.sub Consts.FRAC_PI_4 Consts.PI with
    | some c, some d => decide (d = c.negated) && decide (IsFin c.pat) && decide (signBit c.pat = 0) &&
      decide (quantumExp c.pat = -235) && decide (significandOf c.pat * 2 ^ 20 + 12 ≤ 3 * nat256 BigFloat.PI.signif + 2 ^ 20) &&
      decide (3 * nat256 BigFloat.PI.signif + 12 ≤ significandOf c.pat * 2 ^ 20 + 2 ^ 20)
    | _, _ => false) = true := by decide +kernel
  cases h1 : F256.sub Consts.PI Consts.FRAC_PI_4 with
  | none => rw [h1] at h; exact absurd h Bool.false_ne_true
  | some c =>
    cases h2 : F256.sub Consts.FRAC_PI_4 Consts.PI with
    | none => rw [h1, h2] at h; exact absurd h Bool.false_ne_true
    | some d =>
      rw [h1, h2] at h
      simp only [Bool.and_eq_true, decide_eq_true_iff] at h
      obtain ⟨⟨⟨⟨⟨h3, h4⟩, h5⟩, h6⟩, h7⟩, h8⟩ := h
      exact ⟨c, rfl, by rw [h3], h4, h5, h6, h7, h8⟩

theorem threeQuarters_spec : ∃ c, F256.sub Consts.PI Consts.FRAC_PI_4 = some c ∧
    F256.sub Consts.FRAC_PI_4 Consts.PI = some c.negated ∧ IsFin c.pat ∧
    |val c.pat - 3 * Real.pi / 4| ≤ 1 * (2 : ℝ) ^ quantumExp c.pat := by
  obtain ⟨c, c1, c2, c3, c4, c5, c6, c7⟩ := threeQuarters_check
  refine ⟨c, c1, c2, c3, ?_⟩
  have hs := pi_spec.2
  have e1 : BigFloat.bval BigFloat.PI = ((1 : ℤ) : ℝ) * (nat256 BigFloat.PI.signif : ℝ) * (2 : ℝ) ^ ((1 : ℤ) - 254) := rfl
  have e2 : (2 : ℝ) ^ ((1 : ℤ) - 254) = 4 * (1 / 2 ^ 255) := by norm_num
  have e3 : (2 : ℝ) ^ (-235 : ℤ) = 2 ^ 20 * (1 / 2 ^ 255) := by norm_num
  have e4 : (4 : ℝ) / 2 ^ 254 = 8 * (1 / 2 ^ 255) := by norm_num
  rw [e1, e2, e4, Int.cast_one, one_mul, abs_le] at hs
  rw [val, c4, c5, e3, pow_zero, one_mul, abs_le]
  clear c1 c2 c3 c4 c5 e1 e2 e3 e4
  generalize nat256 BigFloat.PI.signif = N at *
  generalize significandOf c.pat = C at *
  have k1 : (C : ℝ) * 2 ^ 20 + 12 ≤ 3 * N + 2 ^ 20 := by exact_mod_cast c6
  have k2 : (3 : ℝ) * N + 12 ≤ C * 2 ^ 20 + 2 ^ 20 := by exact_mod_cast c7
  have p : (0 : ℝ) < 1 / 2 ^ 255 := by positivity
  have m1 := mul_le_mul_of_nonneg_right k1 p.le
  have m2 := mul_le_mul_of_nonneg_right k2 p.le
  generalize (1 : ℝ) / 2 ^ 255 = u at *
  constructor <;> nlinarith

theorem within_neg {c v : ℝ} {z : F256} (h : WithinUlps c v (some z)) : WithinUlps c (-v) (some z.negated) := by
  obtain ⟨w, w1, w2, w3⟩ := h
  rw [Option.some.injEq] at w1
  rw [← w1] at w2 w3
  have hx := pat_lt z
  refine ⟨_, rfl, ?_, ?_⟩
  · rw [fin_iff, pat_negated] at *
    omega
  · have hq : quantumExp z.negated.pat = quantumExp z.pat := by
      have : expField z.negated.pat = expField z.pat := by
        rw [pat_negated]; unfold expField; omega
      unfold quantumExp
      rw [this]
    rw [C18_neg_val, hq, ← abs_neg]
    refine le_trans (le_of_eq ?_) w3
    congr 1
    ring

theorem inf_nz {z : F256} (h : IsInf z.pat) (c : IsZero z.pat) : False := by
  rw [isInf_iff] at h
  rw [isZero_iff] at c
  unfold INF at h
  omega

theorem inf_ok {z : F256} (h : IsInf z.pat) : ¬ (IsZero z.pat ∨ IsNaN z.pat) := by
  rintro (c | c)
  · exact inf_nz h c
  · exact c.2 h.2

/-- An infinite operand, the other one not zero and not NaN -/
theorem atan2_infinite {x y : F256} (h : IsInf x.pat ∨ IsInf y.pat) (hx : ¬ (IsZero x.pat ∨ IsNaN x.pat))
    (hy : ¬ (IsZero y.pat ∨ IsNaN y.pat)) : y.atan2 x = atan2Inf y x := by
  rw [not_or] at hx hy
  rw [atan2_special, if_neg (not_or.mpr ⟨hx.2, hy.2⟩), if_neg hx.1, if_neg hy.1]
  rcases h with h | h
  · exact Or.inr (Or.inr (Or.inl fun c => c h.1))
  · exact Or.inr (Or.inr (Or.inr fun c => c h.1))

/-- C63, special operands: NaN, zeros, and two infinities. -/
theorem C63_special (x y : F256) :
    (IsNaN x.pat ∨ IsNaN y.pat → NaNResult (y.atan2 x)) ∧
    (IsZero x.pat → IsZero y.pat → y.atan2 x = some F256.ZERO) ∧
    (IsZero x.pat → ¬ IsZero y.pat → ¬ IsNaN y.pat →
      y.atan2 x = some (if y.sign = 0 then Consts.FRAC_PI_2 else Consts.FRAC_PI_2.negated)) ∧
    (IsZero y.pat → ¬ IsZero x.pat → ¬ IsNaN x.pat → y.atan2 x = some (if x.sign = 0 then F256.ZERO else Consts.PI)) ∧
    (IsInf x.pat → IsInf y.pat → WithinUlps 1 ((if y.sign = 0 then 1 else -1) * (if x.sign = 0 then Real.pi / 4 else 3 * Real.pi / 4))
      (y.atan2 x)) := by
  have zn : ∀ {z : F256}, IsZero z.pat → ¬ IsNaN z.pat := fun {z} h c => by
    have := c.1
    unfold IsZero at h
    unfold IsNaN at c
    omega
  refine ⟨fun h => ?_, fun h1 h2 => ?_, fun h1 h2 h3 => ?_, fun h1 h2 h3 => ?_, fun h1 h2 => ?_⟩
  · rw [atan2_special (by rcases h with h | h
                          · exact Or.inr (Or.inr (Or.inl fun c => not_nan_of_fin c h))
                          · exact Or.inr (Or.inr (Or.inr fun c => not_nan_of_fin c h))), if_pos h]
    exact ⟨_, rfl, nan_isNaN⟩
  · rw [atan2_special (Or.inl h1), if_neg (not_or.mpr ⟨zn h1, zn h2⟩), if_pos h1, if_pos h2]
  · rw [atan2_special (Or.inl h1), if_neg (not_or.mpr ⟨zn h1, h3⟩), if_pos h1, if_neg h2]
  · rw [atan2_special (Or.inr (Or.inl h1)), if_neg (not_or.mpr ⟨h3, zn h1⟩), if_neg h2, if_pos h1]
  · rw [atan2_infinite (Or.inl h1) (inf_ok h1) (inf_ok h2)]
    obtain ⟨c, c1, c2, c3, c4⟩ := threeQuarters_spec
    have q : WithinUlps 1 (Real.pi / 4) (some Consts.FRAC_PI_4) := by
      obtain ⟨z, z1, z2, z3⟩ := atan_one (x := F256.ONE) (by rw [val_ONE, abs_one])
      rw [val_ONE, Real.arctan_one] at z3
      refine ⟨z, z1, z2, z3.trans ?_⟩
      exact mul_le_mul_of_nonneg_right (by norm_num) (zpow_pos (by norm_num) _).le
    unfold atan2Inf
    rcases sign01 x with gx | gx <;> rcases sign01 y with gy | gy <;> simp only [gx, gy, if_true, one_ne_zero, if_false, one_mul]
    · exact q
    · rw [neg_one_mul]
      exact within_neg q
    · exact ⟨c, c1, c3, c4⟩
    · rw [c2, neg_one_mul]
      exact within_neg ⟨c, rfl, c3, c4⟩

/-- C63 is false if only one operand is infinite: the result is that for two infinite operands. The exact limits are `0` and
`±π` for an infinite `x`, and `±π/2` for an infinite `y`. -/
theorem C63_one_infinite_false (x y : F256) (hx : ¬ (IsZero x.pat ∨ IsNaN x.pat)) (hy : ¬ (IsZero y.pat ∨ IsNaN y.pat)) :
    (IsInf x.pat ∨ IsInf y.pat → y.atan2 x = atan2Inf y x) ∧
    F256.ONE.atan2 F256.INFINITY = some Consts.FRAC_PI_4 ∧ F256.INFINITY.atan2 F256.ONE = some Consts.FRAC_PI_4 :=
  ⟨fun h => atan2_infinite h hx hy, by decide +kernel, by decide +kernel⟩

/-- C63: the call never panics. -/
theorem C63_total (x y : F256) : ∃ z, y.atan2 x = some z := by
  by_cases h : IsZero x.pat ∨ IsZero y.pat ∨ ¬ IsFin x.pat ∨ ¬ IsFin y.pat
  · rw [atan2_special h]
    split
    · exact ⟨_, rfl⟩
    · split
      · split <;> exact ⟨_, rfl⟩
      · split
        · exact ⟨_, rfl⟩
        · obtain ⟨c, c1, c2, -⟩ := threeQuarters_spec
          unfold atan2Inf
          rw [c1, c2]
          split <;> split <;> exact ⟨_, rfl⟩
  · push Not at h
    obtain ⟨x0, y0, hx, hy⟩ := h
    rcases lt_trichotomy |val y.pat| |val x.pat| with g | g | g
    · rcases sign01 x with s | s
      · rw [(atan2_branches hx hy x0 y0).1 g]
        obtain ⟨q, r, q1, r1, -⟩ := quot_atan hx hy y0 g
        rw [q1, Option.bind_eq_bind, Option.bind_some, r1, Option.bind_eq_bind, Option.bind_some]
        unfold atan2Tail
        rw [if_pos s]
        exact ⟨_, rfl⟩
      · obtain ⟨z, h, -⟩ := atan2_flat_left hx hy x0 y0 g s
        exact ⟨z, h⟩
    · obtain ⟨z, h, -⟩ := C63_diagonal_false x y hx hy x0 y0 g
      exact ⟨z, h⟩
    · obtain ⟨z, h, -⟩ := atan2_steep hx hy x0 y0 g
      exact ⟨z, h⟩

/-- Operands for each part of `C63_atan2_partial`: `atan2(1, 2)`, `atan2(2, -1)` and `atan2(2^-500, -1)` -/
example : ∀ p ∈ [(F256.ONE, twoPow 1), (twoPow 1, F256.ONE.negated), (twoPow (-500), F256.ONE.negated)],
    IsFin p.1.pat ∧ IsFin p.2.pat ∧ ¬ IsZero p.1.pat ∧ ¬ IsZero p.2.pat ∧ absBits p.1 ≠ absBits p.2 := by
  decide +kernel

end Verif.Props
