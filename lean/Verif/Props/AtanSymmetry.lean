import Verif.Props.AtanOdd

/-!
# C67: the arc tangent and the arc sine are odd
-/

namespace Verif.Props

open Verif Verif.Spec Verif.Trig Verif.FP492

set_option exponentiation.threshold 2000

theorem close_ne_zero {z : ℤ} {a : ℝ} (h : |(z : ℝ) / 2 ^ 492 - a| < |a|) : z ≠ 0 := by
  rintro rfl
  rw [Int.cast_zero, zero_div, zero_sub, abs_neg] at h
  exact lt_irrefl _ h

theorem close_bound {z : ℤ} {a : ℝ} (h : |(z : ℝ) / 2 ^ 492 - a| < |a|) (ha : |a| ≤ 2) : z.natAbs ≤ 2 ^ 498 := by
  have h1 := abs_sub_abs_le_abs_sub ((z : ℝ) / 2 ^ 492) a
  have h2 : |(z : ℝ) / 2 ^ 492| ≤ 4 := by linarith
  rw [abs_div, abs_of_pos (by positivity : (0 : ℝ) < 2 ^ 492), div_le_iff₀ (by positivity)] at h2
  have h5 : |(z : ℝ)| = (z.natAbs : ℝ) := by rw [Nat.cast_natAbs, Int.cast_abs]
  rw [h5] at h2
  have h6 : (z.natAbs : ℝ) ≤ ((2 ^ 498 : ℕ) : ℝ) := by
    refine h2.trans ?_
    norm_num
  exact Nat.cast_le.mp h6

theorem ne_min {z : ℤ} (h : z.natAbs ≤ 2 ^ 498) : z ≠ -2 ^ 511 := by omega

/-- What the approximation does with `q` and with `-q` -/
theorem approx_neg {q : BigFloat} (hq : BigFloat.Norm q) (h1 : |BigFloat.bval q| < 1) (h2 : 1 / 2 ^ 400 ≤ |BigFloat.bval q|) :
    ∃ r, approxAtan (FP492.fromBigFloat q) = some r ∧ approxAtan (FP492.fromBigFloat (BigFloat.neg q)) = some (ineg r) ∧
      |(sval r : ℝ) / 2 ^ 492 - Real.arctan (BigFloat.bval q)| ≤ 5 / 2 ^ 492 ∧ sval r ≠ 0 ∧ (sval r).natAbs ≤ 2 ^ 498 := by
  obtain ⟨r, r1, r2⟩ := approx_self hq h1
  have hf := fromBigFloat_spec (Or.inr hq.weaken) (h1.le.trans (by norm_num))
  have hz : |(sval (FP492.fromBigFloat q) : ℝ) / 2 ^ 492 - BigFloat.bval q| < |BigFloat.bval q| := by
    have e : (sval (FP492.fromBigFloat q) : ℝ) / 2 ^ 492 - BigFloat.bval q =
        ((sval (FP492.fromBigFloat q) : ℝ) - BigFloat.bval q * 2 ^ 492) / 2 ^ 492 := by
      rw [sub_div, mul_div_assoc, div_self (pow_ne_zero _ two_ne_zero), mul_one]
    rw [e, abs_div, abs_of_pos (by positivity : (0 : ℝ) < 2 ^ 492)]
    refine (div_le_div_of_nonneg_right hf (by positivity)).trans_lt (lt_of_lt_of_le ?_ h2)
    norm_num
  have ha : |(sval r : ℝ) / 2 ^ 492 - Real.arctan (BigFloat.bval q)| < |Real.arctan (BigFloat.bval q)| := by
    refine r2.trans_lt (lt_of_lt_of_le ?_ (arctan_ge h1.le))
    have : (5 : ℝ) / 2 ^ 492 < 1 / 2 ^ 400 / 2 := by norm_num
    linarith
  refine ⟨r, r1, ?_, r2, close_ne_zero ha, close_bound ha ((arctan_small_one h1).trans (by norm_num))⟩
  rw [fromBigFloat_neg hq.1, approxAtan_ineg (close_ne_zero hz) (ne_min (close_bound hz (h1.le.trans (by norm_num)))), r1,
    Option.map_some]

theorem exp_of_size {s : BigFloat} (hs : BigFloat.Norm s) (h1 : 1 / 4 ≤ |BigFloat.bval s|) (h2 : |BigFloat.bval s| ≤ 4) :
    -262142 ≤ s.exp ∧ s.exp ≤ 262143 := by
  have u := hs.upper
  have l := hs.weaken.lower
  constructor
  · by_contra hc
    push Not at hc
    have : (2 : ℝ) ^ (s.exp + 1) ≤ 2 ^ (-1000 : ℤ) := zpow_le_zpow_right₀ (by norm_num) (by omega)
    have e : (2 : ℝ) ^ (-1000 : ℤ) = 1 / 2 ^ 1000 := by norm_num
    have e2 : (1 : ℝ) / 2 ^ 1000 ≤ 1 / 4 := by norm_num
    rw [e] at this
    linarith
  · by_contra hc
    push Not at hc
    have : (2 : ℝ) ^ (3 : ℤ) ≤ 2 ^ s.exp := zpow_le_zpow_right₀ (by norm_num) (by omega)
    have e : (2 : ℝ) ^ (3 : ℤ) = 8 := by norm_num
    rw [e] at this
    linarith

theorem map_negated_some (z : F256) : Option.map F256.negated (some z) = some z.negated := rfl

theorem signed_negated (x c : F256) : (if x.negated.sign = 0 then c else c.negated) =
    (if x.sign = 0 then c else c.negated).negated := by
  rcases sign_cases x with ⟨g1, g2⟩ | ⟨g1, g2⟩
  · rw [if_pos g1, if_neg (by rw [g2]; norm_num)]
  · rw [if_pos g2, if_neg (by rw [g1]; norm_num), C18_neg_neg]

theorem abs_val_negated (x : F256) : |val x.negated.pat| = |val x.pat| := by
  rw [C18_neg_val, abs_neg]

theorem atan_odd_large {x : F256} (hx : IsFin x.pat) (hs : x.sign = 0) (h1 : 1 < |val x.pat|) (h2 : |val x.pat| < 2 ^ 237) :
    x.negated.atan = x.atan.map F256.negated := by
  have x0 : ¬ IsZero x.pat := fun c => by
    rw [val_zero c, abs_zero] at h1
    linarith
  obtain ⟨nx, vx⟩ := bigFrom_spec x0
  have v0 := val_abs_sign x
  rw [if_pos hs, one_mul] at v0
  have vpos : 0 < val x.pat := by
    rw [v0, C18_abs_val]; linarith
  rw [abs_of_pos vpos] at h1 h2
  obtain ⟨q, q1, q2, q3, q4⟩ := recip_spec nx (by rw [vx, abs_of_pos vpos]; exact h1)
  rw [vx] at q4
  have hi : 1 / 2 ^ 237 ≤ |1 / val x.pat| := by
    rw [abs_of_pos (by positivity)]
    exact one_div_le_one_div_of_le vpos h2.le
  have hq : |1 / val x.pat| / 2 ≤ |BigFloat.bval q| := by
    have := abs_sub_abs_le_abs_sub (1 / val x.pat) (BigFloat.bval q)
    rw [abs_sub_comm] at this
    have c : |1 / val x.pat| / 2 ^ 252 ≤ |1 / val x.pat| / 2 :=
      div_le_div_of_nonneg_left (abs_nonneg _) (by norm_num) (by norm_num)
    linarith
  obtain ⟨r, r1, r2, r3, r4, r5⟩ := approx_neg q2 q3 (by
    refine le_trans ?_ hq
    have : (1 : ℝ) / 2 ^ 400 ≤ 1 / 2 ^ 237 / 2 := by norm_num
    linarith)
  have hpi := Real.pi_gt_three
  have hpi2 := Real.pi_lt_d2
  have hA := arctan_small q3
  have hA' := abs_le.mp hA
  have nr := near_approx (arctan_small_one q3) (r3.trans (by norm_num))
  have e2 : 1 / 2 ≤ |Real.pi / 2 - Real.arctan (BigFloat.bval q)| := by
    refine le_trans ?_ (le_abs_self _); linarith
  have e3 : |Real.pi / 2 - Real.arctan (BigFloat.bval q)| ≤ 33 / 10 := by
    rw [abs_le]; constructor <;> linarith
  obtain ⟨S, S1, S2, S3⟩ := near_sub near_half nr (by norm_num) (by norm_num)
    (by rw [abs_of_pos (by linarith)]; linarith) ((arctan_small_one q3).trans (by norm_num)) (Or.inr (Or.inr (by decide))) e2
  have s1 := near_size S3 (by norm_num)
  have s2 : 1 / 4 ≤ |BigFloat.bval S| := by
    have := abs_sub_abs_le_abs_sub (Real.pi / 2 - Real.arctan (BigFloat.bval q)) (BigFloat.bval S)
    rw [abs_sub_comm _ (BigFloat.bval S)] at this
    have e : ((1 + 3 + 4 : ℝ)) / 2 ^ 252 ≤ 1 / 4 := by norm_num
    linarith [S3.2]
  obtain ⟨k1, k2⟩ := exp_of_size S2 s2 (by linarith)
  have hsn : ¬ x.negated.sign = 0 := by
    rcases sign_cases x with ⟨-, g⟩ | ⟨g, -⟩
    · rw [g]; norm_num
    · rw [hs] at g; exact absurd g (by norm_num)
  have A : x.atan = some (BigFloat.toF256 S) := by
    rw [(atan_branches hx).2.2.2.1 (by rw [abs_of_pos vpos]; exact h1) (by rw [abs_of_pos vpos]; exact h2), q1,
      Option.bind_eq_bind, Option.bind_some, r1, Option.bind_eq_bind, Option.bind_some, if_pos hs, S1, Option.bind_some, Option.pure_def]
  have B : x.negated.atan = some (BigFloat.toF256 (BigFloat.neg S)) := by
    rw [(atan_branches (negated_fin hx)).2.2.2.1 (by rw [abs_val_negated, abs_of_pos vpos]; exact h1)
        (by rw [abs_val_negated, abs_of_pos vpos]; exact h2),
      bigFrom_negated x0, recip_neg, q1, Option.map_some, Option.bind_eq_bind, Option.bind_some, r2, Option.bind_eq_bind,
      Option.bind_some, if_neg hsn, toBigFloat_ineg (ne_min r5) r4, bigSub_neg, S1, Option.map_some,
      Option.bind_some, Option.pure_def]
  rw [A, B, Option.map_some, big_toF256_neg S2 k1 k2]

theorem atan_odd_mid {x : F256} (hx : IsFin x.pat) (h1 : |val x.pat| < 1) (h2 : |val atanCut.pat| < |val x.pat|) :
    x.negated.atan = x.atan.map F256.negated := by
  have h3 : 1 / 2 ^ 200 ≤ |val x.pat| := (le_trans (by norm_num) atanCut_val.1.le).trans h2.le
  have h0 : ¬ IsZero x.pat := fun hz => by
    rw [val_zero hz, abs_zero] at h3
    exact absurd h3 (by norm_num)
  obtain ⟨m, E, h⟩ := abs_arg x hx h0
  have g1 : -256 ≤ E := h.exp_ge (by
    rw [C18_abs_val, zpow_neg, ← one_div]
    refine le_trans ?_ h3
    norm_num)
  have g2 : E < 0 := h.exp_lt (by rw [C18_abs_val, zpow_zero]; exact h1) (by norm_num)
  have he := fpFrom_exact hx h0 h (by omega) g1
  have hz : |(sval (FP492.fromF256 x) : ℝ) / 2 ^ 492 - val x.pat| < |val x.pat| := by
    rw [he, sub_self, abs_zero]
    exact lt_of_lt_of_le (by positivity) h3
  have hn : (sval (FP492.fromF256 x)).natAbs < 2 ^ 492 := by
    rw [← he, abs_div, abs_of_pos (by positivity : (0 : ℝ) < 2 ^ 492), div_lt_one (by positivity)] at h1
    have h5 : |(sval (FP492.fromF256 x) : ℝ)| = ((sval (FP492.fromF256 x)).natAbs : ℝ) := by
      rw [Nat.cast_natAbs, Int.cast_abs]
    rw [h5] at h1
    exact_mod_cast h1
  obtain ⟨r, r1, r2⟩ := approxAtan_spec hn
  rw [he] at r2
  have e1 : |(sval r : ℝ) / 2 ^ 492 - Real.arctan (val x.pat)| ≤ 4 / 2 ^ 492 := by
    have : (sval r : ℝ) / 2 ^ 492 - Real.arctan (val x.pat) = (sval r - Real.arctan (val x.pat) * 2 ^ 492) / 2 ^ 492 := by
      rw [sub_div, mul_div_assoc, div_self (pow_ne_zero _ two_ne_zero), mul_one]
    rw [this, abs_div, abs_of_pos (by positivity : (0 : ℝ) < 2 ^ 492)]
    exact div_le_div_of_nonneg_right r2 (by positivity)
  have ha : |(sval r : ℝ) / 2 ^ 492 - Real.arctan (val x.pat)| < |Real.arctan (val x.pat)| := by
    refine e1.trans_lt (lt_of_lt_of_le ?_ (arctan_ge h1.le))
    have : (4 : ℝ) / 2 ^ 492 < 1 / 2 ^ 200 / 2 := by norm_num
    linarith
  rw [(atan_branches hx).2.2.1 h2 h1, (atan_branches (negated_fin hx)).2.2.1 (by rw [abs_val_negated]; exact h2)
    (by rw [abs_val_negated]; exact h1), fpFrom_negated hx h0,
    approxAtan_ineg (close_ne_zero hz) (ne_min (close_bound hz (h1.le.trans (by norm_num)))), r1]
  simp only [Option.bind_eq_bind, Option.bind_some, Option.map_some, Option.pure_def,
    fp_toF256_ineg (close_ne_zero ha) (ne_min (close_bound ha ((arctan_small_one h1).trans (by norm_num))))]

/-- C67: the arc tangent is odd, for the infinities and the zeros of either sign too: changing the sign of the argument changes
the sign of the result and nothing else. -/
theorem C67_atan_odd (x : F256) (hn : ¬ IsNaN x.pat) : x.negated.atan = x.atan.map F256.negated := by
  by_cases hx : IsFin x.pat
  · rcases le_or_gt |val x.pat| |val atanCut.pat| with g | g
    · rw [(atan_branches hx).2.1 g, (atan_branches (negated_fin hx)).2.1 (by rw [abs_val_negated]; exact g), map_negated_some]
    rcases lt_trichotomy |val x.pat| 1 with g2 | g2 | g2
    · exact atan_odd_mid hx g2 g
    · rw [(atan_branches hx).2.2.2.2 g2, (atan_branches (negated_fin hx)).2.2.2.2 (by rw [abs_val_negated]; exact g2),
        map_negated_some, signed_negated]
    · rcases lt_or_ge |val x.pat| (2 ^ 237) with g3 | g3
      · rcases sign_cases x with ⟨s, -⟩ | ⟨-, s⟩
        · exact atan_odd_large hx s g2 g3
        · have := atan_odd_large (x := x.negated) (negated_fin hx) s (by rw [abs_val_negated]; exact g2)
            (by rw [abs_val_negated]; exact g3)
          rw [C18_neg_neg] at this
          rw [this, Option.map_map]
          have e : F256.negated ∘ F256.negated = id := funext C18_neg_neg
          rw [e, Option.map_id, id]
      · rw [(atan_branches hx).1 g3, (atan_branches (negated_fin hx)).1 (by rw [abs_val_negated]; exact g3),
          map_negated_some, signed_negated]
  · have hi : IsInf x.pat := by
      unfold IsFin at hx
      unfold IsNaN at hn
      unfold IsInf
      omega
    have hi' : IsInf x.negated.pat := by
      unfold IsInf at *
      rw [(C18_class x).1, (C18_class x).2.1]
      exact hi
    rw [(C62_special x).2.1 hi, (C62_special x.negated).2.1 hi', map_negated_some, signed_negated]

example : ¬ IsNaN F256.NEG_INFINITY.pat ∧ ¬ IsNaN (⟨U256.new 0x3ffff800000000000000000000000000 1⟩ : F256).pat := by decide

/-! ## The arc sine -/

theorem signed_const {q : BigFloat} (h : q.signum = 1 ∨ q.signum = -1) {a b : FP492} (hb : b = ineg a) :
    (if (BigFloat.neg q).signum < 0 then b else a) = ineg (if q.signum < 0 then b else a) := by
  have e : (BigFloat.neg q).signum = q.signum * -1 := rfl
  rcases h with h | h
  · rw [e, h, if_pos (by norm_num), if_neg (by norm_num), hb]
  · rw [e, h, if_neg (by norm_num), if_pos (by norm_num), hb, ineg_ineg]

theorem bigAbs_neg (q : BigFloat) : BigFloat.abs (BigFloat.neg q) = BigFloat.abs q := by
  unfold BigFloat.abs BigFloat.neg
  dsimp only
  rw [mul_neg_one, Int.natAbs_neg]

theorem recip_low {t q : ℝ} (h : |q - t| ≤ |t| / 2 ^ 252) : |t| / 2 ≤ |q| := by
  have := abs_sub_abs_le_abs_sub t q
  rw [abs_sub_comm] at this
  have c : |t| / 2 ^ 252 ≤ |t| / 2 := div_le_div_of_nonneg_left (abs_nonneg _) (by norm_num) (by norm_num)
  linarith

theorem atanBig_neg {q : BigFloat} (hq : BigFloat.Norm q) (h1 : 1 / 2 ^ 400 ≤ |BigFloat.bval q|)
    (h2 : |BigFloat.bval q| ≤ 2 ^ 200) : atanBig (BigFloat.neg q) = (atanBig q).map ineg := by
  obtain ⟨k1, k2, -⟩ := cmp_one hq
  obtain ⟨d1, d2, d3, d4, -, -, d7, d8⟩ := fp_consts
  unfold atanBig
  dsimp only
  rw [bigAbs_neg, signed_const hq.1 (by rw [d3, d1]), signed_const hq.1 (by rw [d4, d2])]
  split
  · rename_i hc
    obtain ⟨r, r1, r2, -⟩ := approx_neg hq (k1 hc) h1
    rw [r1, r2, Option.map_some]
  · rename_i hc
    have g := k2 hc
    obtain ⟨y, y1, y2, y3, y4⟩ := recip_spec hq g
    have p : 0 < |BigFloat.bval q| := by linarith
    have hi : 1 / 2 ^ 200 ≤ |1 / BigFloat.bval q| := by
      rw [abs_div, abs_one]
      exact one_div_le_one_div_of_le p h2
    obtain ⟨r, r1, r2, -, -, r5⟩ := approx_neg y2 y3 (by
      refine le_trans ?_ (recip_low y4)
      have : (1 : ℝ) / 2 ^ 400 ≤ 1 / 2 ^ 200 / 2 := by norm_num
      linarith)
    have hb : (sval (if q.signum < 0 then FP_NEG_FRAC_PI_2 else FP_FRAC_PI_2')).natAbs ≤ 2 ^ 498 := by
      split
      · rw [d3]; exact d8
      · rw [d1]; exact d7
    rw [recip_neg, y1, Option.map_some, Option.bind_eq_bind, Option.bind_some, r2, Option.bind_eq_bind, Option.bind_some,
      Option.bind_some, r1, Option.bind_some, fpSub_ineg hb r5, Option.pure_def, Option.map_some]
  · rw [Option.map_some]

theorem arctan_big {t : ℝ} (h : 1 ≤ |t|) : 1 / 2 ≤ |Real.arctan t| := by
  have key : ∀ u : ℝ, 1 ≤ u → 1 / 2 ≤ |Real.arctan u| := fun u hu => by
    have := Real.arctan_mono hu
    rw [Real.arctan_one] at this
    refine le_trans ?_ (le_abs_self _)
    linarith [Real.pi_gt_three]
  rcases abs_cases t with ⟨e, -⟩ | ⟨e, -⟩
  · exact key t (e ▸ h)
  · have := key (-t) (e ▸ h)
    rwa [Real.arctan_neg, abs_neg] at this

theorem atanBig_nonzero {q : BigFloat} (hq : BigFloat.Norm q) (h1 : 1 / 2 ^ 400 ≤ |BigFloat.bval q|) :
    ∃ r, atanBig q = some r ∧ sval r ≠ 0 ∧ (sval r).natAbs ≤ 2 ^ 498 := by
  obtain ⟨r, r1, r2, r3, -⟩ := atanBig_spec hq
  have hl : |(sval r : ℝ) / 2 ^ 492 - Real.arctan (BigFloat.bval q)| < |Real.arctan (BigFloat.bval q)| := by
    rcases lt_or_ge |BigFloat.bval q| 1 with g | g
    · refine (r3 g).trans_lt (lt_of_lt_of_le ?_ (arctan_ge g.le))
      have : (5 : ℝ) / 2 ^ 492 < 1 / 2 ^ 400 / 2 := by norm_num
      linarith
    · refine r2.trans_lt (lt_of_lt_of_le ?_ (arctan_big g))
      norm_num
  refine ⟨r, r1, close_ne_zero hl, close_bound hl ?_⟩
  have a := Real.arctan_lt_pi_div_two (BigFloat.bval q)
  have b := Real.neg_pi_div_two_lt_arctan (BigFloat.bval q)
  have := Real.pi_le_four
  rw [abs_le]
  constructor <;> linarith

theorem asinArg_size (v : ℝ) {Q : ℝ} (h : |v| ≤ 1 - 1 / 2 ^ 237)
    (hQ : |Q - v / Real.sqrt (1 - v ^ 2)| ≤ |v / Real.sqrt (1 - v ^ 2)| * (1 / 2 ^ 250 / (1 - v ^ 2))) :
    |v| / 2 ≤ |Q| ∧ |Q| ≤ 2 ^ 200 := by
  obtain ⟨w1, -⟩ := one_minus_sq h
  have w2 : 1 - v ^ 2 ≤ 1 := by linarith [sq_nonneg v]
  generalize 1 - v ^ 2 = w at *
  have w0 : 0 < w := lt_of_lt_of_le (by positivity) w1
  have hη : 1 / 2 ^ 250 / w ≤ 1 / 2 := by
    rw [div_le_iff₀ w0]
    calc (1 : ℝ) / 2 ^ 250 ≤ 1 / 2 * (1 / 2 ^ 237) := by norm_num
      _ ≤ 1 / 2 * w := mul_le_mul_of_nonneg_left w1 (by positivity)
  have hS : 1 / 2 ^ 119 ≤ Real.sqrt w := Real.le_sqrt_of_sq_le (le_trans (by norm_num) w1)
  have hSp : 0 < Real.sqrt w := lt_of_lt_of_le (by positivity) hS
  have hS1 : Real.sqrt w ≤ 1 := Real.sqrt_le_one.mpr w2
  have hv : |v| ≤ 1 := by
    have : (0 : ℝ) < 1 / 2 ^ 237 := by positivity
    linarith
  have hc : |v / Real.sqrt w| ≤ 2 ^ 119 := by
    rw [abs_div, abs_of_pos hSp, div_le_iff₀ hSp]
    have := mul_le_mul_of_nonneg_left hS (by positivity : (0 : ℝ) ≤ 2 ^ 119)
    have e : (2 : ℝ) ^ 119 * (1 / 2 ^ 119) = 1 := by norm_num
    linarith
  have hd : |v| ≤ |v / Real.sqrt w| := by
    rw [abs_div, abs_of_pos hSp, le_div_iff₀ hSp]
    exact mul_le_of_le_one_right (abs_nonneg _) hS1
  generalize v / Real.sqrt w = t at *
  have hm : |t| * (1 / 2 ^ 250 / w) ≤ |t| * (1 / 2) := mul_le_mul_of_nonneg_left hη (abs_nonneg _)
  have a := abs_sub_abs_le_abs_sub t Q
  have b := abs_sub_abs_le_abs_sub Q t
  rw [abs_sub_comm] at a
  have c : (2 : ℝ) ^ 119 + 2 ^ 119 * (1 / 2) ≤ 2 ^ 200 := by norm_num
  constructor <;> linarith

theorem asinArg_negated {x : F256} (h0 : ¬ IsZero x.pat) : asinArg x.negated = (asinArg x).map BigFloat.neg := by
  have hs : (BigFloat.fromF256 x).signum ≠ 0 := by
    rcases (bigFrom_spec h0).1.1 with h | h <;> rw [h] <;> norm_num
  unfold asinArg
  dsimp only
  rw [bigFrom_negated h0, square_neg]
  cases BigFloat.sub BigFloat.ONE (BigFloat.square (BigFloat.fromF256 x)) with
  | none => rfl
  | some d =>
    rw [Option.bind_eq_bind, Option.bind_some, Option.bind_some]
    cases BigFloat.sqrt d with
    | none => rfl
    | some s =>
      rw [Option.bind_some, Option.bind_some]
      exact bigDiv_neg_left _ _ hs

/-- C67: the arc sine is odd: for arguments of its domain, the zeros included, changing the sign of the argument changes the sign
of the result and nothing else. -/
theorem C67_asin_odd (x : F256) (hx : IsFin x.pat) (h : |val x.pat| ≤ 1) : x.negated.asin = x.asin.map F256.negated := by
  rcases le_or_gt |val x.pat| |val asinCut.pat| with g | g
  · rw [(asin_branches hx).2.1 g, (asin_branches (negated_fin hx)).2.1 (by rw [abs_val_negated]; exact g), map_negated_some]
  rcases lt_or_eq_of_le h with g2 | g2
  · have x0 : ¬ IsZero x.pat := fun hz => by
      rw [val_zero hz, abs_zero] at g
      exact absurd g (not_lt.mpr (abs_nonneg _))
    obtain ⟨q, q1, q2, q3⟩ := asinArg_spec x0 (below_one hx g2)
    obtain ⟨l, u⟩ := asinArg_size (val x.pat) (below_one hx g2) q3
    have l' : 1 / 2 ^ 400 ≤ |BigFloat.bval q| := by
      refine le_trans ?_ l
      have c := asinCut_val.1
      have : (1 : ℝ) / 2 ^ 400 ≤ 1 / 2 ^ 118 / 2 := by norm_num
      linarith
    have e := atanBig_neg q2 l' u
    obtain ⟨r, r1, r2⟩ := atanBig_nonzero q2 l'
    have A : x.asin = some (FP492.toF256 r) := by
      rw [(asin_branches hx).2.2 g g2, q1, Option.bind_eq_bind, Option.bind_some, r1, Option.bind_eq_bind, Option.bind_some,
        Option.pure_def]
    have B : x.negated.asin = some (FP492.toF256 (ineg r)) := by
      rw [(asin_branches (negated_fin hx)).2.2 (by rw [abs_val_negated]; exact g) (by rw [abs_val_negated]; exact g2),
        asinArg_negated x0, q1, Option.map_some, Option.bind_eq_bind, Option.bind_some, e, r1, Option.map_some,
        Option.bind_eq_bind, Option.bind_some, Option.pure_def]
    rw [A, B, map_negated_some, fp_toF256_ineg r2.1 (ne_min r2.2)]
  · rw [(asin_branches hx).1 g2, (asin_branches (negated_fin hx)).1 (by rw [abs_val_negated]; exact g2), map_negated_some,
      signed_negated]

/-- A number a little above `3/4` -/
def oddExample : F256 := ⟨U256.new 0x3fffe800000000000000000000000000 1⟩

example : IsFin oddExample.pat ∧ |val oddExample.pat| ≤ 1 ∧ ¬ IsZero oddExample.pat := by
  have h : IsFin oddExample.pat := by decide
  have i := abs_lt_iff h (y := F256.ONE) (by decide)
  rw [val_ONE, abs_one] at i
  exact ⟨h, (i.mp (by decide +kernel)).le, by decide⟩

end Verif.Props
