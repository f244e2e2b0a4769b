import Verif.Proofs.AsinArg
import Verif.Proofs.TrigPi

/-!
# The arc tangent of a `BigFloat`, and the errors of `asin` and `acos` before the final rounding
-/

set_option exponentiation.threshold 2000

namespace Verif.Trig

open Verif.Spec BigFloat FP492

theorem arctan_diff {a b : ℝ} (h : 0 ≤ a * b) : |Real.arctan b - Real.arctan a| ≤ |b - a| / (1 + a * b) := by
  have e := Real.arctan_add (x := b) (y := -a) (by linarith)
  rw [Real.arctan_neg, ← sub_eq_add_neg, ← sub_eq_add_neg, mul_neg, sub_neg_eq_add, mul_comm b a] at e
  have l := arctan_lip ((b - a) / (1 + a * b)) 0
  rw [Real.arctan_zero, sub_zero, sub_zero, abs_div, abs_of_pos (by linarith : 0 < 1 + a * b)] at l
  rw [e]
  exact l

/-- A relative error of the argument, with `c = v / √w` and `w = 1 - v²` -/
theorem arctan_rel {v w c q η : ℝ} (w0 : 0 < w) (hw : w = 1 - v ^ 2) (hc : c = v / Real.sqrt w) (hη : η = 1 / 2 ^ 250 / w)
    (h1 : η ≤ 1 / 2 ^ 13) (hq : |q - c| ≤ |c| * η) :
    |Real.arctan q - Real.arctan c| ≤ 1001 / 1000 * |v| / Real.sqrt w / 2 ^ 250 := by
  have hS : 0 < Real.sqrt w := Real.sqrt_pos.mpr w0
  have hSS : Real.sqrt w ^ 2 = w := Real.sq_sqrt w0.le
  have η0 : 0 ≤ η := by rw [hη]; positivity
  have c3 : (1 : ℝ) / 2 ^ 13 ≤ 1 / 2000 := by norm_num
  have hcc : c ^ 2 = v ^ 2 / w := by rw [hc, div_pow, hSS]
  have h1c : 1 + c ^ 2 = 1 / w := by
    rw [hcc, eq_div_iff w0.ne', add_mul, div_mul_cancel₀ _ w0.ne', hw]
    ring
  have hcq : c ^ 2 * (1 - η) ≤ c * q := by
    have e : c * q = c ^ 2 + c * (q - c) := by ring
    have l : |c * (q - c)| ≤ |c| * (|c| * η) := by
      rw [abs_mul]
      exact mul_le_mul_of_nonneg_left hq (abs_nonneg _)
    have e2 : |c| * (|c| * η) = c ^ 2 * η := by rw [← sq_abs c]; ring
    rw [e2] at l
    have := (abs_le.mp l).1
    rw [e]
    linarith
  have hnn : 0 ≤ c * q := le_trans (mul_nonneg (sq_nonneg _) (by linarith)) hcq
  refine (arctan_diff hnn).trans ?_
  have hden : (1 - η) / w ≤ 1 + c * q := by
    have : (1 - η) / w = (1 - η) * (1 + c ^ 2) := by rw [h1c]; ring
    rw [this]
    nlinarith
  have hdp : 0 < (1 - η) / w := div_pos (by linarith) w0
  calc |q - c| / (1 + c * q) ≤ |c| * η / ((1 - η) / w) :=
        div_le_div₀ (by positivity) hq hdp hden
    _ = |v| / Real.sqrt w / 2 ^ 250 * (1 / (1 - η)) := by
        rw [hc, abs_div, abs_of_pos hS, hη]
        have : (1 : ℝ) - 1 / 2 ^ 250 / w ≠ 0 := by rw [← hη]; linarith
        field_simp
    _ ≤ |v| / Real.sqrt w / 2 ^ 250 * (1001 / 1000) := by
        refine mul_le_mul_of_nonneg_left ?_ (by positivity)
        rw [div_le_iff₀ (by linarith)]
        linarith
    _ = 1001 / 1000 * |v| / Real.sqrt w / 2 ^ 250 := by ring

theorem norm_gap {q : BigFloat} (hq : BigFloat.Norm q) (h : |bval q| < 1) : |bval q| ≤ 1 - 1 / 2 ^ 255 := by
  have he : q.exp ≤ -1 := by
    by_contra hc
    have h1 := hq.weaken.lower
    have h2 : (2 : ℝ) ^ (0 : ℤ) ≤ 2 ^ q.exp := pow_mono2 (by omega)
    rw [zpow_zero] at h2
    linarith
  rw [bval_abs hq.1]
  have h1 : (nat256 q.signif : ℝ) ≤ 2 ^ 255 - 1 := by
    have : nat256 q.signif + 1 ≤ 2 ^ 255 := hq.2.2
    have : ((nat256 q.signif + 1 : ℕ) : ℝ) ≤ ((2 ^ 255 : ℕ) : ℝ) := Nat.cast_le.mpr this
    push_cast at this
    linarith
  have h2 : (2 : ℝ) ^ (q.exp - 254) ≤ 2 ^ (-255 : ℤ) := pow_mono2 (by omega)
  have e : (2 : ℝ) ^ (-255 : ℤ) = 1 / 2 ^ 255 := by norm_num
  rw [e] at h2
  calc (nat256 q.signif : ℝ) * 2 ^ (q.exp - 254) ≤ (2 ^ 255 - 1) * (1 / 2 ^ 255) :=
        mul_le_mul h1 h2 (two_zpow _).le (by norm_num)
    _ = 1 - 1 / 2 ^ 255 := by norm_num

/-- Below one -/
theorem approx_self {q : BigFloat} (hq : BigFloat.Norm q) (h : |bval q| < 1) :
    ∃ r, approxAtan (FP492.fromBigFloat q) = some r ∧ |(sval r : ℝ) / 2 ^ 492 - Real.arctan (bval q)| ≤ 5 / 2 ^ 492 := by
  have hb := norm_gap hq h
  have hf := fromBigFloat_spec (Or.inr hq.weaken) (h.le.trans (by norm_num))
  have hn : (sval (FP492.fromBigFloat q)).natAbs < 2 ^ 492 := by
    have h1 := abs_sub_abs_le_abs_sub (sval (FP492.fromBigFloat q) : ℝ) (bval q * 2 ^ 492)
    rw [abs_mul, abs_of_pos (by positivity : (0 : ℝ) < 2 ^ 492)] at h1
    have h2 := mul_le_mul_of_nonneg_right hb (by positivity : (0 : ℝ) ≤ 2 ^ 492)
    have h3 : (1 - 1 / 2 ^ 255 : ℝ) * 2 ^ 492 + 1 < 2 ^ 492 := by norm_num
    have h4 : |(sval (FP492.fromBigFloat q) : ℝ)| < 2 ^ 492 := by linarith
    have h5 : |(sval (FP492.fromBigFloat q) : ℝ)| = ((sval (FP492.fromBigFloat q)).natAbs : ℝ) := by
      rw [Nat.cast_natAbs, Int.cast_abs]
    rw [h5] at h4
    exact_mod_cast h4
  obtain ⟨r, r1, r2⟩ := approxAtan_spec hn
  refine ⟨r, r1, ?_⟩
  have l := arctan_lip ((sval (FP492.fromBigFloat q) : ℝ) / 2 ^ 492) (bval q)
  generalize (sval (FP492.fromBigFloat q) : ℝ) = X at *
  generalize (sval r : ℝ) = R at *
  generalize bval q = Q at *
  have hW : (0 : ℝ) < 2 ^ 492 := by positivity
  have e1 : |R / 2 ^ 492 - Real.arctan (X / 2 ^ 492)| ≤ 4 / 2 ^ 492 := by
    have : R / 2 ^ 492 - Real.arctan (X / 2 ^ 492) = (R - Real.arctan (X / 2 ^ 492) * 2 ^ 492) / 2 ^ 492 := by
      rw [sub_div, mul_div_assoc, div_self hW.ne', mul_one]
    rw [this, abs_div, abs_of_pos hW]
    exact div_le_div_of_nonneg_right r2 hW.le
  have e2 : |X / 2 ^ 492 - Q| ≤ 1 / 2 ^ 492 := by
    have : X / 2 ^ 492 - Q = (X - Q * 2 ^ 492) / 2 ^ 492 := by
      rw [sub_div, mul_div_assoc, div_self hW.ne', mul_one]
    rw [this, abs_div, abs_of_pos hW]
    exact div_le_div_of_nonneg_right hf hW.le
  have e3 : (5 : ℝ) / 2 ^ 492 = 4 / 2 ^ 492 + 1 / 2 ^ 492 := by rw [← add_div]; norm_num
  rw [e3]
  clear hW hf r2 hb hq r1 hn
  generalize (4 : ℝ) / 2 ^ 492 = A at *
  generalize (1 : ℝ) / 2 ^ 492 = B at *
  have t1 := abs_sub_le (R / 2 ^ 492) (Real.arctan (X / 2 ^ 492)) (Real.arctan Q)
  linarith

/-- The exponent of a quotient -/
theorem divSignifs_adj {x y : U256} {s : U256} {j : ℤ} (h : BigFloat.divSignifs x y = some (s, j)) :
    j = if nat256 x < nat256 y then 1 else 0 := by
  unfold BigFloat.divSignifs at h
  rw [lt256] at h
  simp only [Option.bind_eq_bind, Option.bind_eq_some_iff, Option.pure_def, Option.some.injEq, Prod.mk.injEq,
    decide_eq_true_iff] at h
  obtain ⟨a, -, b, -, c, -, -, h⟩ := h
  exact h.symm

/-- The reciprocal of a number above one is below one. -/
theorem recip_spec {y : BigFloat} (hy : BigFloat.Norm y) (h : 1 < |bval y|) :
    ∃ r, BigFloat.recip y = some r ∧ BigFloat.Norm r ∧ |bval r| < 1 ∧ |bval r - 1 / bval y| ≤ |1 / bval y| / 2 ^ 252 := by
  obtain ⟨o1, o2⟩ := one_facts
  obtain ⟨r, r1, r2, r3⟩ := BigFloat.div_spec o1 hy
  rw [o2] at r3
  refine ⟨r, r1, r2, ?_, r3⟩
  obtain ⟨s, j, Q, hd, -⟩ := BigFloat.divSignifs_spec o1.2.1 o1.2.2 hy.2.1 hy.2.2
  have hj := divSignifs_adj hd
  have hy0 : y.isZero = false := isZero_false hy.1
  have hdiv : BigFloat.div BigFloat.ONE y = some ⟨BigFloat.ONE.signum * y.signum, BigFloat.ONE.exp - (y.exp + j), s⟩ := by
    unfold BigFloat.div
    rw [hy0, if_neg (by simp), if_neg (by decide), hd]
    rfl
  have hr : r.exp = 0 - (y.exp + j) := by
    rw [r1, Option.some.injEq] at hdiv
    rw [hdiv]
    rfl
  have hexp : r.exp ≤ -1 := by
    have hyu := hy.upper
    have hye : 0 ≤ y.exp := by
      by_contra hc
      have h2 : (2 : ℝ) ^ (y.exp + 1) ≤ 2 ^ (0 : ℤ) := pow_mono2 (by omega)
      rw [zpow_zero] at h2
      linarith
    by_cases hc : y.exp = 0
    · have e2 : nat256 BigFloat.ONE.signif = 2 ^ 254 := by decide +kernel
      rw [e2] at hj
      have hlt : 2 ^ 254 < nat256 y.signif := by
        refine lt_of_le_of_ne hy.2.1 fun c => ?_
        rw [bval_abs hy.1, ← c, hc] at h
        norm_num at h
      rw [if_pos hlt] at hj
      omega
    · split at hj <;> omega
  have h1 := r2.upper
  have h2 : (2 : ℝ) ^ (r.exp + 1) ≤ 2 ^ (0 : ℤ) := pow_mono2 (by omega)
  rw [zpow_zero] at h2
  linarith

/-! ## The arc tangent of a `BigFloat` -/

theorem then_cases (e : ℤ) (N K : ℕ) (P : Ordering → Prop) (h1 : e < 0 → P .lt) (h2 : 0 < e → P .gt)
    (h3 : e = 0 → N < K → P .lt) (h4 : e = 0 → K < N → P .gt) (h5 : e = 0 → N = K → P .eq) :
    P ((compare e 0).then (compare N K)) := by
  rcases lt_trichotomy e 0 with h | h | h
  · rw [compare_lt_iff_lt.mpr h]
    exact h1 h
  · rw [compare_eq_iff_eq.mpr h]
    rcases lt_trichotomy N K with g | g | g
    · rw [compare_lt_iff_lt.mpr g]
      exact h3 h g
    · rw [compare_eq_iff_eq.mpr g]
      exact h5 h g
    · rw [compare_gt_iff_gt.mpr g]
      exact h4 h g
  · rw [compare_gt_iff_gt.mpr h]
    exact h2 h

theorem cmp_abs_one {q : BigFloat} (hq : BigFloat.Norm q) {K : ℕ} (hK : nat256 BigFloat.ONE.signif = K) :
    BigFloat.cmp (BigFloat.abs q) BigFloat.ONE = (compare q.exp 0).then (compare (nat256 q.signif) K) := by
  have hs : (BigFloat.abs q).signum = 1 := by
    unfold BigFloat.abs
    rcases hq.1 with h | h <;> dsimp only <;> rw [h] <;> rfl
  have e1 : (BigFloat.abs q).exp = q.exp := rfl
  have e2 : (BigFloat.abs q).signif = q.signif := rfl
  have e4 : BigFloat.ONE.signum = 1 := rfl
  have e5 : BigFloat.ONE.exp = 0 := rfl
  have e3 : UInt.nat BigFloat.ONE.signif = K := hK
  have e6 : UInt.nat q.signif = nat256 q.signif := rfl
  have e7 : ∀ o : Ordering, Ordering.eq.then o = o := fun o => by cases o <;> rfl
  unfold BigFloat.cmp
  rw [hs, e1, e2, e4, e5, UInt.cmp_eq, e3, e6, compare_eq_iff_eq.mpr (rfl : (1 : ℤ) = 1), e7]

theorem cmp_one {q : BigFloat} (hq : BigFloat.Norm q) :
    (BigFloat.cmp (BigFloat.abs q) BigFloat.ONE = .lt → |bval q| < 1) ∧
    (BigFloat.cmp (BigFloat.abs q) BigFloat.ONE = .gt → 1 < |bval q|) ∧
    (BigFloat.cmp (BigFloat.abs q) BigFloat.ONE = .eq → |bval q| = 1) := by
  obtain ⟨K, hK⟩ : ∃ K : ℕ, nat256 BigFloat.ONE.signif = K := ⟨_, rfl⟩
  have hR : (K : ℝ) = 2 ^ 254 := by
    have : nat256 BigFloat.ONE.signif = 2 ^ 254 := by decide +kernel
    rw [← hK, this, Nat.cast_pow, Nat.cast_ofNat]
  rw [cmp_abs_one hq hK]
  have hu := hq.upper
  have hl := hq.weaken.lower
  have hp : (0 : ℝ) < K := by rw [hR]; positivity
  have hv : q.exp = 0 → |bval q| = (nat256 q.signif : ℝ) / K := fun h => by
    have e2 : (2 : ℝ) ^ ((0 : ℤ) - 254) = 1 / 2 ^ 254 := by norm_num
    rw [bval_abs hq.1, h, e2, mul_one_div, hR]
  refine then_cases q.exp (nat256 q.signif) K
    (fun o => (o = .lt → |bval q| < 1) ∧ (o = .gt → 1 < |bval q|) ∧ (o = .eq → |bval q| = 1)) ?_ ?_ ?_ ?_ ?_
  · intro h
    have h2 : (2 : ℝ) ^ (q.exp + 1) ≤ 2 ^ (0 : ℤ) := pow_mono2 (by omega)
    rw [zpow_zero] at h2
    exact ⟨fun _ => hu.trans_le h2, fun c => (by cases c), fun c => (by cases c)⟩
  · intro h
    have h2 : (2 : ℝ) ^ (1 : ℤ) ≤ 2 ^ q.exp := pow_mono2 (by omega)
    rw [zpow_one] at h2
    exact ⟨fun c => (by cases c), fun _ => (by linarith), fun c => (by cases c)⟩
  · intro h g
    rw [hv h]
    exact ⟨fun _ => (div_lt_one hp).mpr (Nat.cast_lt.mpr g), fun c => (by cases c), fun c => (by cases c)⟩
  · intro h g
    rw [hv h]
    exact ⟨fun c => (by cases c), fun _ => (one_lt_div hp).mpr (Nat.cast_lt.mpr g), fun c => (by cases c)⟩
  · intro h g
    rw [hv h, g]
    exact ⟨fun c => (by cases c), fun c => (by cases c), fun _ => div_self hp.ne'⟩

theorem fp_consts : FP_FRAC_PI_2' = FP_FRAC_PI_2 ∧ FP_FRAC_PI_4' = FP_FRAC_PI_4 ∧ FP_NEG_FRAC_PI_2 = ineg FP_FRAC_PI_2 ∧
    FP_NEG_FRAC_PI_4 = ineg FP_FRAC_PI_4 ∧ sval FP_FRAC_PI_2 ≠ -2 ^ 511 ∧ sval FP_FRAC_PI_4 ≠ -2 ^ 511 ∧
    (sval FP_FRAC_PI_2).natAbs ≤ 2 ^ 498 ∧ (sval (ineg FP_FRAC_PI_2)).natAbs ≤ 2 ^ 498 := by decide +kernel

theorem half_pi_fp : |(sval FP_FRAC_PI_2 : ℝ) / 2 ^ 492 - Real.pi / 2| ≤ 1 / 2 ^ 492 := by
  have h := consts_spec.2.1
  have hW : (0 : ℝ) < 2 ^ 492 := by positivity
  have : (sval FP_FRAC_PI_2 : ℝ) / 2 ^ 492 - Real.pi / 2 = (sval FP_FRAC_PI_2 - 2 * (Real.pi / 4) * 2 ^ 492) / 2 ^ 492 := by
    rw [sub_div, mul_div_assoc _ _ ((2 : ℝ) ^ 492), div_self hW.ne', mul_one]
    ring
  rw [this, abs_div, abs_of_pos hW]
  exact div_le_div_of_nonneg_right h hW.le

theorem quarter_pi_fp : |(sval FP_FRAC_PI_4 : ℝ) / 2 ^ 492 - Real.pi / 4| ≤ 1 / 2 ^ 492 := by
  have h := consts_spec.1
  have hW : (0 : ℝ) < 2 ^ 492 := by positivity
  have : (sval FP_FRAC_PI_4 : ℝ) / 2 ^ 492 - Real.pi / 4 = (sval FP_FRAC_PI_4 - 1 * (Real.pi / 4) * 2 ^ 492) / 2 ^ 492 := by
    rw [sub_div, mul_div_assoc _ _ ((2 : ℝ) ^ 492), div_self hW.ne', mul_one]
    ring
  rw [this, abs_div, abs_of_pos hW]
  exact div_le_div_of_nonneg_right h hW.le

theorem signed_half (s : ℤ) : ∃ H : ℝ, H = (if s < 0 then -(Real.pi / 2) else Real.pi / 2) ∧
    |(sval (if s < 0 then FP_NEG_FRAC_PI_2 else FP_FRAC_PI_2') : ℝ) / 2 ^ 492 - H| ≤ 1 / 2 ^ 492 ∧
    (sval (if s < 0 then FP_NEG_FRAC_PI_2 else FP_FRAC_PI_2')).natAbs ≤ 2 ^ 498 := by
  obtain ⟨c1, -, c3, -, c5, -, c7, c8⟩ := fp_consts
  refine ⟨_, rfl, ?_⟩
  split
  · rw [c3]
    refine ⟨?_, c8⟩
    rw [sval_ineg c5, Int.cast_neg, neg_div, ← neg_sub_neg, neg_neg, neg_neg, abs_sub_comm]
    exact half_pi_fp
  · rw [c1]
    exact ⟨half_pi_fp, c7⟩

theorem natAbs_of_small {z : ℤ} {t : ℝ} (h : |(z : ℝ) / 2 ^ 492 - t| ≤ 5 / 2 ^ 492) (ht : |t| ≤ 1) : z.natAbs ≤ 2 ^ 498 := by
  have h1 := abs_sub_abs_le_abs_sub ((z : ℝ) / 2 ^ 492) t
  have c : (5 : ℝ) / 2 ^ 492 ≤ 1 := by norm_num
  have h2 : |(z : ℝ) / 2 ^ 492| ≤ 2 := by linarith
  rw [abs_div, abs_of_pos (by positivity : (0 : ℝ) < 2 ^ 492), div_le_iff₀ (by positivity)] at h2
  have h5 : |(z : ℝ)| = (z.natAbs : ℝ) := by rw [Nat.cast_natAbs, Int.cast_abs]
  rw [h5] at h2
  have h6 : (z.natAbs : ℝ) ≤ ((2 ^ 498 : ℕ) : ℝ) := by
    refine h2.trans ?_
    norm_num
  exact Nat.cast_le.mp h6

theorem bval_sign {q : BigFloat} (hq : BigFloat.Norm q) : (q.signum < 0 → bval q < 0) ∧ (¬ q.signum < 0 → 0 < bval q) := by
  have hp : 0 < |bval q| := abs_pos.mpr hq.weaken.ne_zero
  rw [bval_abs hq.1] at hp
  rcases hq.1 with h | h
  · refine ⟨fun c => absurd c (by omega), fun _ => ?_⟩
    unfold bval
    rw [h, Int.cast_one, one_mul]
    exact hp
  · refine ⟨fun c => ?_, fun c => absurd c (by omega)⟩
    unfold bval
    rw [h, Int.cast_neg, Int.cast_one, mul_assoc]
    linarith

/-- The arc tangent of a `BigFloat` -/
theorem atanBig_spec {q : BigFloat} (hq : BigFloat.Norm q) :
    ∃ r, atanBig q = some r ∧ |(sval r : ℝ) / 2 ^ 492 - Real.arctan (bval q)| ≤ 1 / 2 ^ 252 + 6 / 2 ^ 492 ∧
      (|bval q| < 1 → |(sval r : ℝ) / 2 ^ 492 - Real.arctan (bval q)| ≤ 5 / 2 ^ 492) ∧
      (1 < |bval q| → |(sval r : ℝ) / 2 ^ 492 - Real.arctan (bval q)| ≤ |1 / bval q| / 2 ^ 252 + 6 / 2 ^ 492) ∧
      (|bval q| = 1 → |(sval r : ℝ) / 2 ^ 492 - Real.arctan (bval q)| ≤ 1 / 2 ^ 492) := by
  obtain ⟨k1, k2, k3⟩ := cmp_one hq
  obtain ⟨g1, g2⟩ := bval_sign hq
  have c0 : (1 : ℝ) / 2 ^ 492 ≤ 5 / 2 ^ 492 := by norm_num
  have c1 : (5 : ℝ) / 2 ^ 492 ≤ 1 / 2 ^ 252 + 6 / 2 ^ 492 := by norm_num
  have c2 : (1 : ℝ) / 2 ^ 492 + 5 / 2 ^ 492 = 6 / 2 ^ 492 := by norm_num
  have c3 : (1 : ℝ) / 2 ^ 252 ≤ 1 := by norm_num
  unfold atanBig
  dsimp only
  split
  · rename_i hc
    obtain ⟨r, r1, r2⟩ := approx_self hq (k1 hc)
    exact ⟨r, r1, r2.trans c1, fun _ => r2, fun c => absurd (k1 hc) (not_lt.mpr c.le), fun c => absurd (k1 hc) (by rw [c]; exact lt_irrefl _)⟩
  · rename_i hc
    have h1 := k2 hc
    obtain ⟨y, y1, y2, y3, y4⟩ := recip_spec hq h1
    obtain ⟨r, r1, r2⟩ := approx_self y2 y3
    obtain ⟨H, hH, hb, hn⟩ := signed_half q.signum
    have ha : |Real.arctan (bval y)| ≤ 1 := by
      have l := arctan_lip (bval y) 0
      rw [Real.arctan_zero, sub_zero, sub_zero] at l
      linarith
    rw [y1, Option.bind_eq_bind, Option.bind_some, r1, Option.bind_eq_bind, Option.bind_some]
    suffices hfin : |(sval (FP492.sub (if q.signum < 0 then FP_NEG_FRAC_PI_2 else FP_FRAC_PI_2') r) : ℝ) / 2 ^ 492 - Real.arctan (bval q)| ≤
        |1 / bval q| / 2 ^ 252 + 6 / 2 ^ 492 by
      refine ⟨_, rfl, hfin.trans (by gcongr; rw [abs_div, abs_one, div_le_one (by linarith)]; exact h1.le),
        fun c => absurd c (not_lt.mpr h1.le), fun _ => hfin, fun c => absurd h1 (by rw [c]; exact lt_irrefl _)⟩
    rw [sval_sub hn (natAbs_of_small r2 ha)]
    have ht : Real.arctan (bval q) = H - Real.arctan (1 / bval q) := by
      rw [hH, one_div]
      by_cases hs : q.signum < 0
      · rw [if_pos hs, Real.arctan_inv_of_neg (g1 hs)]
        ring
      · rw [if_neg hs, Real.arctan_inv_of_pos (g2 hs)]
        ring
    have l := arctan_lip (bval y) (1 / bval q)
    rw [ht, Int.cast_sub, sub_div]
    generalize (sval (if q.signum < 0 then FP_NEG_FRAC_PI_2 else FP_FRAC_PI_2') : ℝ) / 2 ^ 492 = A at *
    generalize (sval r : ℝ) / 2 ^ 492 = B at *
    rw [← c2]
    clear c0 c1 c2 c3 hn
    generalize (1 : ℝ) / 2 ^ 492 = u at *
    generalize (5 : ℝ) / 2 ^ 492 = u5 at *
    generalize |1 / bval q| / 2 ^ 252 = u3 at *
    have t1 := abs_sub_le B (Real.arctan (bval y)) (Real.arctan (1 / bval q))
    have t2 := abs_sub (A - H) (B - Real.arctan (1 / bval q))
    rw [show A - H - (B - Real.arctan (1 / bval q)) = A - B - (H - Real.arctan (1 / bval q)) by ring] at t2
    linarith
  · rename_i hc
    obtain ⟨-, d2, -, d4, -, d6, -, -⟩ := fp_consts
    have h1 := k3 hc
    suffices hfin : |(sval (if q.signum < 0 then FP_NEG_FRAC_PI_4 else FP_FRAC_PI_4') : ℝ) / 2 ^ 492 - Real.arctan (bval q)| ≤ 1 / 2 ^ 492 from
      ⟨_, rfl, hfin.trans (c0.trans c1), fun c => absurd c (by rw [h1]; exact lt_irrefl _),
        fun c => absurd c (by rw [h1]; exact lt_irrefl _), fun _ => hfin⟩
    by_cases hs : q.signum < 0
    · have hv : bval q = -1 := by
        rw [abs_of_neg (g1 hs)] at h1
        linarith
      rw [if_pos hs, d4, sval_ineg d6, Int.cast_neg, neg_div, hv, Real.arctan_neg, Real.arctan_one, ← neg_sub_neg, neg_neg, neg_neg,
        abs_sub_comm]
      exact quarter_pi_fp
    · have hv : bval q = 1 := by
        rw [abs_of_pos (g2 hs)] at h1
        exact h1
      rw [if_neg hs, d2, hv, Real.arctan_one]
      exact quarter_pi_fp

/-- It is less than a right angle -/
theorem atanBig_range {q : BigFloat} {r : FP492} (hq : BigFloat.Norm q) (h : |bval q| ≤ 2 ^ 200) (hr : atanBig q = some r) :
    |(sval r : ℝ) / 2 ^ 492| ≤ Real.pi / 2 - 1 / 2 ^ 210 := by
  obtain ⟨r', e, -, h1, h2, h3⟩ := atanBig_spec hq
  rw [hr, Option.some_inj] at e
  subst e
  have hpi := Real.pi_gt_three
  have hpi4 := Real.pi_le_four
  generalize (sval r : ℝ) / 2 ^ 492 = R at *
  generalize bval q = Q at *
  have t := abs_sub_abs_le_abs_sub R (Real.arctan Q)
  have c1 : (5 : ℝ) / 2 ^ 492 ≤ 1 / 8 := by norm_num
  have c2 : (1 : ℝ) / 2 ^ 492 ≤ 1 / 8 := by norm_num
  have c3 : (1 : ℝ) / 2 ^ 210 ≤ 1 / 8 := by norm_num
  have hq4 : |Q| ≤ 1 → |Real.arctan Q| ≤ Real.pi / 4 := fun ht => by
    rw [abs_le] at ht
    rw [abs_le]
    have h1 := Real.arctan_mono ht.1
    have h2 := Real.arctan_mono ht.2
    rw [Real.arctan_neg, Real.arctan_one] at h1
    rw [Real.arctan_one] at h2
    exact ⟨by linarith, h2⟩
  rcases lt_trichotomy |Q| 1 with hc | hc | hc
  · have := h1 hc
    have := hq4 hc.le
    linarith
  · have := h3 hc
    have := hq4 hc.le
    linarith
  · have h4 := h2 hc
    have hQ : Q ≠ 0 := fun c => by rw [c, abs_zero] at hc; linarith
    have h5 : |1 / Q| ≤ 1 := by
      rw [abs_div, abs_one, div_le_one (by linarith)]
      exact hc.le
    have h6 := arctan_ge h5
    have h7 : |Real.arctan Q| = Real.pi / 2 - |Real.arctan (1 / Q)| := by
      rw [one_div]
      rcases lt_or_gt_of_ne hQ with g | g
      · have e1 : Real.arctan Q < 0 := Real.arctan_lt_zero.mpr g
        have e2 : Real.arctan Q⁻¹ < 0 := Real.arctan_lt_zero.mpr (inv_lt_zero.mpr g)
        rw [abs_of_neg e1, abs_of_neg e2, Real.arctan_inv_of_neg g]
        ring
      · have e1 : 0 < Real.arctan Q := Real.arctan_pos.mpr g
        have e2 : 0 < Real.arctan Q⁻¹ := Real.arctan_pos.mpr (inv_pos.mpr g)
        rw [abs_of_pos e1, abs_of_pos e2, Real.arctan_inv_of_pos g]
        ring
    have h8 : 1 / 2 ^ 200 ≤ |1 / Q| := by
      rw [abs_div, abs_one]
      exact one_div_le_one_div_of_le (by linarith) h
    have c4 : (6 : ℝ) / 2 ^ 492 ≤ 1 / 2 ^ 200 / 16 := by norm_num
    have c5 : (1 : ℝ) / 2 ^ 210 ≤ 1 / 2 ^ 200 / 16 := by norm_num
    have c6 : |1 / Q| / 2 ^ 252 ≤ |1 / Q| / 4 := div_le_div_of_nonneg_left (abs_nonneg _) (by norm_num) (by norm_num)
    linarith

/-- The result of `asin` before the final rounding -/
theorem asinRes_spec {x : F256} (h0 : ¬ IsZero x.pat) (h : |val x.pat| ≤ 1 - 1 / 2 ^ 237) :
    ∃ q r, asinArg x = some q ∧ atanBig q = some r ∧
      |(sval r : ℝ) / 2 ^ 492 - Real.arcsin (val x.pat)| ≤
        1001 / 1000 * |val x.pat| / Real.sqrt (1 - val x.pat ^ 2) / 2 ^ 250 + (1 / 2 ^ 252 + 6 / 2 ^ 492) ∧
      (|val x.pat| ≤ 1 / 2 → |(sval r : ℝ) / 2 ^ 492 - Real.arcsin (val x.pat)| ≤
        1001 / 1000 * |val x.pat| / Real.sqrt (1 - val x.pat ^ 2) / 2 ^ 250 + 5 / 2 ^ 492) ∧
      |(sval r : ℝ) / 2 ^ 492| ≤ Real.pi / 2 - 1 / 2 ^ 210 := by
  obtain ⟨q, q1, q2, q3⟩ := asinArg_spec h0 h
  obtain ⟨r, r1, r2, r3, -, -⟩ := atanBig_spec q2
  have hrange := fun g => atanBig_range q2 g r1
  refine ⟨q, r, q1, r1, ?_⟩
  generalize val x.pat = v at *
  generalize bval q = Q at *
  generalize (sval r : ℝ) / 2 ^ 492 = R at *
  obtain ⟨w, hw⟩ : ∃ w : ℝ, w = 1 - v ^ 2 := ⟨_, rfl⟩
  have c237 : (0 : ℝ) < 1 / 2 ^ 237 := by positivity
  have hwl : 1 / 2 ^ 237 ≤ w := by
    have e : w = (1 - |v|) * (1 + |v|) := by rw [hw, ← sq_abs v]; ring
    rw [e]
    have := abs_nonneg v
    nlinarith
  have w0 : 0 < w := c237.trans_le hwl
  have hη : 1 / 2 ^ 250 / w ≤ 1 / 2 ^ 13 := by
    rw [div_le_iff₀ w0]
    calc (1 : ℝ) / 2 ^ 250 = 1 / 2 ^ 13 * (1 / 2 ^ 237) := by norm_num
      _ ≤ 1 / 2 ^ 13 * w := mul_le_mul_of_nonneg_left hwl (by positivity)
  have has : Real.arcsin v = Real.arctan (v / Real.sqrt w) := by
    have : |v| < 1 := by linarith
    rw [Real.arcsin_eq_arctan (abs_lt.mp this), hw]
  rw [← hw] at q3
  have hd := arctan_rel w0 hw rfl rfl hη q3
  rw [has, ← hw]
  have t := abs_sub_le R (Real.arctan Q) (Real.arctan (v / Real.sqrt w))
  refine ⟨by linarith, fun hv => ?_, hrange ?_⟩
  swap
  · have hS : 1 / 2 ^ 119 ≤ Real.sqrt w := Real.le_sqrt_of_sq_le (le_trans (by norm_num) hwl)
    have hc : |v / Real.sqrt w| ≤ 2 ^ 119 := by
      have hSp : 0 < Real.sqrt w := lt_of_lt_of_le (by positivity) hS
      rw [abs_div, abs_of_pos hSp, div_le_iff₀ hSp]
      have := mul_le_mul_of_nonneg_left hS (by positivity : (0 : ℝ) ≤ 2 ^ 119)
      have e : (2 : ℝ) ^ 119 * (1 / 2 ^ 119) = 1 := by norm_num
      linarith
    have k : (1 : ℝ) / 2 ^ 13 ≤ 1 := by norm_num
    have h1 : |v / Real.sqrt w| * (1 / 2 ^ 250 / w) ≤ 2 ^ 119 * 1 :=
      mul_le_mul hc (hη.trans k) (by positivity) (by norm_num)
    have h2 := abs_sub_abs_le_abs_sub Q (v / Real.sqrt w)
    have k2 : (2 : ℝ) ^ 119 + 2 ^ 119 * 1 ≤ 2 ^ 200 := by norm_num
    linarith
  have hQ : |Q| < 1 := by
    have hw2 : 3 / 4 ≤ w := by
      have e : w = (1 - |v|) * (1 + |v|) := by rw [hw, ← sq_abs v]; ring
      rw [e]
      have := abs_nonneg v
      nlinarith
    have hS : 4 / 5 ≤ Real.sqrt w := Real.le_sqrt_of_sq_le (by linarith)
    have hc : |v / Real.sqrt w| ≤ 5 / 8 := by
      rw [abs_div, abs_of_pos (by linarith : 0 < Real.sqrt w), div_le_iff₀ (by linarith)]
      linarith
    have k : (1 : ℝ) / 2 ^ 13 ≤ 1 / 2 := by norm_num
    have h1 : |v / Real.sqrt w| * (1 / 2 ^ 250 / w) ≤ 5 / 8 * (1 / 2) :=
      mul_le_mul hc (hη.trans k) (by positivity) (by norm_num)
    have h2 := abs_sub_abs_le_abs_sub Q (v / Real.sqrt w)
    linarith
  have := r3 hQ
  linarith

end Verif.Trig
