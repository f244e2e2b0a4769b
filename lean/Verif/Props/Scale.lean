import Verif.Proofs.Codec
import Verif.Props.Laws

/-!
# C25, C26, C27, C30, C31: scaling by powers of two, ulp, encoding and accessors
-/

namespace Verif.Props

open Verif Verif.Spec

theorem isRNE_of_rounds {q : ℝ} {s A N : ℕ} (h : RoundsTo (|q| * 2 ^ 262378) A) (hs : s ≤ 1)
    (hN : N = s * 2 ^ 255 + A) (hpos : 0 < q → s = 0) (hneg : q < 0 → s = 1) : IsRNE q N := by
  rw [hN]; exact RoundsTo.isRNE h hs hpos hneg

theorem sign_le (N : ℕ) : signBit N ≤ 1 := by unfold signBit; omega

/-- A number `±k * 2^t` below the overflow limit with a 237-bit `k` is representable. -/
theorem representable {k t s : ℕ} (hk : k < 2 ^ 237) (hb : k * 2 ^ t < 2 ^ (237 + 524285))
    (hs : s ≤ 1) : ∃ N, N < 2 ^ 256 ∧ IsFin N ∧ signBit N = s ∧
      val N = (-1) ^ s * ((k * 2 ^ t : ℕ) : ℝ) / 2 ^ 262378 := by
  by_cases h : t ≤ 524285
  · exact exists_val hk h s hs
  · obtain ⟨u, hu⟩ := Nat.exists_eq_add_of_le (not_le.mp h).le
    have e : k * 2 ^ t = k * 2 ^ u * 2 ^ 524285 := by
      rw [hu, Nat.pow_add, Nat.mul_assoc, Nat.mul_comm (2 ^ u)]
    have hk2 : k * 2 ^ u < 2 ^ 237 := by
      rw [e, Nat.pow_add 2 237] at hb
      clear e
      generalize 2 ^ 524285 = P at hb
      exact Nat.lt_of_mul_lt_mul_right hb
    rw [e]
    exact exists_val hk2 (le_refl _) s hs

/-! ## C25 -/

theorem mul_units (x : F256) (n : ℕ) :
    |val x.pat * 2 ^ n| * 2 ^ 262378 = ((mag x.pat * 2 ^ n : ℕ) : ℝ) := by
  rw [abs_mul, abs_of_nonneg (pow_nonneg (by norm_num : (0 : ℝ) ≤ 2) n), Nat.cast_mul, Nat.cast_pow,
    Nat.cast_ofNat, ← abs_val]
  ring

/-- C25 (partial: without subnormal operands scaled by 2^524287 or more).
`mul_pow2(n)` is the correctly rounded value of `x * 2^n`.
The full property has no hypothesis `hn`; `C25_fails` shows that it is false then. -/
theorem C25_mulPow2_partial (x : F256) (n : ℕ) (h32 : n < 2 ^ 32) (hx : IsFin x.pat)
    (hn : ¬ IsSubnormal x.pat ∨ n < 524287) :
    IsRNE (val x.pat * 2 ^ n) (F256.mulPow2 x n).pat ∧
    signBit (F256.mulPow2 x n).pat = signBit x.pat := by
  have hp : (0 : ℝ) < 2 ^ n := pow_pos (by norm_num) n
  obtain ⟨A, h1, h2, h3⟩ := mulPow2_spec x n h32 hx (by
    rcases hn with h | h
    · by_cases h0 : expField x.pat = 0
      · right; right
        by_contra hc
        exact h ⟨h0, fun hf => hc ⟨h0, hf⟩⟩
      · exact Or.inl h0
    · exact Or.inr (Or.inl h))
  refine ⟨isRNE_of_rounds (by rw [mul_units]; exact h3) (sign_le x.pat) h1 ?_ ?_, ?_⟩
  · intro h; exact val_pos_sign (pos_of_mul_pos_left h hp.le)
  · intro h; exact val_neg_sign (by
      by_contra hc
      exact absurd (mul_nonneg (not_lt.mp hc) hp.le) (not_le.mpr h))
  · have := sign_le x.pat
    rw [h1]
    unfold signBit at *
    omega

/-- C25. Under the same hypotheses the result is exact whenever it is finite. -/
theorem C25_exact_partial (x : F256) (n : ℕ) (h32 : n < 2 ^ 32) (hx : IsFin x.pat)
    (hn : ¬ IsSubnormal x.pat ∨ n < 524287) (hov : |val x.pat * 2 ^ n| < overflowThreshold) :
    IsFin (F256.mulPow2 x n).pat ∧ val (F256.mulPow2 x n).pat = val x.pat * 2 ^ n := by
  have h := (C25_mulPow2_partial x n h32 hx hn).1
  obtain ⟨t, M, -, hM, -, -, hm, -⟩ := fin_asm hx
  have hp : (0 : ℝ) < 2 ^ 262378 := pow_pos (by norm_num) _
  have hb : M * 2 ^ (t + n) < 2 ^ (237 + 524285) := by
    have h1 := mul_lt_mul_of_pos_right hov hp
    rw [mul_units, threshold_eq, hm, Nat.mul_assoc, ← Nat.pow_add] at h1
    have h2 : ((2 : ℝ) ^ 237 - 1 / 2) * 2 ^ 524285 < ((2 ^ (237 + 524285) : ℕ) : ℝ) := by
      rw [Nat.cast_pow, Nat.cast_ofNat, pow_add]
      refine mul_lt_mul_of_pos_right ?_ (pow_pos (by norm_num) _)
      linarith
    exact Nat.cast_lt.mp (lt_trans h1 h2)
  obtain ⟨N, n1, n2, -, n4⟩ := representable hM hb (sign_le x.pat)
  refine IsRNE.exact h n1 n2 ?_
  rw [n4]
  conv_rhs => rw [val_eq]
  rw [hm, Nat.pow_add, ← Nat.mul_assoc, Nat.cast_mul (M * 2 ^ t), Nat.cast_pow 2 n, Nat.cast_ofNat]
  ring

/-- C25. `mul2` is the correctly rounded double of every finite number. -/
theorem C25_mul2 (x : F256) (hx : IsFin x.pat) : IsRNE (2 * val x.pat) (F256.mul2 x).pat := by
  have := (C25_mulPow2_partial x 1 (by norm_num) hx (Or.inr (by norm_num))).1
  rw [pow_one, mul_comm] at this
  exact this

/-- C25. NaNs, infinities and zeros are returned unchanged, for every exponent. -/
theorem C25_special (x : F256) (n : ℕ) (hx : ¬ IsFin x.pat ∨ IsZero x.pat) :
    F256.mulPow2 x n = x := by
  have : isSpecialBits (absBits x) = true := by
    rw [special_abs]
    rcases hx with h | h
    · rw [fin_iff] at h; exact Or.inr (not_lt.mp h)
    · exact Or.inl ((isZero_iff _).mp h)
  unfold F256.mulPow2; dsimp only; rw [if_pos this]

theorem val_min_gt_zero : val F256.MIN_GT_ZERO.pat = 1 / 2 ^ 262378 := by
  have h := mag_asm (t := 0) (M := 1) (Or.inl rfl) (by norm_num) (by decide)
  rw [Nat.zero_mul, Nat.zero_add, pow_zero, Nat.mul_one] at h
  rw [val_eq, show F256.MIN_GT_ZERO.pat = 1 by decide, h, show signBit 1 = 0 by decide, pow_zero,
    one_mul, Nat.cast_one]

/-- C25 is false for subnormal operands and large exponents: the smallest positive number
scaled by 2^524287 gives infinity, although the value 2^261909 is representable. -/
theorem C25_fails : IsFin F256.MIN_GT_ZERO.pat ∧ IsInf (F256.mulPow2 F256.MIN_GT_ZERO 524287).pat ∧
    ¬ IsRNE (val F256.MIN_GT_ZERO.pat * 2 ^ 524287) (F256.mulPow2 F256.MIN_GT_ZERO 524287).pat := by
  have hinf : IsInf (F256.mulPow2 F256.MIN_GT_ZERO 524287).pat := by decide
  refine ⟨by decide, hinf, fun h => ?_⟩
  have hp : (0 : ℝ) < 2 ^ 262378 := pow_pos (by norm_num) _
  refine h.fin ?_ hinf.1
  rw [← mul_lt_mul_iff_left₀ hp, mul_units, threshold_eq]
  have h1 := mag_asm (t := 0) (M := 1) (Or.inl rfl) (by norm_num) (by decide)
  rw [Nat.zero_mul, Nat.zero_add, pow_zero, Nat.mul_one] at h1
  rw [show F256.MIN_GT_ZERO.pat = 1 by decide, h1, Nat.one_mul, Nat.cast_pow, Nat.cast_ofNat,
    show (524287 : ℕ) = 2 + 524285 from rfl, pow_add]
  refine mul_lt_mul_of_pos_right ?_ (pow_pos (by norm_num) _)
  norm_num

/-! ## C26 -/

theorem div_units (x : F256) (n : ℕ) :
    |val x.pat / 2 ^ n| * 2 ^ 262378 = (mag x.pat : ℝ) / 2 ^ n := by
  rw [abs_div, abs_of_nonneg (pow_nonneg (by norm_num : (0 : ℝ) ≤ 2) n), ← abs_val]
  ring

/-- C26 (partial: without (a) operands whose biased exponent is exactly `n`, and (b) positive
operands below 2^-262141 whose scaled value lies strictly between one half of the smallest
subnormal and the smallest subnormal).
`div_pow2(n)` is the correctly rounded value of `x / 2^n`.
The full property has no hypotheses `ha` and `hb`; `C26_fails_a` and `C26_fails_b` show that it is
false without them. -/
theorem C26_divPow2_partial (x : F256) (n : ℕ) (hx : IsFin x.pat)
    (ha : expField x.pat ≠ n ∨ n = 0)
    (hb : signBit x.pat = 1 ∨ 2 ≤ expField x.pat ∨
      ¬ ((2 : ℝ) ^ (-262379 : ℤ) < |val x.pat / 2 ^ n| ∧
        |val x.pat / 2 ^ n| < (2 : ℝ) ^ (-262378 : ℤ))) :
    IsRNE (val x.pat / 2 ^ n) (F256.divPow2 x n).pat ∧
    signBit (F256.divPow2 x n).pat = signBit x.pat := by
  have hp : (0 : ℝ) < 2 ^ n := pow_pos (by norm_num) n
  have hK : (0 : ℝ) < 2 ^ 262378 := pow_pos (by norm_num) _
  have hb' : signBit x.pat = 1 ∨ 2 ≤ expField x.pat ∨
      ¬ (2 ^ n < 2 * mag x.pat ∧ mag x.pat < 2 ^ n) := by
    refine hb.imp_right (Or.imp_right fun h hc => h ?_)
    have d := div_units x n
    have e1 : (2 : ℝ) ^ (-262378 : ℤ) * 2 ^ 262378 = 1 := by
      rw [zpow_neg, show (262378 : ℤ) = ((262378 : ℕ) : ℤ) by norm_num, zpow_natCast,
        inv_mul_cancel₀ hK.ne']
    have e2 : (2 : ℝ) ^ (-262379 : ℤ) * 2 = 2 ^ (-262378 : ℤ) := by
      rw [show (-262378 : ℤ) = -262379 + 1 by norm_num, zpow_add₀ (by norm_num), zpow_one]
    have c1 : (2 : ℝ) ^ n < 2 * mag x.pat := by exact_mod_cast hc.1
    have c2 : (mag x.pat : ℝ) < 2 ^ n := by exact_mod_cast hc.2
    generalize (2 : ℝ) ^ 262378 = K at *
    generalize (2 : ℝ) ^ (-262378 : ℤ) = k1 at *
    generalize (2 : ℝ) ^ (-262379 : ℤ) = k2 at *
    constructor
    · rw [← mul_lt_mul_iff_left₀ hK, d, lt_div_iff₀ hp]
      have : k2 * K = 1 / 2 := by
        have : k2 * K * 2 = 1 := by rw [← e1, ← e2]; ring
        linarith
      rw [this]; linarith
    · rw [← mul_lt_mul_iff_left₀ hK, d, e1, div_lt_one hp]; exact c2
  obtain ⟨A, h1, h2, h3⟩ := divPow2_spec x n hx ha hb'
  refine ⟨isRNE_of_rounds (by rw [div_units]; exact h3) (sign_le x.pat) h1 ?_ ?_, ?_⟩
  · intro h; exact val_pos_sign ((div_pos_iff_of_pos_right hp).mp h)
  · intro h; exact val_neg_sign (by
      by_contra hc
      exact absurd (div_nonneg (not_lt.mp hc) hp.le) (not_le.mpr h))
  · have := sign_le x.pat
    rw [h1]
    unfold signBit at *
    omega

/-- C26. `div2` is the correctly rounded half of every finite number, except in the lowest
normal binade (biased exponent 1). -/
theorem C26_div2_partial (x : F256) (hx : IsFin x.pat) (h1 : expField x.pat ≠ 1) :
    IsRNE (val x.pat / 2) (F256.div2 x).pat := by
  obtain ⟨A, a1, a2, a3⟩ := divPow2_spec x 1 hx (Or.inl h1) (Or.inr (Or.inr (by
    rintro ⟨h2, h3⟩; omega)))
  have := div_units x 1
  rw [pow_one] at this a3
  refine isRNE_of_rounds (by rw [this]; exact a3) (sign_le x.pat) a1 ?_ ?_
  · intro h; exact val_pos_sign (by linarith)
  · intro h; exact val_neg_sign (by linarith)

/-- C26. NaNs, infinities and zeros are returned unchanged, for every exponent. -/
theorem C26_special (x : F256) (n : ℕ) (hx : ¬ IsFin x.pat ∨ IsZero x.pat) :
    F256.divPow2 x n = x := by
  have : isSpecialBits (absBits x) = true := by
    rw [special_abs]
    rcases hx with h | h
    · rw [fin_iff] at h; exact Or.inr (not_lt.mp h)
    · exact Or.inl ((isZero_iff _).mp h)
  unfold F256.divPow2; dsimp only; rw [if_pos this]

theorem ne_zero_of_rne {q : ℝ} {N M : ℕ} (h : IsRNE q N) (hN : IsZero N) (hM : M < 2 ^ 256)
    (fM : IsFin M) (hq : |q| < overflowThreshold) : |q| ≤ |val M - q| := by
  have := h.nearest hq M hM fM
  rw [val_zero hN, zero_sub, abs_neg] at this
  exact this

/-- C26 is false when the biased exponent of the operand is `n`: half of the smallest normal
number 2^-262142 comes out as 0, although 2^-262143 is representable. -/
theorem C26_fails_a : F256.div2 F256.MIN_POSITIVE = F256.ZERO ∧
    ¬ IsRNE (val F256.MIN_POSITIVE.pat / 2) (F256.div2 F256.MIN_POSITIVE).pat := by
  have hz : F256.div2 F256.MIN_POSITIVE = F256.ZERO := by decide
  refine ⟨hz, fun h => ?_⟩
  rw [hz] at h
  have hK : (0 : ℝ) < 2 ^ 262378 := pow_pos (by norm_num) _
  have m1 := mag_asm (t := 0) (M := 2 ^ 236) (Or.inl rfl) (by norm_num) (by decide)
  have m2 := mag_asm (t := 0) (M := 2 ^ 235) (Or.inl rfl) (by norm_num) (by decide)
  rw [Nat.zero_mul, Nat.zero_add, pow_zero, Nat.mul_one] at m1 m2
  have v1 : val F256.MIN_POSITIVE.pat = ((2 ^ 236 : ℕ) : ℝ) / 2 ^ 262378 := by
    rw [val_eq, show F256.MIN_POSITIVE.pat = 2 ^ 236 by decide, m1,
      show signBit (2 ^ 236) = 0 by decide, pow_zero, one_mul]
  have v2 : val (2 ^ 235) = val F256.MIN_POSITIVE.pat / 2 := by
    rw [v1, val_eq, m2, show signBit (2 ^ 235) = 0 by decide, pow_zero, one_mul]
    generalize (2 : ℝ) ^ 262378 = K
    norm_num
    ring
  have hpos : 0 < val F256.MIN_POSITIVE.pat := by
    rw [v1]; exact div_pos (by norm_num) hK
  have := IsRNE.exact h (M := 2 ^ 235) (by norm_num) (by decide) v2
  rw [val_zero (by decide)] at this
  linarith [this.2]

/-- 3 times the smallest positive number -/
def threeTiny : F256 := ⟨U256.new 0 3⟩

/-- C26 is false for positive operands whose scaled value lies between one half of the smallest
subnormal and the smallest subnormal: 3 * 2^-262378 divided by 4 comes out as 0 instead of
2^-262378. -/
theorem C26_fails_b : F256.divPow2 threeTiny 2 = F256.ZERO ∧
    ¬ IsRNE (val threeTiny.pat / 2 ^ 2) (F256.divPow2 threeTiny 2).pat := by
  have hz : F256.divPow2 threeTiny 2 = F256.ZERO := by decide
  refine ⟨hz, fun h => ?_⟩
  rw [hz] at h
  have hK : (0 : ℝ) < 2 ^ 262378 := pow_pos (by norm_num) _
  have m1 := mag_asm (t := 0) (M := 3) (Or.inl rfl) (by norm_num) (by decide)
  rw [Nat.zero_mul, Nat.zero_add, pow_zero, Nat.mul_one] at m1
  have v1 : val threeTiny.pat = 3 / 2 ^ 262378 := by
    rw [val_eq, show threeTiny.pat = 3 by decide, m1, show signBit 3 = 0 by decide, pow_zero,
      one_mul, Nat.cast_ofNat]
  have hth : |val threeTiny.pat / 2 ^ 2| < overflowThreshold := by
    refine lt_of_le_of_lt ?_ (abs_val_lt (pat_lt threeTiny) (by decide))
    rw [abs_div, abs_of_pos (a := (2 : ℝ) ^ 2) (by norm_num)]
    have := abs_nonneg (val threeTiny.pat)
    linarith [div_le_self this (show (1 : ℝ) ≤ 2 ^ 2 by norm_num)]
  have := ne_zero_of_rne h (by decide) (M := F256.MIN_GT_ZERO.pat) (pat_lt _) (by decide) hth
  rw [val_min_gt_zero, v1] at this
  generalize (2 : ℝ) ^ 262378 = K at *
  have e1 : (3 : ℝ) / K / 2 ^ 2 = 3 / 4 * (1 / K) := by ring
  have hi : 0 < 1 / K := one_div_pos.mpr hK
  rw [e1] at this
  generalize 1 / K = u at *
  rw [abs_of_pos (by linarith), abs_of_pos (by linarith)] at this
  linarith

/-! ## C27 -/

/-- C27. The ulp of a finite number is positive: it is the weight of the last bit of its
significand. -/
theorem C27_ulp (x : F256) (hx : IsFin x.pat) : IsFin (F256.ulp x).pat ∧
    val (F256.ulp x).pat = (2 : ℝ) ^ quantumExp x.pat ∧ 0 < val (F256.ulp x).pat := by
  obtain ⟨h1, h2⟩ := ulp_spec x hx
  have hI := INF_lt
  have hmod : (F256.ulp x).pat % 2 ^ 255 = (F256.ulp x).pat := Nat.mod_eq_of_lt (by omega)
  have hs : signBit (F256.ulp x).pat = 0 := by unfold signBit; omega
  have hv : val (F256.ulp x).pat = (2 : ℝ) ^ quantumExp x.pat := by
    rw [val_eq, hs, h2, quantumExp_eq, zpow_units, pow_zero, one_mul, Nat.cast_pow, Nat.cast_ofNat]
  exact ⟨(fin_iff _).mpr (by rw [hmod]; exact h1), hv, by rw [hv]; exact zpow_pos (by norm_num) _⟩

/-- C27. No number lies strictly between a finite number and the point one ulp further away
from zero. -/
theorem C27_gap (x y : F256) (hx : IsFin x.pat) (hy : IsFin y.pat)
    (h : |val x.pat| < |val y.pat|) : |val x.pat| + val (F256.ulp x).pat ≤ |val y.pat| := by
  have hK : (0 : ℝ) < 2 ^ 262378 := pow_pos (by norm_num) _
  obtain ⟨h1, h2⟩ := ulp_spec x hx
  have hs : signBit (F256.ulp x).pat = 0 := by
    have := INF_lt
    unfold signBit; omega
  obtain ⟨t, M, c1, c2, c3, c4, c5, -⟩ := fin_asm hx
  have hy' := (fin_iff _).mp hy
  rw [abs_val_eq, abs_val_eq, div_lt_div_iff_of_pos_right hK, Nat.cast_lt, ← mag_abs x.pat,
    ← mag_abs y.pat, mag_lt_iff ((fin_iff _).mp hx) hy'] at h
  have he : expField x.pat - 1 = t := by
    have : expField x.pat = x.pat % 2 ^ 255 / 2 ^ 236 := by rw [expField]; omega
    omega
  have hn : t * 2 ^ 236 + (M + 1) ≤ y.pat % 2 ^ 255 := by omega
  have hnI : t * 2 ^ 236 + (M + 1) < INF := lt_of_le_of_lt hn hy'
  have hm := mag_asm (t := t) (M := M + 1) (by omega) (by omega) hnI
  have hle : (M + 1) * 2 ^ t ≤ mag y.pat := by
    rw [← hm, ← mag_abs y.pat]
    by_contra hc
    have := (mag_lt_iff hy' hnI).mp (not_le.mp hc)
    omega
  rw [abs_val_eq, abs_val_eq, val_eq (F256.ulp x).pat, hs, h2, he, c5, pow_zero, one_mul,
    ← add_div, div_le_div_iff_of_pos_right hK, ← Nat.cast_add, Nat.cast_le]
  rw [Nat.add_mul, Nat.one_mul] at hle
  exact hle

/-- C27. The bound of `C27_gap` is attained: unless `x` is the largest finite number, the point
one ulp further away from zero is a finite number (the next bit pattern). -/
theorem C27_next (x : F256) (hx : IsFin x.pat) (hn : IsFin (x.pat + 1)) :
    |val (x.pat + 1)| = |val x.pat| + val (F256.ulp x).pat := by
  obtain ⟨h1, h2⟩ := ulp_spec x hx
  have hI := INF_lt
  have hs : signBit (F256.ulp x).pat = 0 := by unfold signBit; omega
  obtain ⟨t, M, c1, c2, c3, c4, c5, -⟩ := fin_asm hx
  have hx' := (fin_iff _).mp hx
  have he : expField x.pat - 1 = t := by
    have : expField x.pat = x.pat % 2 ^ 255 / 2 ^ 236 := by rw [expField]; omega
    omega
  have hmod : (x.pat + 1) % 2 ^ 255 = t * 2 ^ 236 + (M + 1) := by omega
  have hnI := (fin_iff _).mp hn
  rw [hmod] at hnI
  have hm := mag_asm (t := t) (M := M + 1) (by omega) (by omega) hnI
  rw [abs_val_eq, abs_val_eq, ← mag_abs (x.pat + 1), hmod, hm, val_eq (F256.ulp x).pat, hs, h2, he,
    c5, pow_zero, one_mul, ← add_div, ← Nat.cast_add, Nat.add_mul, Nat.one_mul]

/-- C27. The ulp of a NaN or an infinity is NaN. -/
theorem C27_special (x : F256) (hx : ¬ IsFin x.pat) : IsNaN (F256.ulp x).pat := by
  have : ¬ expBits (absBits x) < EXP_MAX := by
    rw [expField_pat]
    unfold IsFin at hx
    rw [not_not] at hx
    rw [hx]; decide
  unfold F256.ulp
  dsimp only
  rw [if_neg this]
  decide

/-! ## C30 -/

/-- C30. `from_sign_exp_signif(s, t, c)` is the correctly rounded value of `(-1)^s * c * 2^t`, for
every 256-bit `c ≠ 0` and every `t ≥ -262378` with `c * 2^t < 2^262144`. -/
theorem C30_encode (s : ℕ) (t : ℤ) (c : BitVec 128 × BitVec 128) (hs : s ≤ 1) (ht : -262378 ≤ t)
    (hc : c.1.toNat * 2 ^ 128 + c.2.toNat ≠ 0)
    (hb : ((c.1.toNat * 2 ^ 128 + c.2.toNat : ℕ) : ℝ) * (2 : ℝ) ^ t < (2 : ℝ) ^ (262144 : ℤ)) :
    IsRNE ((-1) ^ s * ((c.1.toNat * 2 ^ 128 + c.2.toNat : ℕ) : ℝ) * (2 : ℝ) ^ t)
      (F256.fromSignExpSignif s t c).pat := by
  obtain ⟨T, hT⟩ := Int.eq_ofNat_of_zero_le (show 0 ≤ t + 262378 by omega)
  have hC : nat256 ⟨c.1, c.2⟩ = c.1.toNat * 2 ^ 128 + c.2.toNat := rfl
  rw [← hC] at hc hb ⊢
  rw [fromSignExpSignif_eq hc]
  have hK : (0 : ℝ) < 2 ^ 262378 := pow_pos (by norm_num) _
  have htT : t = (T : ℤ) - 262378 := by omega
  generalize hC2 : nat256 ⟨c.1, c.2⟩ = C at *
  have hu : (C : ℝ) * (2 : ℝ) ^ t * 2 ^ 262378 = ((C * 2 ^ T : ℕ) : ℝ) := by
    rw [htT, zpow_units, Nat.cast_mul, Nat.cast_pow, Nat.cast_ofNat]
    field_simp
  have hb' : C * 2 ^ T < 2 ^ (237 + 524285) := by
    have h1 := mul_lt_mul_of_pos_right hb hK
    rw [hu] at h1
    have h2 : (2 : ℝ) ^ (262144 : ℤ) * 2 ^ 262378 = ((2 ^ (237 + 524285) : ℕ) : ℝ) := by
      rw [show (262144 : ℤ) = ((262144 : ℕ) : ℤ) by norm_num, zpow_natCast, ← pow_add,
        Nat.cast_pow, Nat.cast_ofNat]
    rw [h2] at h1
    exact Nat.cast_lt.mp h1
  obtain ⟨A, a1, a2, a3⟩ := encode_spec (c := ⟨c.1, c.2⟩) hs hT (by rw [hC2]; exact hc)
    (by rw [hC2]; exact hb')
  rw [hC2] at a3
  have hpos : 0 < (C : ℝ) * (2 : ℝ) ^ t :=
    mul_pos (Nat.cast_pos.mpr (Nat.pos_of_ne_zero hc)) (zpow_pos (by norm_num) _)
  rw [mul_assoc]
  refine isRNE_of_rounds ?_ hs a1 ?_ ?_
  · rw [abs_mul, abs_pow, abs_neg, abs_one, one_pow, one_mul, abs_of_pos hpos, hu]
    exact a3
  · intro h
    rcases Nat.le_one_iff_eq_zero_or_eq_one.mp hs with h1 | h1
    · exact h1
    · rw [h1, pow_one, neg_one_mul] at h; exact absurd hpos (not_lt.mpr (neg_pos.mp h).le)
  · intro h
    rcases Nat.le_one_iff_eq_zero_or_eq_one.mp hs with h1 | h1
    · rw [h1, pow_zero, one_mul] at h; exact absurd hpos (not_lt.mpr h.le)
    · exact h1

/-- C30. In the documented domain (`c < 2^237`, `-262378 ≤ t ≤ 261907`) the encoding is exact. -/
theorem C30_encode_exact (s : ℕ) (t : ℤ) (c : BitVec 128 × BitVec 128) (hs : s ≤ 1)
    (ht : -262378 ≤ t) (ht2 : t ≤ 261907)
    (hc : c.1.toNat * 2 ^ 128 + c.2.toNat ≠ 0) (hc2 : c.1.toNat * 2 ^ 128 + c.2.toNat < 2 ^ 237) :
    IsFin (F256.fromSignExpSignif s t c).pat ∧ val (F256.fromSignExpSignif s t c).pat =
      (-1) ^ s * ((c.1.toNat * 2 ^ 128 + c.2.toNat : ℕ) : ℝ) * (2 : ℝ) ^ t := by
  have h := C30_encode s t c hs ht hc
  generalize c.1.toNat * 2 ^ 128 + c.2.toNat = C at *
  obtain ⟨T, hT⟩ := Int.eq_ofNat_of_zero_le (show 0 ≤ t + 262378 by omega)
  have htT : t = (T : ℤ) - 262378 := by omega
  have h := h (by
    have h1 : (C : ℝ) < 2 ^ (237 : ℤ) := by exact_mod_cast hc2
    have hz : (0 : ℝ) < 2 ^ t := zpow_pos (by norm_num) t
    calc (C : ℝ) * 2 ^ t < 2 ^ (237 : ℤ) * 2 ^ t := mul_lt_mul_of_pos_right h1 hz
      _ = 2 ^ (237 + t) := (zpow_add₀ (by norm_num) _ _).symm
      _ ≤ 2 ^ (262144 : ℤ) := zpow_le_zpow_right₀ (by norm_num) (by omega))
  obtain ⟨N, n1, n2, -, n4⟩ := exists_val (k := C) (t := T) hc2 (by omega) s hs
  refine IsRNE.exact h n1 n2 ?_
  rw [n4, htT, zpow_units, Nat.cast_mul, Nat.cast_pow, Nat.cast_ofNat]
  ring

/-- C30. Decoding a finite number gives a triple that denotes it, with odd significand (or a zero
significand and exponent for zeros); encoding the triple gives the number back, bit for bit. -/
theorem C30_decode (x : F256) (hx : IsFin x.pat) : ∃ (s : ℕ) (t : ℤ) (c : BitVec 128 × BitVec 128),
    F256.asSignExpSignif x = (s, t, c) ∧ s = signBit x.pat ∧
    val x.pat = (-1) ^ s * ((c.1.toNat * 2 ^ 128 + c.2.toNat : ℕ) : ℝ) * (2 : ℝ) ^ t ∧
    ((c.1.toNat * 2 ^ 128 + c.2.toNat) % 2 = 1 ∨
      (IsZero x.pat ∧ c.1.toNat * 2 ^ 128 + c.2.toNat = 0 ∧ t = 0)) ∧
    F256.fromSignExpSignif s t c = x := by
  have hlt := pat_lt x
  by_cases h0 : IsZero x.pat
  · have hd := decode_zero x h0
    refine ⟨signBit x.pat, 0, (0, 0), ?_, rfl, ?_, Or.inr ⟨h0, by decide, rfl⟩, ?_⟩
    · unfold F256.asSignExpSignif; rw [hd]; rfl
    · rw [val_zero h0]; simp
    · apply pat_inj
      have e : x.pat = signBit x.pat * 2 ^ 255 := by
        conv_lhs => rw [pat_split hlt, (isZero_iff _).mp h0]
        rw [Nat.add_zero]
      rcases signBit_cases x.pat with h | h
      · rw [h] at e ⊢; rw [e]; decide
      · rw [h] at e ⊢; rw [e]; decide
  · obtain ⟨c, T, h1, h2, h3, h4⟩ := decode_fin x hx h0
    have hc0 : nat256 c ≠ 0 := by omega
    refine ⟨signBit x.pat, (T : ℤ) - 262378, (c.hi, c.lo), ?_, rfl, ?_, Or.inl h2, ?_⟩
    · unfold F256.asSignExpSignif; rw [h1]
    · have : val x.pat = (-1) ^ signBit x.pat * ((nat256 c : ℕ) : ℝ) * (2 : ℝ) ^ ((T : ℤ) - 262378) := by
        rw [zpow_units, val_eq, h4, Nat.cast_mul, Nat.cast_pow, Nat.cast_ofNat]
        ring
      exact this
    · rw [fromSignExpSignif_eq (c := (c.hi, c.lo)) hc0]
      have hmb : nat256 c * 2 ^ T < 2 ^ (237 + 524285) := by
        obtain ⟨t, M, -, hM, -, ht, hm, -⟩ := fin_asm hx
        rw [← h4, hm, Nat.pow_add]
        exact Nat.mul_lt_mul_of_lt_of_le hM (Nat.pow_le_pow_right (by norm_num) ht)
          (Nat.two_pow_pos _)
      obtain ⟨A, a1, a2, a3⟩ := encode_spec (s := signBit x.pat) (t := (T : ℤ) - 262378) (T := T) (c := c)
        (sign_le _) (by ring) hc0 hmb
      rw [← h4] at a3
      have := RoundsTo.unique a3 (RoundsTo.self hx)
      apply pat_inj
      show (F256.encode (signBit x.pat) ((T : ℤ) - 262378) c).pat = x.pat
      rw [a1, this]
      exact (pat_split hlt).symm

/-- C30. Beyond the documented domain the encoding does not saturate: `2^255 * 2^261907`, which is
above the overflow threshold, gives a finite negative number. -/
theorem C30_overflow_garbage :
    IsFin (F256.fromSignExpSignif 0 261907 (2 ^ 127, 0)).pat ∧
    signBit (F256.fromSignExpSignif 0 261907 (2 ^ 127, 0)).pat = 1 := by decide +kernel

/-! ## C31 -/

/-- C31. The value of a finite nonzero number is given by its sign, its integral significand and
its quantum exponent, and also by its sign, its significand and its exponent. -/
theorem C31_accessors (x : F256) (hx : IsFin x.pat) (h0 : ¬ IsZero x.pat) :
    val x.pat = (-1) ^ x.sign * ((x.integralSignificand.hi.toNat * 2 ^ 128 +
      x.integralSignificand.lo.toNat : ℕ) : ℝ) * (2 : ℝ) ^ x.quantumExponent ∧
    IsFin x.significand.pat ∧ signBit x.significand.pat = 0 ∧
    val x.pat = (-1) ^ x.sign * val x.significand.pat * (2 : ℝ) ^ x.exponent := by
  have hlt := pat_lt x
  have hs : x.sign = signBit x.pat := by rw [sign_eq, ← signBit_eq hlt]
  have hz : x.eqZero = false := by
    rw [Bool.eq_false_iff, ne_eq, eqZero_iff, ← isZero_iff]; exact h0
  have hsub : ((x.biasedExponent : ℤ) + ((decide ((x.biasedExponent : ℤ) = 0)).toNat : ℤ)) =
      ((expField x.pat - 1 : ℕ) : ℤ) + 1 := by
    rw [biasedExponent_eq]
    by_cases h : expField x.pat = 0
    · rw [h]; rfl
    · rw [decide_eq_false (by omega)]
      simp only [Bool.toNat_false]
      omega
  have hq : x.quantumExponent = quantumExp x.pat := by
    unfold F256.quantumExponent
    dsimp only
    rw [hz, hsub, quantumExp_eq]
    rw [show ((EXP_BIAS + FRACTION_BITS : ℕ) : ℤ) = 262379 by decide]
    simp only [Bool.not_false, Bool.toNat_true]
    ring
  have hexp : x.exponent = quantumExp x.pat + 236 := by
    unfold F256.exponent
    dsimp only
    rw [hz, hsub, quantumExp_eq]
    rw [show ((EXP_BIAS : ℕ) : ℤ) = 262143 by decide]
    simp only [Bool.not_false, Bool.toNat_true]
    ring
  obtain ⟨m1, m2⟩ := significand_spec x h0
  have hI := INF_lt
  have hmod : x.significand.pat % 2 ^ 255 = x.significand.pat := Nat.mod_eq_of_lt (by omega)
  have hsg : signBit x.significand.pat = 0 := by unfold signBit; omega
  refine ⟨?_, (fin_iff _).mpr (by rw [hmod]; exact m1), hsg, ?_⟩
  · show val x.pat = (-1) ^ x.sign * (nat256 x.integralSignificand : ℝ) * _
    rw [hs, hq, integralSignificand_eq]
    rfl
  · have hv : val x.significand.pat * (2 : ℝ) ^ (236 : ℤ) = significandOf x.pat := by
      have e : ∀ K : ℝ, K ≠ 0 → (significandOf x.pat : ℝ) * K / (2 ^ 236 * K) * 2 ^ (236 : ℤ) =
          significandOf x.pat := by
        intro K hK
        rw [mul_div_mul_right _ _ hK, show ((2 : ℝ) ^ (236 : ℤ)) = 2 ^ 236 from rfl, div_mul_cancel₀]
        exact (pow_pos (by norm_num) _).ne'
      have e2 : (2 : ℝ) ^ 262378 = 2 ^ 236 * 2 ^ 262142 := by rw [← pow_add]
      rw [val_eq, hsg, m2, pow_zero, one_mul, Nat.cast_mul, Nat.cast_pow, Nat.cast_ofNat, e2]
      exact e _ (pow_pos (by norm_num) _).ne'
    rw [hs, hexp, zpow_add₀ (by norm_num), val, ← hv]
    ring

/-! ## Concrete cases -/

/-- 3/2 -/
def threeHalves : F256 := ⟨U256.new (0x3ffff800000000000000000000000000 : BitVec 128) 0⟩

example : IsFin threeHalves.pat ∧ ¬ IsZero threeHalves.pat ∧ ¬ IsSubnormal threeHalves.pat ∧
    IsFin (threeHalves.pat + 1) := by decide
/-- 3/2 * 2^3 = 12, and back -/
example : F256.mulPow2 threeHalves 3 = ⟨U256.new 0x40002800000000000000000000000000 0⟩ := by decide
example : F256.divPow2 ⟨U256.new 0x40002800000000000000000000000000 0⟩ 3 = threeHalves := by decide
/-- a normal number scaled down into the subnormals, with a tie (rounded to even) -/
example : F256.divPow2 ⟨U256.new 0x00002000000000000000000000000000 2⟩ 3 =
    ⟨U256.new 0x00000400000000000000000000000000 0⟩ := by decide +kernel
example : (F256.ulp threeHalves) = ⟨U256.new 0x3ff13000000000000000000000000000 0⟩ := by decide
/-- 3/2 = 3 * 2^-1 -/
example : F256.asSignExpSignif threeHalves = (0, -1, (0, 3)) := by decide +kernel
example : F256.fromSignExpSignif 0 (-1) (0, 3) = threeHalves := by decide
/-- the hypotheses of `C26_divPow2_partial` hold for 3/2 and 3 -/
example : (expField threeHalves.pat ≠ 3 ∨ 3 = 0) ∧ 2 ≤ expField threeHalves.pat := by decide

end Verif.Props
