import Verif.Proofs.Mul
import Verif.Props.Add

/-!
# Multiplication (C04, C05)
-/

namespace Verif.Props

open Verif Spec BigUInt

/-- The sign of products and quotients: the exclusive or of the operand signs. -/
def xorSign (N M : ℕ) : ℕ := (signBit N + signBit M) % 2

theorem anySpecial2_true {x y : F256}
    (h : IsZero x.pat ∨ IsZero y.pat ∨ ¬ IsFin x.pat ∨ ¬ IsFin y.pat) :
    anySpecial2 (absBitsSticky (absBits x)) (absBitsSticky (absBits y)) = true := by
  obtain ⟨x1, x2, x3, x4⟩ := sticky_facts x
  obtain ⟨y1, y2, y3, y4⟩ := sticky_facts y
  rw [anySpecial2, Bool.or_eq_true, isSpecialHi_iff, isSpecialHi_iff, x1, y1,
    ← not_lt, ← not_lt, x2, y2]
  clear * - h
  rcases h with h | h | h | h
  · exact Or.inl (Or.inl h)
  · exact Or.inr (Or.inl h)
  · exact Or.inl (Or.inr h)
  · exact Or.inr (Or.inr h)

theorem xorSign_le (N M : ℕ) : xorSign N M ≤ 1 := by unfold xorSign; omega

theorem toNat_xorSign (x y : F256) :
    ((x.bits.hi ^^^ y.bits.hi) &&& HI_SIGN_MASK).toNat = xorSign x.pat y.pat * 2 ^ 127 := by
  rw [toNat_and_sign, BitVec.toNat_xor, Nat.xor_div_two_pow]
  congr 1
  have h1 : x.bits.hi.toNat / 2 ^ 127 = signBit x.pat := by
    have := x.bits.hi.isLt; have := x.bits.lo.isLt
    unfold signBit F256.pat; omega
  have h2 : y.bits.hi.toNat / 2 ^ 127 = signBit y.pat := by
    have := y.bits.hi.isLt; have := y.bits.lo.isLt
    unfold signBit F256.pat; omega
  rw [h1, h2]
  unfold xorSign
  rcases signBit_cases x.pat with h | h <;> rcases signBit_cases y.pat with h' | h' <;>
    rw [h, h'] <;> rfl

/-- the patterns built from a sign and a constant -/
theorem pat_signed (s : ℕ) {sg c : BitVec 128} (hsg : sg.toNat = s * 2 ^ 127)
    (hc : c.toNat < 2 ^ 127) : F256.pat ⟨U256.new (sg ||| c) 0⟩ = s * 2 ^ 255 + c.toNat * 2 ^ 128 := by
  rw [pat_eq, nat256_new, BitVec.toNat_or, hsg, or_disjoint hc,
    show (0 : BitVec 128).toNat = 0 by decide]
  ring

theorem pat_signed_inf {s : ℕ} {sg : BitVec 128} (hsg : sg.toNat = s * 2 ^ 127) :
    F256.pat ⟨U256.new (sg ||| INF_HI) 0⟩ = s * 2 ^ 255 + INF := by
  rw [pat_signed s hsg (by decide), show INF_HI.toNat = 524287 * 2 ^ 108 by decide, INF]
  ring

theorem pat_signed_zero {s : ℕ} {sg : BitVec 128} (hsg : sg.toNat = s * 2 ^ 127) :
    F256.pat ⟨U256.new sg 0⟩ = s * 2 ^ 255 := by
  rw [pat_eq, nat256_new, hsg, show (0 : BitVec 128).toNat = 0 by decide]
  ring

theorem isInf_signed {N s : ℕ} (h : N = s * 2 ^ 255 + INF) (hs : s ≤ 1) :
    IsInf N ∧ signBit N = s := by
  unfold INF at h
  refine ⟨⟨?_, ?_⟩, ?_⟩
  · unfold expField; omega
  · unfold fracField; omega
  · unfold signBit; omega

theorem isZero_signed {N s : ℕ} (h : N = s * 2 ^ 255) (hs : s ≤ 1) :
    IsZero N ∧ signBit N = s := by
  refine ⟨⟨?_, ?_⟩, ?_⟩
  · unfold expField; omega
  · unfold fracField; omega
  · unfold signBit; omega

/-- The branch for special operands. -/
theorem mul_special {x y : F256}
    (h : IsZero x.pat ∨ IsZero y.pat ∨ ¬ IsFin x.pat ∨ ¬ IsFin y.pat) :
    F256.mul x y =
      if (IsZero x.pat ∨ IsZero y.pat) ∧ IsFin x.pat ∧ IsFin y.pat then
        ⟨U256.new ((x.bits.hi ^^^ y.bits.hi) &&& HI_SIGN_MASK) 0⟩
      else if (IsZero x.pat ∨ IsZero y.pat) ∧ (IsInf x.pat ∨ IsInf y.pat) then F256.NAN
      else if IsNaN x.pat ∨ IsNaN y.pat then F256.NAN
      else ⟨U256.new (((x.bits.hi ^^^ y.bits.hi) &&& HI_SIGN_MASK) ||| INF_HI) 0⟩ := by
  obtain ⟨x1, x2, x3, x4⟩ := sticky_facts x
  obtain ⟨y1, y2, y3, y4⟩ := sticky_facts y
  have hs := anySpecial2_true h
  unfold F256.mul
  simp only [hs, if_true, BitVec.le_def, BitVec.lt_def]
  generalize absBitsSticky (absBits x) = a at *
  generalize absBitsSticky (absBits y) = b at *
  have hmax : (if a.toNat ≤ b.toNat then b else a).toNat = max a.toNat b.toNat := by
    split <;> omega
  have hmin : (if a.toNat ≤ b.toNat then a else b).toNat = min a.toNat b.toNat := by
    split <;> omega
  have c0 : ((if a.toNat ≤ b.toNat then a else b) = 0) ↔ IsZero x.pat ∨ IsZero y.pat := by
    rw [← BitVec.toNat_inj, hmin, show (0 : BitVec 128).toNat = 0 by decide, ← x1, ← y1]
    omega
  have hI : INF_HI.toNat = 524287 * 2 ^ 108 := by decide
  have c1 : ((if a.toNat ≤ b.toNat then b else a).toNat < INF_HI.toNat) ↔
      IsFin x.pat ∧ IsFin y.pat := by
    rw [hmax, hI, ← x2, ← y2, max_lt_iff]
  have c2 : (INF_HI.toNat < (if a.toNat ≤ b.toNat then b else a).toNat) ↔
      IsNaN x.pat ∨ IsNaN y.pat := by
    rw [hmax, hI, ← x4, ← y4, lt_max_iff]
  have c3 : ((IsZero x.pat ∨ IsZero y.pat) ∧
      (if a.toNat ≤ b.toNat then b else a) = INF_HI) ↔
      (IsZero x.pat ∨ IsZero y.pat) ∧ (IsInf x.pat ∨ IsInf y.pat) := by
    rw [← BitVec.toNat_inj, hmax, hI, ← x1, ← x3, ← y1, ← y3]
    omega
  simp only [c3, c0, c1, c2]

/-- C05. A NaN operand gives NaN. -/
theorem C05_nan (x y : F256) (h : IsNaN x.pat ∨ IsNaN y.pat) : F256.mul x y = F256.NAN := by
  rw [mul_special (by rcases h with h | h <;> simp [not_fin_of_nan h]), if_neg]
  · split
    · rfl
    · rfl
  · rintro ⟨-, h1, h2⟩
    rcases h with h | h
    · exact not_fin_of_nan h h1
    · exact not_fin_of_nan h h2

/-- C05. Infinity times zero is NaN. -/
theorem C05_inf_zero (x y : F256)
    (h : (IsInf x.pat ∧ IsZero y.pat) ∨ (IsZero x.pat ∧ IsInf y.pat)) :
    F256.mul x y = F256.NAN := by
  rcases h with ⟨h1, h2⟩ | ⟨h1, h2⟩
  · rw [mul_special (by simp [h2]), if_neg (fun h => not_fin_of_inf h1 h.2.1),
      if_pos ⟨Or.inr h2, Or.inl h1⟩]
  · rw [mul_special (by simp [h1]), if_neg (fun h => not_fin_of_inf h2 h.2.2),
      if_pos ⟨Or.inl h1, Or.inr h2⟩]

/-- C05. Infinity times a number that is neither zero nor NaN is infinite, with the exclusive or
of the signs. -/
theorem C05_inf (x y : F256) (hx : ¬ IsNaN x.pat) (hy : ¬ IsNaN y.pat) (zx : ¬ IsZero x.pat)
    (zy : ¬ IsZero y.pat) (h : IsInf x.pat ∨ IsInf y.pat) :
    IsInf (F256.mul x y).pat ∧ signBit (F256.mul x y).pat = xorSign x.pat y.pat := by
  rw [mul_special (by rcases h with h | h <;> simp [not_fin_of_inf h]),
    if_neg (by simp [zx, zy]), if_neg (by simp [zx, zy]), if_neg (by simp [hx, hy])]
  exact isInf_signed (pat_signed_inf (toNat_xorSign x y)) (xorSign_le _ _)

/-- C05. Zero times a finite number is a zero with the exclusive or of the signs. -/
theorem C05_zero (x y : F256) (hx : IsFin x.pat) (hy : IsFin y.pat)
    (h : IsZero x.pat ∨ IsZero y.pat) :
    IsZero (F256.mul x y).pat ∧ signBit (F256.mul x y).pat = xorSign x.pat y.pat := by
  rw [mul_special (by rcases h with h | h <;> simp [h]), if_pos ⟨h, hx, hy⟩]
  exact isZero_signed (pat_signed_zero (toNat_xorSign x y)) (xorSign_le _ _)

/-! ## Finite operands -/

theorem sign_mul_val (N M : ℕ) :
    (0 < val N * val M → xorSign N M = 0) ∧ (val N * val M < 0 → xorSign N M = 1) := by
  unfold xorSign
  constructor
  · intro h
    rcases mul_pos_iff.mp h with ⟨h1, h2⟩ | ⟨h1, h2⟩
    · rw [val_pos_sign h1, val_pos_sign h2]
    · rw [val_neg_sign h1, val_neg_sign h2]
  · intro h
    rcases mul_neg_iff.mp h with ⟨h1, h2⟩ | ⟨h1, h2⟩
    · rw [val_pos_sign h1, val_neg_sign h2]
    · rw [val_neg_sign h1, val_pos_sign h2]

theorem abs_mul_val (N M : ℕ) : |val N * val M| * 2 ^ 262378 = (mag N : ℝ) * mag M / 2 ^ 262378 := by
  rw [← abs_val, ← abs_val, abs_mul, eq_div_iff (pow_ne_zero _ (by norm_num))]
  generalize (2 : ℝ) ^ 262378 = K
  ring

theorem signBit_asm {s A : ℕ} (hs : s ≤ 1) (hA : A < 2 ^ 255) : signBit (s * 2 ^ 255 + A) = s := by
  unfold signBit; omega

/-- The product of finite non-zero numbers is the correctly rounded value of a number `v'` which
differs from the exact one only if the result is subnormal, and then by less than 1/8 quantum. -/
theorem mul_finNonzero {x y : F256} (hx : FinNonzero x.pat) (hy : FinNonzero y.pat) :
    ∃ A v', RoundsTo v' A ∧ (F256.mul x y).pat = xorSign x.pat y.pat * 2 ^ 255 + A ∧
      (v' ≠ |val x.pat * val y.pat| * 2 ^ 262378 →
        |val x.pat * val y.pat| * 2 ^ 262378 < 2 ^ 236 ∧
        v' < |val x.pat * val y.pat| * 2 ^ 262378 ∧
        |val x.pat * val y.pat| * 2 ^ 262378 < v' + 1 / 8 ∧
        (∀ k : ℤ, 2 * (|val x.pat * val y.pat| * 2 ^ 262378) ≠ k) ∧
        |val x.pat * val y.pat| * 2 ^ 262378 ≤
          v' + |val x.pat * val y.pat| * 2 ^ 262378 / 2 ^ 238) := by
  have hs := anySpecial2_false hx hy
  obtain ⟨fx, zx⟩ := hx
  obtain ⟨fy, zy⟩ := hy
  rw [fin_iff] at fx fy
  rw [isZero_iff] at zx zy
  rw [abs_mul_val]
  unfold F256.mul
  simp only [hs, Bool.false_eq_true, if_false]
  have hv : (mag x.pat : ℝ) * mag y.pat / 2 ^ 262378 =
      (mag (nat256 (absBits x)) : ℝ) * mag (nat256 (absBits y)) / 2 ^ 262378 := by
    rw [nat_absBits, nat_absBits, mag_abs, mag_abs]
  rw [← nat_absBits] at fx fy zx zy
  obtain ⟨N, v', h1, h2, h3⟩ := mulAbsFinite_spec zx fx zy fy hv
  exact ⟨N, v', h1, h2 _ _ (toNat_xorSign x y) (xorSign_le _ _), h3⟩

theorem isRNE_zero {N : ℕ} (hN : N < 2 ^ 256) (h : IsZero N) : IsRNE 0 N := by
  rw [← val_zero h]; exact isRNE_self hN (fin_of_zero h)

/-- C04 (partial). For finite operands the product is correctly rounded, with the exclusive or of
the signs, if the exact product is in the normal range, or (measured in units of the smallest
subnormal number) is not slightly above a midpoint. In the remaining cases the property does not
hold, see `C04_counterexample`, but `C04_error` does. -/
theorem C04_mul_partial (x y : F256) (hx : IsFin x.pat) (hy : IsFin y.pat)
    (h : (2 : ℝ) ^ (-262142 : ℤ) ≤ |val x.pat * val y.pat| ∨
      ∀ k : ℕ, ¬ (k + 1 / 2 < |val x.pat * val y.pat| * 2 ^ 262378 ∧
        |val x.pat * val y.pat| * 2 ^ 262378 < k + 5 / 8)) :
    IsRNE (val x.pat * val y.pat) (F256.mul x y).pat ∧
      signBit (F256.mul x y).pat = xorSign x.pat y.pat := by
  by_cases h0 : IsZero x.pat ∨ IsZero y.pat
  · obtain ⟨h1, h2⟩ := C05_zero x y hx hy h0
    refine ⟨?_, h2⟩
    have : val x.pat * val y.pat = 0 := by
      rcases h0 with h | h
      · rw [val_zero h, zero_mul]
      · rw [val_zero h, mul_zero]
    rw [this]
    exact isRNE_zero (pat_lt _) h1
  rw [not_or] at h0
  obtain ⟨A, v', hr, hp, hv⟩ := mul_finNonzero ⟨hx, h0.1⟩ ⟨hy, h0.2⟩
  rw [hp]
  have hA := hr.lt_pow
  refine ⟨?_, signBit_asm (xorSign_le _ _) hA⟩
  refine RoundsTo.isRNE ?_ (xorSign_le _ _) (sign_mul_val _ _).1 (sign_mul_val _ _).2
  have hlow : |val x.pat * val y.pat| * 2 ^ 262378 < 2 ^ 236 →
      ¬ (2 : ℝ) ^ (-262142 : ℤ) ≤ |val x.pat * val y.pat| := by
    intro h1 h2
    have e : (2 : ℝ) ^ (-262142 : ℤ) * 2 ^ 262378 = 2 ^ 236 := by
      rw [← zpow_natCast, ← zpow_natCast, ← zpow_add₀ (by norm_num)]
      rfl
    have := mul_le_mul_of_nonneg_right h2 (pow_nonneg (by norm_num : (0 : ℝ) ≤ 2) 262378)
    rw [e] at this
    exact absurd h1 (not_lt.mpr this)
  generalize |val x.pat * val y.pat| * 2 ^ 262378 = v at *
  by_cases hne : v' = v
  · rw [← hne]; exact hr
  obtain ⟨g1, g2, g3, g4, -⟩ := hv hne
  have h' := h.resolve_left (hlow g1)
  obtain ⟨t, M, r1, r2, r3, r4, r5⟩ := hr
  have ht : t = 0 := by
    rcases r2 with r2 | r2
    · exact r2
    · have : (2 : ℝ) ^ 236 ≤ 2 ^ (236 + t) := pow_le_pow_right₀ (by norm_num) (by omega)
      linarith
  subst ht
  rw [pow_zero, mul_one] at r3 r4
  rw [if_neg (by norm_num)] at r5
  have hle := abs_le.mp r3
  have hM : RNE v M := by
    have hh := h' M
    have hub : v ≤ M + 1 / 2 := by
      by_contra hc
      exact hh ⟨not_le.mp hc, by linarith⟩
    refine ⟨abs_le.mpr ⟨by linarith, by linarith⟩, fun he => ?_⟩
    exfalso
    rcases abs_cases (v - M) with ⟨e, -⟩ | ⟨e, -⟩
    · rw [e] at he
      exact g4 (2 * M + 1) (by push_cast; linarith)
    · rw [e] at he
      exact g4 (2 * M - 1) (by push_cast; linarith)
  have hR := RoundsTo.of_rne (v := v) (w := v) (t := 0) (by ring)
    (lt_trans g1 (by norm_num)) (Or.inl rfl) hM (by norm_num)
  rw [r5]
  exact hR

/-- C04, for products below the normal range: the error is at most 5/8 of the smallest subnormal
number (a correctly rounded product would be within 1/2), and the sign is right. -/
theorem C04_error (x y : F256) (hx : IsFin x.pat) (hy : IsFin y.pat)
    (h : |val x.pat * val y.pat| < (2 : ℝ) ^ (-262142 : ℤ)) :
    IsFin (F256.mul x y).pat ∧ signBit (F256.mul x y).pat = xorSign x.pat y.pat ∧
    |val (F256.mul x y).pat - val x.pat * val y.pat| ≤ 5 / 8 / 2 ^ 262378 := by
  have hK : (0 : ℝ) < 2 ^ 262378 := pow_pos (by norm_num) _
  by_cases h0 : IsZero x.pat ∨ IsZero y.pat
  · obtain ⟨h1, h2⟩ := C05_zero x y hx hy h0
    refine ⟨fin_of_zero h1, h2, ?_⟩
    have : val x.pat * val y.pat = 0 := by
      rcases h0 with h | h
      · rw [val_zero h, zero_mul]
      · rw [val_zero h, mul_zero]
    rw [this, val_zero h1, sub_zero, abs_zero]
    exact div_nonneg (by norm_num) hK.le
  rw [not_or] at h0
  have hv1 : |val x.pat * val y.pat| * 2 ^ 262378 < 2 ^ 236 := by
    have e : (2 : ℝ) ^ (-262142 : ℤ) * 2 ^ 262378 = 2 ^ 236 := by
      rw [← zpow_natCast, ← zpow_natCast, ← zpow_add₀ (by norm_num)]
      rfl
    have := mul_lt_mul_of_pos_right h hK
    rwa [e] at this
  obtain ⟨A, v', hr, hp, hv⟩ := mul_finNonzero ⟨hx, h0.1⟩ ⟨hy, h0.2⟩
  have hA := hr.lt_pow
  have hvle : v' ≤ |val x.pat * val y.pat| * 2 ^ 262378 ∧
      |val x.pat * val y.pat| * 2 ^ 262378 ≤ v' + 1 / 8 := by
    by_cases hne : v' = |val x.pat * val y.pat| * 2 ^ 262378
    · rw [hne]; exact ⟨le_rfl, by linarith⟩
    · obtain ⟨-, g2, g3, -⟩ := hv hne
      exact ⟨g2.le, g3.le⟩
  obtain ⟨t, M, r1, r2, r3, r4, r5⟩ := hr
  have ht : t = 0 := by
    rcases r2 with r2 | r2
    · exact r2
    · have : (2 : ℝ) ^ 236 ≤ 2 ^ (236 + t) := pow_le_pow_right₀ (by norm_num) (by omega)
      linarith [hvle.1]
  subst ht
  rw [pow_zero, mul_one] at r3
  rw [if_neg (by norm_num), zero_mul, zero_add] at r5
  subst r5
  have hle := abs_le.mp r3
  have hM : A ≤ 2 ^ 236 := by
    have h1 : (A : ℝ) < ((2 ^ 236 + 1 : ℕ) : ℝ) := by
      rw [Nat.cast_add, Nat.cast_pow, Nat.cast_ofNat, Nat.cast_one]; linarith [hvle.1]
    have h2 : A < 2 ^ 236 + 1 := by exact_mod_cast h1
    omega
  have hmod : (xorSign x.pat y.pat * 2 ^ 255 + A) % 2 ^ 255 = A := by omega
  have hmag : mag (F256.mul x y).pat = A := by
    rw [← mag_abs, hp, hmod]
    have e : expField A = A / 2 ^ 236 := by unfold expField; omega
    unfold mag significandOf fracField
    rw [e]
    by_cases hA2 : A = 2 ^ 236
    · rw [hA2]; decide
    · rw [show A / 2 ^ 236 = 0 by omega, if_pos rfl]; simp; omega
  have hfin : IsFin (F256.mul x y).pat := by
    rw [fin_iff, hp, hmod]; unfold INF; omega
  have hsgn : signBit (F256.mul x y).pat = xorSign x.pat y.pat := by
    rw [hp]; exact signBit_asm (xorSign_le _ _) hA
  refine ⟨hfin, hsgn, ?_⟩
  rw [le_div_iff₀ hK]
  -- both have the same sign
  have hz := abs_val (F256.mul x y).pat
  rw [hmag] at hz
  have key : |val (F256.mul x y).pat - val x.pat * val y.pat| =
      abs (|val (F256.mul x y).pat| - |val x.pat * val y.pat|) := by
    have hs := sign_mul_val x.pat y.pat
    rw [val_eq (F256.mul x y).pat, hsgn]
    have hxy : val x.pat * val y.pat = 0 ∨ val x.pat * val y.pat ≠ 0 := em _
    have hm0 : (0 : ℝ) ≤ mag (F256.mul x y).pat := Nat.cast_nonneg _
    rcases lt_trichotomy (val x.pat * val y.pat) 0 with hq | hq | hq
    · rw [hs.2 hq, pow_one, abs_of_neg hq]
      have : (-1 : ℝ) * (mag (F256.mul x y).pat / 2 ^ 262378) ≤ 0 := by
        rw [neg_one_mul]
        exact neg_nonpos.mpr (div_nonneg hm0 hK.le)
      rw [abs_of_nonpos this, ← abs_neg]
      congr 1; ring
    · rw [hq, sub_zero, abs_zero, sub_zero, abs_abs]
    · rw [hs.1 hq, pow_zero, one_mul, abs_of_pos hq, abs_of_nonneg (div_nonneg hm0 hK.le)]
  have e3 : ∀ a : ℝ, |a| * 2 ^ 262378 = |a * 2 ^ 262378| := fun a => by
    rw [abs_mul, abs_of_pos hK]
  rw [key, e3, sub_mul, hz]
  exact abs_le.mpr ⟨by linarith [hvle.1, hvle.2], by linarith [hvle.1, hvle.2]⟩

/-! ## Concrete cases and the counterexample -/

/-- significand `(2^120 + 1) * 2^116`, exponent field 131071 -/
def mulX : F256 := ⟨⟨0x1ffff000000000000000000000000000, 0x100000000000000000000000000000⟩⟩
/-- significand `(2^119 + 9) * 2^117`, exponent field 131072 -/
def mulY : F256 := ⟨⟨0x20000000000000000000000000000000, 0x1200000000000000000000000000000⟩⟩

theorem mulXY : (F256.mul mulX mulY).pat = ((2 ^ 120 + 1) * (2 ^ 119 + 9)) / 16 := by decide

/-- The property C04 does not hold without the restriction in `C04_mul_partial`: the exact product
of `mulX` and `mulY` is `k + 9/16` units of the smallest subnormal number, but `k` is returned. -/
theorem C04_counterexample : ∃ x y : F256, IsFin x.pat ∧ IsFin y.pat ∧
    ¬ IsRNE (val x.pat * val y.pat) (F256.mul x y).pat := by
  refine ⟨mulX, mulY, by decide, by decide, fun h => ?_⟩
  have mx : mag mulX.pat = (2 ^ 120 + 1) * 2 ^ 116 * 2 ^ 131070 := by
    unfold mag
    rw [show significandOf mulX.pat = (2 ^ 120 + 1) * 2 ^ 116 by decide,
      show expField mulX.pat - 1 = 131070 by decide]
  have my : mag mulY.pat = (2 ^ 119 + 9) * 2 ^ 117 * 2 ^ 131071 := by
    unfold mag
    rw [show significandOf mulY.pat = (2 ^ 119 + 9) * 2 ^ 117 by decide,
      show expField mulY.pat - 1 = 131071 by decide]
  have hv : |val mulX.pat * val mulY.pat| * 2 ^ 262378 =
      ((2 ^ 120 + 1) * (2 ^ 119 + 9) : ℝ) / 16 := by
    rw [abs_mul_val, mx, my]
    have e : (2 : ℝ) ^ 262378 = 2 ^ 131070 * 2 ^ 131071 * 2 ^ 116 * 2 ^ 117 * 2 ^ 4 := by
      rw [← pow_add, ← pow_add, ← pow_add, ← pow_add]
    rw [e]
    simp only [Nat.cast_mul, Nat.cast_add, Nat.cast_pow, Nat.cast_ofNat, Nat.cast_one]
    have h1 : (2 : ℝ) ^ 131070 ≠ 0 := pow_ne_zero _ (by norm_num)
    have h2 : (2 : ℝ) ^ 131071 ≠ 0 := pow_ne_zero _ (by norm_num)
    generalize (2 : ℝ) ^ 131070 = A at *
    generalize (2 : ℝ) ^ 131071 = B at *
    field_simp
    norm_num
  have hR : RoundsTo (|val mulX.pat * val mulY.pat| * 2 ^ 262378)
      (0 * 2 ^ 236 + ((2 ^ 120 + 1) * (2 ^ 119 + 9) / 16 + 1)) := by
    rw [hv]
    refine RoundsTo.of_rne (t := 0) (w := ((2 ^ 120 + 1) * (2 ^ 119 + 9) : ℝ) / 16)
      (by rw [pow_zero, mul_one]) (by norm_num) (Or.inl rfl) ⟨?_, fun h => absurd h ?_⟩ (by norm_num)
    · rw [abs_le]; norm_num
    · norm_num [abs_of_neg, abs_of_pos]
  have hI := RoundsTo.isRNE (s := 0) hR (by norm_num) (fun _ => rfl) (fun hn => by
    have := (sign_mul_val mulX.pat mulY.pat).2 hn
    exact absurd this (by decide))
  have hne : val mulX.pat * val mulY.pat ≠ 0 := by
    intro h0
    rw [h0, abs_zero, zero_mul] at hv
    norm_num at hv
  have := IsRNE.unique h hI hne
  rw [mulXY] at this
  norm_num at this

example : F256.mul F256.TWO F256.TWO = ⟨⟨0x40001000000000000000000000000000, 0⟩⟩ := by decide
-- a product that is rounded up: (1 + 2^-236)^2 = 1 + 2^-235 + 2^-472
example : F256.mul ⟨⟨HI_FRACTION_BIAS * 262143, 1⟩⟩ ⟨⟨HI_FRACTION_BIAS * 262143, 1⟩⟩ =
    ⟨⟨HI_FRACTION_BIAS * 262143, 2⟩⟩ := by decide
example : F256.mul F256.MAX F256.TWO = F256.INFINITY := by decide
example : F256.mul F256.MIN_GT_ZERO F256.MIN_GT_ZERO = F256.ZERO := by decide
example : IsFin F256.NEG_ZERO.pat ∧ IsZero F256.NEG_ZERO.pat ∧ IsInf F256.INFINITY.pat ∧
    ¬ IsZero F256.TWO.pat ∧ ¬ IsNaN F256.TWO.pat ∧ xorSign F256.NEG_ZERO.pat F256.TWO.pat = 1 := by
  decide

end Verif.Props
