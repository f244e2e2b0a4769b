import Verif.Proofs.Rem
import Verif.Props.Div
import Verif.Props.Integral

/-!
# Remainder (C08)
-/

namespace Verif.Props

open Verif Spec BigUInt

/-- The branch for special operands. -/
theorem rem_special {x y : F256}
    (h : IsZero x.pat ∨ IsZero y.pat ∨ ¬ IsFin x.pat ∨ ¬ IsFin y.pat) :
    F256.rem x y = some (
      if IsNaN x.pat ∨ IsNaN y.pat ∨ IsZero y.pat ∨ IsInf x.pat then F256.NAN else x) := by
  obtain ⟨x1, x2, x3, x4⟩ := sticky_facts x
  obtain ⟨y1, y2, y3, y4⟩ := sticky_facts y
  have hs := anySpecial2_true h
  unfold F256.rem
  simp only [hs, if_true, BitVec.le_def, BitVec.lt_def]
  generalize absBitsSticky (absBits x) = a at *
  generalize absBitsSticky (absBits y) = b at *
  have hmax : (if a.toNat ≤ b.toNat then b else a).toNat = max a.toNat b.toNat := by
    split <;> omega
  have hI : HI_EXP_MASK.toNat = 524287 * 2 ^ 108 := by decide
  have c1 : (HI_EXP_MASK.toNat < (if a.toNat ≤ b.toNat then b else a).toNat ∨ b = 0 ∨
      a = HI_EXP_MASK) ↔ IsNaN x.pat ∨ IsNaN y.pat ∨ IsZero y.pat ∨ IsInf x.pat := by
    rw [← BitVec.toNat_inj, ← BitVec.toNat_inj, hmax, hI, ← x4, ← y4, ← y1, ← x3,
      show (0 : BitVec 128).toNat = 0 by decide]
    omega
  simp only [c1]
  split <;> rfl

/-- C08. Invalid remainders (a NaN operand, an infinite dividend, a zero divisor) are NaN; the
remainder by an infinity, and of a zero by a non-zero number, is the dividend itself. -/
theorem C08_special (x y : F256) :
    (IsNaN x.pat ∨ IsNaN y.pat ∨ IsInf x.pat ∨ IsZero y.pat → F256.rem x y = some F256.NAN) ∧
    (IsFin x.pat → IsInf y.pat → F256.rem x y = some x) ∧
    (IsZero x.pat → IsFin y.pat → ¬ IsZero y.pat → F256.rem x y = some x) := by
  refine ⟨fun h => ?_, fun h1 h2 => ?_, fun h1 h2 h3 => ?_⟩
  · rw [rem_special, if_pos]
    · rcases h with h | h | h | h <;> simp [h]
    · rcases h with h | h | h | h
      · simp [not_fin_of_nan h]
      · simp [not_fin_of_nan h]
      · simp [not_fin_of_inf h]
      · simp [h]
  · rw [rem_special (by simp [not_fin_of_inf h2]), if_neg]
    rintro (h | h | h | h)
    · exact not_nan_of_fin h1 h
    · exact h.2 h2.2
    · exact not_fin_of_inf h2 (fin_of_zero h)
    · exact not_inf_of_fin h1 h
  · rw [rem_special (by simp [h1]), if_neg]
    rintro (h | h | h | h)
    · exact not_nan_of_fin (fin_of_zero h1) h
    · exact not_nan_of_fin h2 h
    · exact h3 h
    · exact not_inf_of_fin (fin_of_zero h1) h

/-- The significand of the divisor has a zero high half, or one of at least 64 bits. All normal
numbers qualify; only subnormal divisors between `2^128` and `2^192` quanta do not. -/
def Divisor (N : ℕ) : Prop := significandOf N < 2 ^ 128 ∨ 2 ^ 192 ≤ significandOf N

theorem divisor_of_normal {N : ℕ} (h : IsNormal N) : Divisor N := by
  right
  unfold significandOf
  rw [if_neg h.1]
  exact le_trans (Nat.pow_le_pow_right (by norm_num) (by norm_num)) (Nat.le_add_right _ _)

theorem good_of {y : F256} (hy : IsFin y.pat) (h : Divisor y.pat) :
    GoodDivisor (signif (absBits y)) := by
  have h1 := (decodedNat (A := absBits y) (by rw [nat_absBits]; exact (fin_iff _).mp hy)).1
  rw [nat_absBits] at h1
  have sy : significandOf (y.pat % 2 ^ 255) = significandOf y.pat := by
    simp only [significandOf, expField_abs, fracField_abs]
  rw [sy] at h1
  have h2 : nat256 (signif (absBits y)) = (signif (absBits y)).hi.toNat * 2 ^ 128 +
    (signif (absBits y)).lo.toNat := rfl
  have h3 := (signif (absBits y)).lo.isLt
  unfold GoodDivisor
  unfold Divisor at h
  rw [← h1] at h
  generalize (signif (absBits y)).hi.toNat = a at *
  omega

/-- Truncated quotients of signed magnitudes. -/
theorem trunc_signed (s t : ℕ) (q : ℝ) (hq : 0 ≤ q) :
    ((truncReal ((-1) ^ s * q * (-1) ^ t) : ℤ) : ℝ) = (-1) ^ s * (⌊q⌋₊ : ℝ) * (-1) ^ t := by
  have key : ∀ e : ℝ, e = 1 ∨ e = -1 → ((truncReal (e * q) : ℤ) : ℝ) = e * (⌊q⌋₊ : ℝ) := by
    rintro e (rfl | rfl)
    · rw [one_mul, one_mul, truncReal, if_pos hq, natCast_floor_eq_intCast_floor hq]
    · rw [neg_one_mul, neg_one_mul, truncReal]
      split
      · have : q = 0 := by linarith
        subst this; simp
      · rw [Int.ceil_neg, Int.cast_neg, natCast_floor_eq_intCast_floor hq]
  have hs : ((-1 : ℝ) ^ s * (-1) ^ t = 1) ∨ ((-1 : ℝ) ^ s * (-1) ^ t = -1) := by
    rw [← pow_add]; exact neg_one_pow_eq_or ℝ _
  have := key _ hs
  rw [show (-1 : ℝ) ^ s * q * (-1) ^ t = (-1) ^ s * (-1) ^ t * q by ring, this]
  ring

/-- The real number with the magnitude `a mod b` and the sign of `a` is the truncated remainder. -/
theorem rem_real {x y A : ℕ} {v : ℝ} (hm : mag A = mag x % mag y) (hy : 0 < mag y)
    (hv : v = (-1) ^ signBit x * (mag A / 2 ^ 262378 : ℝ)) :
    v = val x - val y * (truncReal (val x / val y) : ℤ) ∧ |v| < |val y| := by
  have habs : ∀ s : ℕ, |(-1 : ℝ) ^ s| = 1 := fun s => by rw [abs_pow, abs_neg, abs_one, one_pow]
  have hyR : (0 : ℝ) < mag y := by exact_mod_cast hy
  rw [hv, val_eq x, val_eq y, hm]
  have hK : (0 : ℝ) < 2 ^ 262378 := pow_pos (by norm_num) _
  generalize (2 : ℝ) ^ 262378 = K at *
  have hsq : (-1 : ℝ) ^ signBit y * (-1) ^ signBit y = 1 := by
    rw [← mul_pow]; norm_num
  have hne : (-1 : ℝ) ^ signBit y ≠ 0 := fun h => by rw [h, zero_mul] at hsq; norm_num at hsq
  have hdiv : (-1 : ℝ) ^ signBit x * (mag x / K) / ((-1) ^ signBit y * (mag y / K)) =
      (-1) ^ signBit x * ((mag x : ℝ) / mag y) * (-1) ^ signBit y := by
    rw [div_eq_iff (mul_ne_zero hne (div_ne_zero hyR.ne' hK.ne'))]
    rw [show (-1 : ℝ) ^ signBit x * ((mag x : ℝ) / mag y) * (-1) ^ signBit y *
        ((-1) ^ signBit y * (mag y / K)) = (-1 : ℝ) ^ signBit x * ((mag x : ℝ) / mag y) *
        (mag y / K) * ((-1) ^ signBit y * (-1) ^ signBit y) by ring, hsq]
    field_simp
  constructor
  · rw [hdiv, trunc_signed _ _ _ (by positivity), Nat.floor_div_eq_div]
    have hnat : (mag x : ℝ) = mag y * (mag x / mag y : ℕ) + (mag x % mag y : ℕ) := by
      exact_mod_cast (Nat.div_add_mod (mag x) (mag y)).symm
    rw [show (-1 : ℝ) ^ signBit y * ((mag y : ℝ) / K) * ((-1) ^ signBit x *
      ((mag x / mag y : ℕ) : ℝ) * (-1) ^ signBit y) = (-1) ^ signBit x * (((mag y : ℝ) *
      (mag x / mag y : ℕ)) / K) * ((-1) ^ signBit y * (-1) ^ signBit y) by ring, hsq, mul_one,
      ← mul_sub, ← sub_div]
    congr 2
    linarith
  · rw [abs_mul, abs_mul, habs, habs, one_mul, one_mul, abs_of_nonneg (by positivity),
      abs_of_nonneg (by positivity)]
    apply div_lt_div_of_pos_right _ hK
    exact_mod_cast Nat.mod_lt _ hy

/-- C08 (partial). For a finite dividend and a finite non-zero divisor (of a significand as in
`Divisor`, which holds for every normal number): whenever `x % y` returns, it returns
`x - y * trunc(x/y)` exactly, smaller than `y` in magnitude, with the sign of `x` — except that an
exact multiple gives `+0` instead of a zero with the sign of `x`. And it returns unless the
exponents of the two significands differ by 19 modulo 256 and the significand of `x` is one of the
`2^129` largest (or `y` is subnormal with a significand of more than 192 bits). Not covered: the
divisors excluded by `Divisor`; panics as in `C08_counterexample`. -/
theorem C08_rem_partial (x y : F256) (hx : IsFin x.pat) (hy : IsFin y.pat) (hy0 : ¬ IsZero y.pat)
    (hd : Divisor y.pat) :
    (∀ z, F256.rem x y = some z → IsFin z.pat ∧
      val z.pat = val x.pat - val y.pat * (truncReal (val x.pat / val y.pat) : ℤ) ∧
      |val z.pat| < |val y.pat| ∧
      (signBit z.pat = signBit x.pat ∨ z.pat = 0)) ∧
    ((expField x.pat - 1 - (expField y.pat - 1)) % 256 ≠ 19 ∨ significandOf y.pat < 2 ^ 128 ∨
        (IsNormal y.pat ∧ significandOf x.pat < 2 ^ 237 - 2 ^ 129) →
      ∃ z, F256.rem x y = some z) := by
  have hyF := (fin_iff _).mp hy
  have hyN : y.pat % 2 ^ 255 ≠ 0 := fun h => hy0 ((isZero_iff _).mpr h)
  have hmy : 0 < mag y.pat := by
    rw [← mag_abs]; exact mag_pos (Nat.pos_of_ne_zero hyN) hyF
  by_cases hx0 : IsZero x.pat
  · have hr := (C08_special x y).2.2 hx0 hy hy0
    refine ⟨fun z hz => ?_, fun _ => ⟨x, hr⟩⟩
    rw [hr, Option.some.injEq] at hz
    subst hz
    have hm : mag x.pat = 0 := by rw [← mag_abs, (isZero_iff _).mp hx0, mag_zero]
    obtain ⟨h1, h2⟩ := rem_real (x := x.pat) (y := y.pat) (A := x.pat) (v := val x.pat)
      (by rw [hm, Nat.zero_mod]) hmy (val_eq _)
    exact ⟨hx, h1, h2, Or.inl rfl⟩
  have hxF := (fin_iff _).mp hx
  obtain ⟨g1, g2⟩ := remFinite_spec hxF hyN hyF (good_of hy hd)
  have hns := anySpecial2_false ⟨hx, hx0⟩ ⟨hy, hy0⟩
  have hrem : F256.rem x y = remFinite x (absBits x) (absBits y) := by
    unfold F256.rem
    simp only [hns, Bool.false_eq_true, if_false]
  rw [hrem]
  constructor
  · intro z hz
    obtain ⟨A, hA, hm, hp⟩ := g1 z hz
    have hAl : A < 2 ^ 255 := lt_trans hA INF_lt
    have hs1 : signBit x.pat ≤ 1 := by unfold signBit; omega
    rcases hp with hp | ⟨rfl, hp⟩
    · have e1 : z.pat % 2 ^ 255 = A := by
        rw [hp, Nat.mul_comm, Nat.mul_add_mod, Nat.mod_eq_of_lt hAl]
      have e2 : signBit z.pat = signBit x.pat := by
        unfold signBit at hs1 ⊢
        rw [hp]; unfold signBit; omega
      have e3 : mag z.pat = mag A := by rw [← mag_abs, e1]
      have hfin : IsFin z.pat := by rw [fin_iff, e1]; exact hA
      obtain ⟨h1, h2⟩ := rem_real (v := val z.pat) hm hmy (by rw [val_eq, e2, e3])
      exact ⟨hfin, h1, h2, Or.inl e2⟩
    · have hz0 : val z.pat = 0 := by
        rw [hp]; apply val_zero; decide
      have hfin : IsFin z.pat := by rw [hp]; decide
      obtain ⟨h1, h2⟩ := rem_real (v := val z.pat) hm hmy (by rw [hz0, mag_zero]; simp)
      exact ⟨hfin, h1, h2, Or.inr hp⟩
  · rintro (h | h | ⟨h, h'⟩)
    · exact g2 (Or.inl h)
    · exact g2 (Or.inr (Or.inl h))
    · refine g2 (Or.inr (Or.inr ⟨?_, h'⟩))
      unfold significandOf
      rw [if_neg h.1]
      exact Nat.le_add_right _ _

/-- 7 % 3 = 1: the hypotheses of `C08_rem_partial` hold for a concrete case. -/
example : ∃ x y : F256, IsFin x.pat ∧ IsFin y.pat ∧ ¬ IsZero y.pat ∧ Divisor y.pat ∧
    (expField x.pat - 1 - (expField y.pat - 1)) % 256 ≠ 19 ∧ F256.rem x y = some F256.ONE :=
  ⟨⟨⟨0x40001c00000000000000000000000000, 0⟩⟩, ⟨⟨0x40000800000000000000000000000000, 0⟩⟩,
    by decide, by decide, by decide, by unfold Divisor; decide, by decide, by decide +kernel⟩

/-- C08 is false of the code: there are finite `x` and normal `y` for which `x % y` panics; the
remainder of a negative exact multiple is `+0`, without the sign of `x`; and for a subnormal
divisor the remainder of a multiple can be the divisor itself. -/
theorem C08_counterexample :
    (∃ x y : F256, IsNormal x.pat ∧ IsNormal y.pat ∧ F256.rem x y = none) ∧
    (∃ x y : F256, IsFin x.pat ∧ signBit x.pat = 1 ∧ IsNormal y.pat ∧
      F256.rem x y = some F256.ZERO) ∧
    (∃ x y : F256, IsFin x.pat ∧ IsFin y.pat ∧ ¬ IsZero y.pat ∧ F256.rem x y = some y) := by
  refine ⟨⟨⟨⟨0x40012fffffffffffffffffffffffffff, 0xffffffffffffffffffffffffffffffff⟩⟩,
    ⟨⟨0x3fffe000000000000000000000000000 + (0xffffffffffffffffffffffffffffffff : BitVec 128) / 983055,
      0xffffffffffffffffffffffffffffffff⟩⟩, by decide, by decide, by decide +kernel⟩,
    ⟨⟨⟨0xc0001000000000000000000000000000, 0⟩⟩, ⟨⟨0x40000000000000000000000000000000, 0⟩⟩,
      by decide, by decide, by decide, by decide +kernel⟩,
    ⟨⟨⟨0x1ffffffffffffffff, 0xffffffffffffffff0000000000000000⟩⟩,
      ⟨⟨1, 0xffffffffffffffffffffffffffffffff⟩⟩,
      by decide, by decide, by decide, by decide +kernel⟩⟩

end Verif.Props
