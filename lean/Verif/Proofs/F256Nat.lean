import Verif.Model.F256
import Verif.Proofs.LawfulUInt
import Verif.Proofs.LawfulU128
import Verif.Proofs.Rounding
import Mathlib.Tactic.IntervalCases

/-!
# The encoding helpers of the model as arithmetic on bit patterns
-/

namespace Verif

open BigUInt LawfulBigUInt

/-- The bit pattern of an `F256` as a natural number. -/
def F256.pat (x : F256) : ℕ := x.bits.hi.toNat * 2 ^ 128 + x.bits.lo.toNat

/-- A 256-bit integer as a natural number. -/
def nat256 (x : U256) : ℕ := x.hi.toNat * 2 ^ 128 + x.lo.toNat

theorem nat256_eq (x : U256) : UInt.nat x = nat256 x := rfl

theorem pat_eq (x : F256) : x.pat = nat256 x.bits := rfl

theorem nat256_lt (x : U256) : nat256 x < 2 ^ 256 := by
  have := x.hi.isLt; have := x.lo.isLt; unfold nat256; omega

theorem pat_lt (x : F256) : x.pat < 2 ^ 256 := nat256_lt x.bits

theorem nat256_mk (h l : BitVec 128) : nat256 ⟨h, l⟩ = h.toNat * 2 ^ 128 + l.toNat := rfl

theorem nat256_new (h l : BitVec 128) : nat256 (U256.new h l) = h.toNat * 2 ^ 128 + l.toNat := rfl

theorem nat256_inj {x y : U256} (h : nat256 x = nat256 y) : x = y := by
  have := x.lo.isLt; have := y.lo.isLt
  unfold nat256 at h
  have h1 : x.hi = y.hi := BitVec.eq_of_toNat_eq (by omega)
  have h2 : x.lo = y.lo := BitVec.eq_of_toNat_eq (by omega)
  cases x; cases y; simp_all

theorem pat_inj {x y : F256} (h : x.pat = y.pat) : x = y := by
  cases x; cases y; congr 1; exact nat256_inj h

/-! ## Masks -/

theorem and_high (n j k : ℕ) : n &&& ((2 ^ k - 1) * 2 ^ j) = n / 2 ^ j % 2 ^ k * 2 ^ j := by
  rw [← Nat.shiftLeft_eq, ← Nat.shiftLeft_eq, ← Nat.and_two_pow_sub_one_eq_mod,
    ← Nat.shiftRight_eq_div_pow]
  apply Nat.eq_of_testBit_eq
  intro i
  simp only [Nat.testBit_and, Nat.testBit_shiftLeft, Nat.testBit_shiftRight]
  by_cases h : j ≤ i
  · simp [h]
  · simp [h]

theorem or_disjoint {a b k : ℕ} (h : b < 2 ^ k) : a * 2 ^ k ||| b = a * 2 ^ k + b := by
  rw [Nat.mul_comm, Nat.two_pow_add_eq_or_of_lt h]

theorem or_disjoint' {a b k : ℕ} (h : b < 2 ^ k) : b ||| a * 2 ^ k = a * 2 ^ k + b := by
  rw [Nat.or_comm, or_disjoint h]

theorem toNat_and_abs (h : BitVec 128) : (h &&& HI_ABS_MASK).toNat = h.toNat % 2 ^ 127 := by
  rw [BitVec.toNat_and, show HI_ABS_MASK.toNat = 2 ^ 127 - 1 by decide,
    Nat.and_two_pow_sub_one_eq_mod]

theorem toNat_and_frac (h : BitVec 128) : (h &&& HI_FRACTION_MASK).toNat = h.toNat % 2 ^ 108 := by
  rw [BitVec.toNat_and, show HI_FRACTION_MASK.toNat = 2 ^ 108 - 1 by decide,
    Nat.and_two_pow_sub_one_eq_mod]

theorem toNat_and_sign (h : BitVec 128) :
    (h &&& HI_SIGN_MASK).toNat = h.toNat / 2 ^ 127 * 2 ^ 127 := by
  rw [BitVec.toNat_and, show HI_SIGN_MASK.toNat = (2 ^ 1 - 1) * 2 ^ 127 by decide, and_high]
  have := h.isLt
  omega

theorem toNat_and_exp (h : BitVec 128) :
    (h &&& HI_EXP_MASK).toNat = h.toNat / 2 ^ 108 % 2 ^ 19 * 2 ^ 108 := by
  rw [BitVec.toNat_and, show HI_EXP_MASK.toNat = (2 ^ 19 - 1) * 2 ^ 108 by decide, and_high]

theorem toNat_xor_sign (h : BitVec 128) :
    (h ^^^ HI_SIGN_MASK).toNat = (1 - h.toNat / 2 ^ 127) * 2 ^ 127 + h.toNat % 2 ^ 127 := by
  have hl := h.isLt
  rw [BitVec.toNat_xor, show HI_SIGN_MASK.toNat = 2 ^ 127 by decide]
  have e1 := Nat.xor_div_two_pow (a := h.toNat) (b := 2 ^ 127) (n := 127)
  have e2 := Nat.xor_mod_two_pow (a := h.toNat) (b := 2 ^ 127) (n := 127)
  rw [Nat.mod_self, Nat.xor_zero] at e2
  rw [Nat.div_self (by norm_num)] at e1
  have e3 : h.toNat / 2 ^ 127 ^^^ 1 = 1 - h.toNat / 2 ^ 127 := by
    have : h.toNat / 2 ^ 127 < 2 := by omega
    generalize h.toNat / 2 ^ 127 = k at *
    interval_cases k <;> rfl
  rw [e3] at e1
  omega

/-! ## Fields -/

theorem nat_absBits (x : F256) : nat256 (absBits x) = x.pat % 2 ^ 255 := by
  have := x.bits.lo.isLt
  rw [absBits, nat256_new, toNat_and_abs, F256.pat]
  omega

theorem absBits_lt (x : F256) : nat256 (absBits x) < 2 ^ 255 := by
  rw [nat_absBits]; exact Nat.mod_lt _ (by norm_num)

theorem expBits_eq (a : U256) : expBits a = nat256 a / 2 ^ 236 := by
  have := a.lo.isLt
  rw [expBits, BitVec.toNat_ushiftRight, HI_FRACTION_BITS, Nat.shiftRight_eq_div_pow, nat256]
  omega

theorem nat_fraction (a : U256) : nat256 (fraction a) = nat256 a % 2 ^ 236 := by
  have := a.lo.isLt
  rw [fraction, nat256_new, toNat_and_frac, nat256]
  omega

theorem bias_le_iff (a : U256) : HI_FRACTION_BIAS ≤ a.hi ↔ 2 ^ 236 ≤ nat256 a := by
  have := a.lo.isLt
  rw [BitVec.le_def, show HI_FRACTION_BIAS.toNat = 2 ^ 108 by decide, nat256]
  omega

theorem normBit_eq (a : U256) : normBit a = if 2 ^ 236 ≤ nat256 a then 1 else 0 := by
  rw [normBit, decide_eq_decide.mpr (bias_le_iff a)]
  by_cases h : 2 ^ 236 ≤ nat256 a
  · rw [if_pos h, decide_eq_true h]; rfl
  · rw [if_neg h, decide_eq_false h]; rfl

theorem toNat_bool_shl (b : Bool) : (boolU128 b <<< HI_FRACTION_BITS).toNat = b.toNat * 2 ^ 108 := by
  cases b <;> decide

theorem nat_signif (a : U256) :
    nat256 (signif a) = if 2 ^ 236 ≤ nat256 a then 2 ^ 236 + nat256 a % 2 ^ 236
      else nat256 a := by
  have h1 := a.lo.isLt
  have h2 := a.hi.isLt
  rw [signif, nat256_new, BitVec.toNat_or, toNat_bool_shl, toNat_and_frac,
    decide_eq_decide.mpr (bias_le_iff a), or_disjoint (Nat.mod_lt _ (by norm_num))]
  by_cases h : 2 ^ 236 ≤ nat256 a
  · rw [if_pos h, decide_eq_true h, Bool.toNat_true]
    unfold nat256; omega
  · rw [if_neg h, decide_eq_false h, Bool.toNat_false]
    unfold nat256 at h ⊢; omega

theorem sign_eq (x : F256) : x.sign = x.pat / 2 ^ 255 := by
  have := x.bits.lo.isLt
  rw [F256.sign, BitVec.toNat_ushiftRight, HI_SIGN_SHIFT, Nat.shiftRight_eq_div_pow, F256.pat]
  omega

theorem toNat_signBitsHi (x : F256) : (signBitsHi x).toNat = x.pat / 2 ^ 255 * 2 ^ 127 := by
  have := x.bits.lo.isLt
  rw [signBitsHi, toNat_and_sign, F256.pat]
  omega

theorem pat_div_lt (x : F256) : x.pat / 2 ^ 255 < 2 := by
  have := pat_lt x; omega

theorem pat_negated (x : F256) :
    x.negated.pat = (1 - x.pat / 2 ^ 255) * 2 ^ 255 + x.pat % 2 ^ 255 := by
  have := x.bits.lo.isLt
  rw [F256.negated, F256.pat]
  simp only [U256.new]
  rw [toNat_xor_sign, F256.pat]
  omega

theorem pat_abs (x : F256) : x.abs.pat = x.pat % 2 ^ 255 := nat_absBits x

/-! ## Predicates -/

theorem toNat_boolU128 (b : Bool) : (boolU128 b).toNat = b.toNat := by cases b <;> decide

theorem or_bool (n : ℕ) (b : Bool) : n ||| b.toNat = n / 2 * 2 + max (n % 2) b.toNat := by
  have h1 := Nat.or_div_two_pow (a := n) (b := b.toNat) (n := 1)
  have h2 := Nat.or_mod_two_pow (a := n) (b := b.toNat) (n := 1)
  rw [pow_one] at h1 h2
  have h3 : n % 2 < 2 := Nat.mod_lt _ (by norm_num)
  have e2 : n % 2 ||| b.toNat % 2 = max (n % 2) b.toNat := by
    generalize n % 2 = k at *
    cases b <;> interval_cases k <;> rfl
  have e1 : n / 2 ||| b.toNat / 2 = n / 2 := by cases b <;> simp
  rw [e2] at h2; rw [e1] at h1
  have : max (n % 2) b.toNat < 2 := by cases b <;> simp <;> omega
  omega

theorem toNat_sticky (a : U256) : (absBitsSticky a).toNat =
    a.hi.toNat / 2 * 2 + max (a.hi.toNat % 2) (decide (a.lo.toNat ≠ 0)).toNat := by
  rw [absBitsSticky, BitVec.toNat_or, toNat_boolU128, or_bool]
  congr 4
  rw [eq_iff_iff, not_iff_not]
  exact ⟨fun h => by rw [h]; rfl, fun h => BitVec.eq_of_toNat_eq h⟩

/-- How the sticky high word compares with an even word. -/
theorem sticky_cmp (a : U256) (k : ℕ) :
    ((absBitsSticky a).toNat < 2 * k ↔ nat256 a < 2 * k * 2 ^ 128) ∧
    ((absBitsSticky a).toNat = 2 * k ↔ nat256 a = 2 * k * 2 ^ 128) := by
  have h1 := a.lo.isLt
  rw [toNat_sticky]
  unfold nat256
  by_cases h : a.lo.toNat = 0
  · rw [decide_eq_false (by simpa using h), Bool.toNat_false, Nat.max_zero]
    constructor <;> omega
  · rw [decide_eq_true h, Bool.toNat_true]
    have : max (a.hi.toNat % 2) 1 = 1 := by omega
    rw [this]
    constructor <;> omega

theorem sticky_lt (a : U256) (k : ℕ) :
    (absBitsSticky a).toNat < 2 * k ↔ nat256 a < 2 * k * 2 ^ 128 := (sticky_cmp a k).1

theorem sticky_eq (a : U256) (k : ℕ) :
    (absBitsSticky a).toNat = 2 * k ↔ nat256 a = 2 * k * 2 ^ 128 := (sticky_cmp a k).2

theorem sticky_eq_zero (a : U256) : (absBitsSticky a).toNat = 0 ↔ nat256 a = 0 := by
  have := sticky_eq a 0; simpa using this

theorem isSpecialHi_iff (h : BitVec 128) :
    isSpecialHi h = true ↔ h.toNat = 0 ∨ 524287 * 2 ^ 108 ≤ h.toNat := by
  have := h.isLt
  rw [isSpecialHi, decide_eq_true_iff, BitVec.le_def, BitVec.toNat_sub,
    show MAX_HI.toNat = 524287 * 2 ^ 108 - 1 by decide, show (1 : BitVec 128).toNat = 1 by decide]
  omega

theorem special_iff (a : U256) : isSpecialHi (absBitsSticky a) = true ↔
    nat256 a = 0 ∨ INF ≤ nat256 a := by
  rw [isSpecialHi_iff, sticky_eq_zero]
  have := sticky_lt a (524287 * 2 ^ 107)
  unfold INF
  omega

theorem nan_iff (x : F256) : x.isNan = true ↔ INF < x.pat % 2 ^ 255 := by
  have h1 := sticky_cmp (absBits x) (524287 * 2 ^ 107)
  rw [nat_absBits] at h1
  have e : x.isNan = decide (HI_EXP_MASK < absBitsSticky (absBits x)) := rfl
  rw [e, decide_eq_true_iff, BitVec.lt_def, show HI_EXP_MASK.toNat = 2 * (524287 * 2 ^ 107) by decide]
  unfold INF
  omega

theorem isSpecial_iff (x : F256) : x.isSpecial = true ↔
    x.pat % 2 ^ 255 = 0 ∨ INF ≤ x.pat % 2 ^ 255 := by
  rw [← nat_absBits, ← special_iff]; rfl

theorem eqZero_iff (x : F256) : x.eqZero = true ↔ x.pat % 2 ^ 255 = 0 := by
  have h1 := x.bits.lo.isLt
  have h2 := x.bits.hi.isLt
  rw [F256.eqZero, Bool.and_eq_true, decide_eq_true_iff, decide_eq_true_iff,
    ← BitVec.toNat_inj, ← BitVec.toNat_inj, BitVec.toNat_shiftLeft, Nat.shiftLeft_eq, F256.pat,
    show (0 : BitVec 128).toNat = 0 by decide]
  omega

theorem isInfinite_iff (x : F256) : x.isInfinite = true ↔ x.pat % 2 ^ 255 = INF := by
  have h1 := x.bits.lo.isLt
  have h2 := x.bits.hi.isLt
  rw [F256.isInfinite, Bool.and_eq_true, decide_eq_true_iff, decide_eq_true_iff,
    ← BitVec.toNat_inj, ← BitVec.toNat_inj, toNat_and_abs, F256.pat,
    show (0 : BitVec 128).toNat = 0 by decide,
    show HI_EXP_MASK.toNat = 524287 * 2 ^ 108 by decide, INF]
  omega

theorem isFinite_iff (x : F256) : x.isFinite = true ↔ x.pat % 2 ^ 255 < INF := by
  have h1 := x.bits.lo.isLt
  have h2 := x.bits.hi.isLt
  rw [F256.isFinite, decide_eq_true_iff,
    ne_eq, ← BitVec.toNat_inj, toNat_and_exp, F256.pat,
    show HI_EXP_MASK.toNat = 524287 * 2 ^ 108 by decide, INF]
  omega

theorem biasedExponent_eq (x : F256) : x.biasedExponent = Spec.expField x.pat := by
  have h1 := x.bits.lo.isLt
  rw [F256.biasedExponent, BitVec.toNat_ushiftRight, toNat_and_exp, HI_FRACTION_BITS,
    Nat.shiftRight_eq_div_pow, Spec.expField, F256.pat]
  omega

/-! ## Specification predicates as inequalities on the pattern -/

theorem fin_iff (N : ℕ) : Spec.IsFin N ↔ N % 2 ^ 255 < INF := by
  unfold Spec.IsFin Spec.expField INF; omega

theorem isInf_iff (N : ℕ) : Spec.IsInf N ↔ N % 2 ^ 255 = INF := by
  unfold Spec.IsInf Spec.expField Spec.fracField INF; omega

theorem isNaN_iff (N : ℕ) : Spec.IsNaN N ↔ INF < N % 2 ^ 255 := by
  unfold Spec.IsNaN Spec.expField Spec.fracField INF; omega

theorem isZero_iff (N : ℕ) : Spec.IsZero N ↔ N % 2 ^ 255 = 0 := by
  unfold Spec.IsZero Spec.expField Spec.fracField; omega

theorem signBit_eq {N : ℕ} (h : N < 2 ^ 256) : Spec.signBit N = N / 2 ^ 255 := by
  unfold Spec.signBit; omega

theorem signif_abs (x : F256) : nat256 (signif (absBits x)) = Spec.significandOf x.pat := by
  rw [nat_signif, nat_absBits]
  unfold Spec.significandOf Spec.expField Spec.fracField
  split <;> split <;> omega

theorem expBits_abs (x : F256) : expBits (absBits x) = Spec.expField x.pat := by
  rw [expBits_eq, nat_absBits]
  unfold Spec.expField
  omega

end Verif
