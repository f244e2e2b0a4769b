import Verif.Proofs.Conv
import Verif.Spec.Small
import Verif.Props.Scale

/-!
# Conversions from integers (C28) and from `f32`, `f64` (C29)
-/

namespace Verif.Props

open Verif Spec BigUInt

theorem denotes_of {N s j A : ℕ} (hs : s ≤ 1) (hp : N = s * 2 ^ 255 + A) (hA : A < INF)
    (hm : mag A = j * 2 ^ 262378) : IsFin N ∧ signBit N = s ∧ val N = (-1) ^ s * (j : ℝ) := by
  have hAl : A < 2 ^ 255 := lt_trans hA INF_lt
  have e1 : N % 2 ^ 255 = A := by
    rw [hp, Nat.mul_comm, Nat.mul_add_mod, Nat.mod_eq_of_lt hAl]
  have e2 : signBit N = s := by unfold signBit; rw [hp]; omega
  have e3 : mag N = mag A := by rw [← mag_abs, e1]
  refine ⟨by rw [fin_iff, e1]; exact hA, e2, ?_⟩
  have hK : (2 : ℝ) ^ 262378 ≠ 0 := pow_ne_zero _ (by norm_num)
  rw [val_eq, e2, e3, hm, Nat.cast_mul, Nat.cast_pow, Nat.cast_ofNat, mul_div_assoc, div_self hK,
    mul_one]

/-- `x` is finite and denotes exactly the integer `i`; zero is `+0`. -/
def Denotes (x : F256) (i : ℤ) : Prop := IsFin x.pat ∧ val x.pat = (i : ℝ) ∧ (i = 0 → x.pat = 0)

theorem denotes_zero : Denotes F256.ZERO 0 := by
  have h : F256.ZERO.pat = 0 := by decide
  refine ⟨by rw [h]; decide, ?_, fun _ => h⟩
  rw [h, val_zero (by decide)]; norm_num

theorem denotes_new {x : F256} {s j A : ℕ} {i : ℤ} (hs : s ≤ 1) (hp : x.pat = s * 2 ^ 255 + A)
    (hA : A < INF) (hm : mag A = j * 2 ^ 262378) (h0 : i ≠ 0) (hi : (i : ℝ) = (-1) ^ s * (j : ℝ)) :
    Denotes x i := by
  obtain ⟨h1, -, h3⟩ := denotes_of hs hp hA hm
  exact ⟨h1, by rw [h3, hi], fun h => absurd h h0⟩

theorem signed_real (i : ℤ) : (i : ℝ) = (-1) ^ (if i < 0 then 1 else 0 : ℕ) * (i.natAbs : ℝ) := by
  by_cases h : i < 0
  · rw [if_pos h, pow_one, Nat.cast_natAbs, abs_of_neg h]; push_cast; ring
  · rw [if_neg h, pow_zero, one_mul, Nat.cast_natAbs, abs_of_nonneg (not_lt.mp h)]

theorem fromI64_denotes (i : BitVec 64) : Denotes (F256.fromI64 i) i.toInt := by
  unfold F256.fromI64
  by_cases h0 : i = 0
  · rw [if_pos h0, h0]; exact denotes_zero
  rw [if_neg h0]
  dsimp only
  have hi0 : i.toInt ≠ 0 := fun h => h0 (BitVec.eq_of_toInt_eq (by rw [h]; rfl))
  have ht : (i.signExtend 128).abs.toNat = i.toInt.natAbs := by
    rw [toNat_abs128, BitVec.toInt_signExtend_of_le (by norm_num)]
  have hl := BitVec.toInt_lt (x := i)
  have hg := BitVec.le_toInt i
  have hs := msb_toNat i
  have hs1 : i.msb.toNat ≤ 1 := by rw [hs]; split <;> omega
  obtain ⟨A, h1, h2, h3⟩ := new_hi (s := i.msb.toNat) (j := (i.signExtend 128).abs) hs1
    (by rw [ht]; omega) (by rw [ht]; omega)
  refine denotes_new hs1 h1 h2 h3 hi0 ?_
  rw [ht, hs]
  exact signed_real _

theorem fromU64_denotes (i : BitVec 64) : Denotes (F256.fromU64 i) i.toNat := by
  unfold F256.fromU64
  by_cases h0 : i = 0
  · rw [if_pos h0, h0]; exact denotes_zero
  rw [if_neg h0]
  dsimp only
  have hi0 : i.toNat ≠ 0 := fun h => h0 (BitVec.eq_of_toNat_eq h)
  have hl := i.isLt
  have ht : (i.setWidth 128).toNat = i.toNat := by
    rw [BitVec.toNat_setWidth]; omega
  obtain ⟨A, h1, h2, h3⟩ := new_hi (s := 0) (j := i.setWidth 128) (by norm_num)
    (by rw [ht]; omega) (by rw [ht]; omega)
  refine denotes_new (by norm_num) h1 h2 h3 (by exact_mod_cast hi0) ?_
  rw [ht, pow_zero, one_mul]; norm_num

/-- C28. `From<i8>`, `From<i16>`, `From<i32>`, `From<i64>`: the result denotes exactly the given
integer. -/
theorem C28_signed {w : ℕ} (hw : w ≤ 64) (i : BitVec w) : Denotes (F256.fromSigned i) i.toInt := by
  have := fromI64_denotes (i.signExtend 64)
  rw [BitVec.toInt_signExtend_of_le hw] at this
  exact this

/-- C28. `From<u8>`, `From<u16>`, `From<u32>`, `From<u64>`. -/
theorem C28_unsigned {w : ℕ} (hw : w ≤ 64) (i : BitVec w) :
    Denotes (F256.fromUnsigned i) i.toNat := by
  have := fromU64_denotes (i.setWidth 64)
  rw [BitVec.toNat_setWidth, Nat.mod_eq_of_lt (lt_of_lt_of_le i.isLt
    (Nat.pow_le_pow_right (by norm_num) hw))] at this
  exact this

theorem fromU256_denotes (i : U256) (hi : nat256 i < 2 ^ 237) :
    Denotes (F256.fromU256 i) (nat256 i) := by
  unfold F256.fromU256
  rw [isZero256]
  by_cases h0 : nat256 i = 0
  · rw [if_pos (decide_eq_true h0), h0]; exact denotes_zero
  rw [if_neg (by simpa using h0)]
  dsimp only
  obtain ⟨A, h1, h2, h3⟩ := new_shl (s := 0) (c := i) (by norm_num) h0 (msb256 h0) hi
  refine denotes_new (by norm_num) h1 h2 h3 (by exact_mod_cast h0) ?_
  rw [pow_zero, one_mul]; norm_num

theorem nat256_lo (j : BitVec 128) : nat256 (U256.new 0 j) = j.toNat := by
  rw [nat256_new, show (0 : BitVec 128).toNat = 0 by decide, Nat.zero_mul, Nat.zero_add]

/-- C28. `From<u128>`. -/
theorem C28_u128 (i : BitVec 128) : Denotes (F256.fromU128 i) i.toNat := by
  unfold F256.fromU128
  by_cases h0 : i = 0
  · rw [if_pos h0, h0]; exact denotes_zero
  rw [if_neg h0]
  dsimp only
  have hi0 : i.toNat ≠ 0 := fun h => h0 (BitVec.eq_of_toNat_eq h)
  have hl := i.isLt
  rw [lz128_msb hi0]
  obtain ⟨A, h1, h2, h3⟩ := new_shl (s := 0) (m := i.toNat.log2) (c := U256.new 0 i) (by norm_num)
    (by rw [nat256_lo]; exact hi0) (by rw [nat256_lo]) (by rw [nat256_lo]; omega)
  rw [nat256_lo] at h3
  refine denotes_new (by norm_num) h1 h2 h3 (by exact_mod_cast hi0) ?_
  rw [pow_zero, one_mul]; norm_num

/-- C28. `From<i128>`, including `i128::MIN`. -/
theorem C28_i128 (i : BitVec 128) : Denotes (F256.fromI128 i) i.toInt := by
  unfold F256.fromI128
  by_cases h0 : i = 0
  · rw [if_pos h0, h0]; exact denotes_zero
  rw [if_neg h0]
  dsimp only
  have hi0 : i.toInt ≠ 0 := fun h => h0 (BitVec.eq_of_toInt_eq (by rw [h]; rfl))
  have ht : (if i = BitVec.intMin 128 then i else i.abs).toNat = i.toInt.natAbs := by
    split
    · rename_i h; rw [h]; decide
    · exact toNat_abs128 i
  generalize (if i = BitVec.intMin 128 then i else i.abs) = j at *
  have hj := j.isLt
  have hs := msb_toNat i
  have hs1 : i.msb.toNat ≤ 1 := by rw [hs]; split <;> omega
  have hj0 : j.toNat ≠ 0 := by omega
  rw [lz128_msb hj0]
  obtain ⟨A, h1, h2, h3⟩ := new_shl (s := i.msb.toNat) (m := j.toNat.log2) (c := U256.new 0 j) hs1
    (by rw [nat256_lo]; exact hj0) (by rw [nat256_lo]) (by rw [nat256_lo]; omega)
  rw [nat256_lo] at h3
  refine denotes_new hs1 h1 h2 h3 hi0 ?_
  rw [ht, hs]
  exact signed_real _

/-- C28. The internal conversion from 256-bit integers is exact for all integers that fit the
significand. -/
theorem C28_u256 (i : U256) (hi : i.hi.toNat * 2 ^ 128 + i.lo.toNat < 2 ^ 237) :
    Denotes (F256.fromU256 i) (i.hi.toNat * 2 ^ 128 + i.lo.toNat : ℕ) := fromU256_denotes i hi

/-- -7 as `i8`, and the two extreme values. -/
example : Denotes (F256.fromSigned (-7 : BitVec 8)) (-7) := C28_signed (w := 8) (by norm_num) (-7)
example : Denotes (F256.fromI128 (BitVec.intMin 128)) (-2 ^ 127) := C28_i128 _
example : Denotes (F256.fromU128 (-1)) (2 ^ 128 - 1) := C28_u128 _

/-! ## Floats -/

theorem encode_exact {s : ℕ} {t : ℤ} {c : BitVec 128} (hs : s ≤ 1) (ht : -262378 ≤ t)
    (ht2 : t ≤ 261907) (hc : c.toNat ≠ 0) :
    IsFin (F256.encode s t (U256.new 0 c)).pat ∧ signBit (F256.encode s t (U256.new 0 c)).pat = s ∧
    val (F256.encode s t (U256.new 0 c)).pat = (-1) ^ s * (c.toNat : ℝ) * (2 : ℝ) ^ t := by
  have hl := c.isLt
  have h := C30_encode_exact s t ((0 : BitVec 128), c) hs ht ht2
    (by show (0 : BitVec 128).toNat * 2 ^ 128 + c.toNat ≠ 0
        rw [show (0 : BitVec 128).toNat = 0 by decide]; omega)
    (by show (0 : BitVec 128).toNat * 2 ^ 128 + c.toNat < _
        rw [show (0 : BitVec 128).toNat = 0 by decide]; omega)
  have e : F256.fromSignExpSignif s t ((0 : BitVec 128), c) = F256.encode s t (U256.new 0 c) :=
    fromSignExpSignif_eq (by
      show nat256 (U256.new 0 c) ≠ 0
      rw [nat256_lo]; exact hc)
  simp only [show (0 : BitVec 128).toNat = 0 by decide, Nat.zero_mul, Nat.zero_add] at h
  rw [e] at h
  refine ⟨h.1, ?_, h.2⟩
  have hc' : (0 : ℝ) < c.toNat := by exact_mod_cast Nat.pos_of_ne_zero hc
  have hz : (0 : ℝ) < 2 ^ t := zpow_pos (by norm_num) t
  have hpos := mul_pos hc' hz
  rcases Nat.le_one_iff_eq_zero_or_eq_one.mp hs with rfl | rfl
  · apply val_pos_sign; rw [h.2, pow_zero, one_mul]; exact hpos
  · apply val_neg_sign; rw [h.2, pow_one, mul_assoc]; linarith

/-- C29. `From<f32>`: finite numbers keep their value and their sign (also the sign of zero),
infinities keep their sign, NaN gives NaN. -/
theorem C29_f32 (b : BitVec 32) :
    (Small.IsFin 8 23 b.toNat → IsFin (F256.fromF32 b).pat ∧
      val (F256.fromF32 b).pat = Small.val 8 23 b.toNat ∧
      signBit (F256.fromF32 b).pat = Small.sign 8 23 b.toNat) ∧
    (Small.IsInf 8 23 b.toNat → IsInf (F256.fromF32 b).pat ∧
      signBit (F256.fromF32 b).pat = Small.sign 8 23 b.toNat) ∧
    (Small.IsNaN 8 23 b.toNat → IsNaN (F256.fromF32 b).pat) := by
  have hN := b.isLt
  obtain ⟨c, hcdef⟩ : ∃ c : BitVec 64, c = b.setWidth 64 := ⟨_, rfl⟩
  have hc : c.toNat = b.toNat := by rw [hcdef, BitVec.toNat_setWidth]; omega
  show (Small.IsFin 8 23 b.toNat → IsFin (F256.fromFloat 5 (b.setWidth 64)).pat ∧
      val (F256.fromFloat 5 (b.setWidth 64)).pat = Small.val 8 23 b.toNat ∧
      signBit (F256.fromFloat 5 (b.setWidth 64)).pat = Small.sign 8 23 b.toNat) ∧
    (Small.IsInf 8 23 b.toNat → IsInf (F256.fromFloat 5 (b.setWidth 64)).pat ∧
      signBit (F256.fromFloat 5 (b.setWidth 64)).pat = Small.sign 8 23 b.toNat) ∧
    (Small.IsNaN 8 23 b.toNat → IsNaN (F256.fromFloat 5 (b.setWidth 64)).pat)
  rw [← hcdef]
  rw [← hc] at hN ⊢
  clear hc hcdef
  have k1 : floatFractionBits 5 = 23 := by decide
  have k2 : floatExpBiasAdj 5 = 150 := by decide
  have k3 : (floatFractionBias 5).toNat = 2 ^ 23 := by decide
  have k4 : (floatInf 5).toNat = (2 ^ 8 - 1) * 2 ^ 23 := by decide
  have k5 : floatSignShift 5 = 31 := by decide
  have a1 : (c &&& floatAbsMask 5).toNat = c.toNat % 2 ^ 31 := by
    have e : floatAbsMask 5 = 0xffffffff7fffffff := by decide
    have h : c &&& floatAbsMask 5 = c &&& 0x7fffffff := by
      rw [e]
      apply BitVec.eq_of_toNat_eq
      rw [BitVec.toNat_and, BitVec.toNat_and]
      apply Nat.eq_of_testBit_eq
      intro i
      rw [Nat.testBit_and, Nat.testBit_and]
      rcases Nat.lt_or_ge i 32 with hi | hi
      · congr 1
        interval_cases i <;> rfl
      · rw [Nat.testBit_lt_two_pow (lt_of_lt_of_le hN (Nat.pow_le_pow_right (by norm_num) hi)),
          Bool.false_and, Bool.false_and]
    rw [h, BitVec.toNat_and, show (0x7fffffff : BitVec 64).toNat = 2 ^ 31 - 1 by decide,
      Nat.and_two_pow_sub_one_eq_mod]
  have a2 : (c &&& floatFractionMask 5).toNat = c.toNat % 2 ^ 23 := by
    rw [BitVec.toNat_and, show (floatFractionMask 5).toNat = 2 ^ 23 - 1 by decide,
      Nat.and_two_pow_sub_one_eq_mod]
  have a3 : ((c &&& floatFractionMask 5) ||| floatFractionBias 5).toNat =
      2 ^ 23 + c.toNat % 2 ^ 23 := by
    rw [BitVec.toNat_or, a2, k3, Nat.or_comm]
    have := Nat.two_pow_add_eq_or_of_lt (i := 23) (Nat.mod_lt c.toNat (by norm_num)) 1
    rw [Nat.mul_one] at this
    exact this.symm
  have a4 : (c >>> floatSignShift 5).toNat = c.toNat / 2 ^ 31 := by
    rw [k5, BitVec.toNat_ushiftRight, Nat.shiftRight_eq_div_pow]
  have a5 : ((c &&& floatAbsMask 5) >>> floatFractionBits 5).toNat = c.toNat % 2 ^ 31 / 2 ^ 23 := by
    rw [k1, BitVec.toNat_ushiftRight, Nat.shiftRight_eq_div_pow, a1]
  have hsgn : Small.sign 8 23 c.toNat = c.toNat / 2 ^ 31 := by
    unfold Small.sign; norm_num only [Nat.reduceAdd]; omega
  have hexp : Small.exponent 8 23 c.toNat = c.toNat % 2 ^ 31 / 2 ^ 23 := by
    unfold Small.exponent; omega
  have hs1 : c.toNat / 2 ^ 31 ≤ 1 := by omega
  unfold F256.fromFloat Small.IsFin Small.IsInf Small.IsNaN Small.fraction
  simp only [BitVec.le_def, BitVec.lt_def, a1, a4, a5, k2, k3, k4]
  rw [hsgn, hexp]
  have hz : (c &&& floatAbsMask 5 = 0) ↔ c.toNat % 2 ^ 31 = 0 := by
    rw [← BitVec.toNat_inj, a1, show (0 : BitVec 64).toNat = 0 by decide]
  have hinf : (c &&& floatAbsMask 5 = floatInf 5) ↔ c.toNat % 2 ^ 31 = (2 ^ 8 - 1) * 2 ^ 23 := by
    rw [← BitVec.toNat_inj, a1, k4]
  simp only [hz, hinf]
  by_cases c1 : 2 ^ 23 ≤ c.toNat % 2 ^ 31 ∧ c.toNat % 2 ^ 31 < (2 ^ 8 - 1) * 2 ^ 23
  · rw [if_pos c1]
    have w : (((c &&& floatFractionMask 5) ||| floatFractionBias 5).setWidth 128).toNat =
        2 ^ 23 + c.toNat % 2 ^ 23 := by
      rw [BitVec.toNat_setWidth, a3]; omega
    obtain ⟨h1, h2, h3⟩ := encode_exact (s := c.toNat / 2 ^ 31)
      (t := ((c.toNat % 2 ^ 31 / 2 ^ 23 : ℕ) : ℤ) - (150 : ℕ))
      (c := ((c &&& floatFractionMask 5) ||| floatFractionBias 5).setWidth 128) hs1
      (by omega) (by omega) (by rw [w]; omega)
    rw [w] at h3
    refine ⟨fun _ => ⟨h1, ?_, h2⟩, fun h => by omega, fun h => by omega⟩
    rw [h3, Small.val, hsgn, hexp, if_neg (by omega), if_neg (by omega), Small.fraction]
    have ee : ((c.toNat % 2 ^ 31 / 2 ^ 23 : ℕ) : ℤ) - (150 : ℕ) =
      ((c.toNat % 2 ^ 31 / 2 ^ 23 : ℕ) : ℤ) - (2 ^ (8 - 1) - 1) - (23 : ℕ) := by norm_num; ring
    rw [ee, Nat.cast_add, Nat.cast_pow, Nat.cast_ofNat]
  rw [if_neg c1]
  by_cases c2 : c.toNat % 2 ^ 31 = 0
  · rw [if_pos c2]
    have hv : Small.val 8 23 c.toNat = 0 := by
      rw [Small.val, hexp, if_pos (by omega), Small.fraction]
      have : c.toNat % 2 ^ 23 = 0 := by omega
      rw [this]; simp
    refine ⟨fun _ => ?_, fun h => by omega, fun h => by omega⟩
    rw [hv]
    by_cases h0 : c.toNat / 2 ^ 31 = 0
    · rw [if_pos h0, h0]
      exact ⟨by decide, val_zero (by decide), by decide⟩
    · rw [if_neg h0]
      have : c.toNat / 2 ^ 31 = 1 := by omega
      rw [this]
      exact ⟨by decide, val_zero (by decide), by decide⟩
  rw [if_neg c2]
  by_cases c3 : c.toNat % 2 ^ 31 < 2 ^ 23
  · rw [if_pos c3]
    have w : ((c &&& floatFractionMask 5).setWidth 128).toNat = c.toNat % 2 ^ 23 := by
      rw [BitVec.toNat_setWidth, a2]; omega
    obtain ⟨h1, h2, h3⟩ := encode_exact (s := c.toNat / 2 ^ 31) (t := 1 - ((150 : ℕ) : ℤ))
      (c := (c &&& floatFractionMask 5).setWidth 128) hs1
      (by omega) (by omega) (by rw [w]; omega)
    rw [w] at h3
    refine ⟨fun _ => ⟨h1, ?_, h2⟩, fun h => by omega, fun h => by omega⟩
    rw [h3, Small.val, hsgn, hexp, if_pos (by omega), if_pos (by omega), Small.fraction]
    have ee : (1 : ℤ) - ((150 : ℕ) : ℤ) = 1 - (2 ^ (8 - 1) - 1) - (23 : ℕ) := by norm_num
    rw [ee]
  rw [if_neg c3]
  by_cases c4 : c.toNat % 2 ^ 31 = (2 ^ 8 - 1) * 2 ^ 23
  · rw [if_pos c4]
    refine ⟨fun h => by omega, fun _ => ?_, fun h => by omega⟩
    by_cases h0 : c.toNat / 2 ^ 31 = 0
    · rw [if_pos h0, h0]
      exact ⟨by decide, by decide⟩
    · rw [if_neg h0]
      have : c.toNat / 2 ^ 31 = 1 := by omega
      rw [this]
      exact ⟨by decide, by decide⟩
  · rw [if_neg c4]
    refine ⟨fun h => by omega, fun h => by omega, fun _ => ?_⟩
    split
    · decide
    · decide

/-- C29. `From<f64>`: finite numbers keep their value and their sign (also the sign of zero),
infinities keep their sign, NaN gives NaN. -/
theorem C29_f64 (b : BitVec 64) :
    (Small.IsFin 11 52 b.toNat → IsFin (F256.fromF64 b).pat ∧
      val (F256.fromF64 b).pat = Small.val 11 52 b.toNat ∧
      signBit (F256.fromF64 b).pat = Small.sign 11 52 b.toNat) ∧
    (Small.IsInf 11 52 b.toNat → IsInf (F256.fromF64 b).pat ∧
      signBit (F256.fromF64 b).pat = Small.sign 11 52 b.toNat) ∧
    (Small.IsNaN 11 52 b.toNat → IsNaN (F256.fromF64 b).pat) := by
  have hN := b.isLt
  obtain ⟨c, hcdef⟩ : ∃ c : BitVec 64, c = b := ⟨_, rfl⟩
  have hc : c.toNat = b.toNat := by rw [hcdef]
  show (Small.IsFin 11 52 b.toNat → IsFin (F256.fromFloat 6 (b)).pat ∧
      val (F256.fromFloat 6 (b)).pat = Small.val 11 52 b.toNat ∧
      signBit (F256.fromFloat 6 (b)).pat = Small.sign 11 52 b.toNat) ∧
    (Small.IsInf 11 52 b.toNat → IsInf (F256.fromFloat 6 (b)).pat ∧
      signBit (F256.fromFloat 6 (b)).pat = Small.sign 11 52 b.toNat) ∧
    (Small.IsNaN 11 52 b.toNat → IsNaN (F256.fromFloat 6 (b)).pat)
  rw [← hcdef]
  rw [← hc] at hN
  clear hc hcdef
  have k1 : floatFractionBits 6 = 52 := by decide
  have k2 : floatExpBiasAdj 6 = 1075 := by decide
  have k3 : (floatFractionBias 6).toNat = 2 ^ 52 := by decide
  have k4 : (floatInf 6).toNat = (2 ^ 11 - 1) * 2 ^ 52 := by decide
  have k5 : floatSignShift 6 = 63 := by decide
  have a1 : (c &&& floatAbsMask 6).toNat = c.toNat % 2 ^ 63 := by
    rw [BitVec.toNat_and, show (floatAbsMask 6).toNat = 2 ^ 63 - 1 by decide,
      Nat.and_two_pow_sub_one_eq_mod]
  have a2 : (c &&& floatFractionMask 6).toNat = c.toNat % 2 ^ 52 := by
    rw [BitVec.toNat_and, show (floatFractionMask 6).toNat = 2 ^ 52 - 1 by decide,
      Nat.and_two_pow_sub_one_eq_mod]
  have a3 : ((c &&& floatFractionMask 6) ||| floatFractionBias 6).toNat =
      2 ^ 52 + c.toNat % 2 ^ 52 := by
    rw [BitVec.toNat_or, a2, k3, Nat.or_comm]
    have := Nat.two_pow_add_eq_or_of_lt (i := 52) (Nat.mod_lt c.toNat (by norm_num)) 1
    rw [Nat.mul_one] at this
    exact this.symm
  have a4 : (c >>> floatSignShift 6).toNat = c.toNat / 2 ^ 63 := by
    rw [k5, BitVec.toNat_ushiftRight, Nat.shiftRight_eq_div_pow]
  have a5 : ((c &&& floatAbsMask 6) >>> floatFractionBits 6).toNat = c.toNat % 2 ^ 63 / 2 ^ 52 := by
    rw [k1, BitVec.toNat_ushiftRight, Nat.shiftRight_eq_div_pow, a1]
  have hsgn : Small.sign 11 52 c.toNat = c.toNat / 2 ^ 63 := by
    unfold Small.sign; norm_num only [Nat.reduceAdd]; omega
  have hexp : Small.exponent 11 52 c.toNat = c.toNat % 2 ^ 63 / 2 ^ 52 := by
    unfold Small.exponent; omega
  have hs1 : c.toNat / 2 ^ 63 ≤ 1 := by omega
  unfold F256.fromFloat Small.IsFin Small.IsInf Small.IsNaN Small.fraction
  simp only [BitVec.le_def, BitVec.lt_def, a1, a4, a5, k2, k3, k4]
  rw [hsgn, hexp]
  have hz : (c &&& floatAbsMask 6 = 0) ↔ c.toNat % 2 ^ 63 = 0 := by
    rw [← BitVec.toNat_inj, a1, show (0 : BitVec 64).toNat = 0 by decide]
  have hinf : (c &&& floatAbsMask 6 = floatInf 6) ↔ c.toNat % 2 ^ 63 = (2 ^ 11 - 1) * 2 ^ 52 := by
    rw [← BitVec.toNat_inj, a1, k4]
  simp only [hz, hinf]
  by_cases c1 : 2 ^ 52 ≤ c.toNat % 2 ^ 63 ∧ c.toNat % 2 ^ 63 < (2 ^ 11 - 1) * 2 ^ 52
  · rw [if_pos c1]
    have w : (((c &&& floatFractionMask 6) ||| floatFractionBias 6).setWidth 128).toNat =
        2 ^ 52 + c.toNat % 2 ^ 52 := by
      rw [BitVec.toNat_setWidth, a3]; omega
    obtain ⟨h1, h2, h3⟩ := encode_exact (s := c.toNat / 2 ^ 63)
      (t := ((c.toNat % 2 ^ 63 / 2 ^ 52 : ℕ) : ℤ) - (1075 : ℕ))
      (c := ((c &&& floatFractionMask 6) ||| floatFractionBias 6).setWidth 128) hs1
      (by omega) (by omega) (by rw [w]; omega)
    rw [w] at h3
    refine ⟨fun _ => ⟨h1, ?_, h2⟩, fun h => by omega, fun h => by omega⟩
    rw [h3, Small.val, hsgn, hexp, if_neg (by omega), if_neg (by omega), Small.fraction]
    have ee : ((c.toNat % 2 ^ 63 / 2 ^ 52 : ℕ) : ℤ) - (1075 : ℕ) =
      ((c.toNat % 2 ^ 63 / 2 ^ 52 : ℕ) : ℤ) - (2 ^ (11 - 1) - 1) - (52 : ℕ) := by norm_num; ring
    rw [ee, Nat.cast_add, Nat.cast_pow, Nat.cast_ofNat]
  rw [if_neg c1]
  by_cases c2 : c.toNat % 2 ^ 63 = 0
  · rw [if_pos c2]
    have hv : Small.val 11 52 c.toNat = 0 := by
      rw [Small.val, hexp, if_pos (by omega), Small.fraction]
      have : c.toNat % 2 ^ 52 = 0 := by omega
      rw [this]; simp
    refine ⟨fun _ => ?_, fun h => by omega, fun h => by omega⟩
    rw [hv]
    by_cases h0 : c.toNat / 2 ^ 63 = 0
    · rw [if_pos h0, h0]
      exact ⟨by decide, val_zero (by decide), by decide⟩
    · rw [if_neg h0]
      have : c.toNat / 2 ^ 63 = 1 := by omega
      rw [this]
      exact ⟨by decide, val_zero (by decide), by decide⟩
  rw [if_neg c2]
  by_cases c3 : c.toNat % 2 ^ 63 < 2 ^ 52
  · rw [if_pos c3]
    have w : ((c &&& floatFractionMask 6).setWidth 128).toNat = c.toNat % 2 ^ 52 := by
      rw [BitVec.toNat_setWidth, a2]; omega
    obtain ⟨h1, h2, h3⟩ := encode_exact (s := c.toNat / 2 ^ 63) (t := 1 - ((1075 : ℕ) : ℤ))
      (c := (c &&& floatFractionMask 6).setWidth 128) hs1
      (by omega) (by omega) (by rw [w]; omega)
    rw [w] at h3
    refine ⟨fun _ => ⟨h1, ?_, h2⟩, fun h => by omega, fun h => by omega⟩
    rw [h3, Small.val, hsgn, hexp, if_pos (by omega), if_pos (by omega), Small.fraction]
    have ee : (1 : ℤ) - ((1075 : ℕ) : ℤ) = 1 - (2 ^ (11 - 1) - 1) - (52 : ℕ) := by norm_num
    rw [ee]
  rw [if_neg c3]
  by_cases c4 : c.toNat % 2 ^ 63 = (2 ^ 11 - 1) * 2 ^ 52
  · rw [if_pos c4]
    refine ⟨fun h => by omega, fun _ => ?_, fun h => by omega⟩
    by_cases h0 : c.toNat / 2 ^ 63 = 0
    · rw [if_pos h0, h0]
      exact ⟨by decide, by decide⟩
    · rw [if_neg h0]
      have : c.toNat / 2 ^ 63 = 1 := by omega
      rw [this]
      exact ⟨by decide, by decide⟩
  · rw [if_neg c4]
    refine ⟨fun h => by omega, fun h => by omega, fun _ => ?_⟩
    split
    · decide
    · decide

/-- 1.5 as `f32`, the smallest subnormal `f64` and negative zero. -/
example : val (F256.fromF32 0x3fc00000).pat = Small.val 8 23 0x3fc00000 :=
  ((C29_f32 0x3fc00000).1 (by unfold Small.IsFin; decide)).2.1
example : val (F256.fromF64 1).pat = Small.val 11 52 1 :=
  ((C29_f64 1).1 (by unfold Small.IsFin; decide)).2.1
example : signBit (F256.fromF64 0x8000000000000000).pat = 1 :=
  ((C29_f64 0x8000000000000000).1 (by unfold Small.IsFin; decide)).2.2

end Verif.Props
