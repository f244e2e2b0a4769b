import Verif.Proofs.MulDiv

/-!
# `F256::new`: the assembled bit pattern
-/

namespace Verif

open BigUInt LawfulBigUInt

/-- The pattern assembled by `F256::new`: sign, biased exponent `k`, low 236 bits of the
significand. -/
theorem pat_new {s k : ℕ} {e : ℤ} (c : U256) (hs : s ≤ 1) (hk : k < 2 ^ 19)
    (he : e + 262143 = k) :
    (F256.new s e c).pat = s * 2 ^ 255 + k * 2 ^ 236 + nat256 c % 2 ^ 236 := by
  have e1 : e + (EXP_BIAS : ℤ) = (k : ℤ) := he
  unfold F256.new
  rw [e1, BitVec.ofInt_natCast, pat_eq, nat256_new, BitVec.toNat_or, BitVec.toNat_or,
    toNat_and_frac, BitVec.toNat_shiftLeft, BitVec.toNat_shiftLeft, BitVec.toNat_ofNat,
    BitVec.toNat_ofNat, Nat.shiftLeft_eq, Nat.shiftLeft_eq]
  unfold HI_FRACTION_BITS HI_SIGN_SHIFT
  have hc := c.hi.isLt
  have hl := c.lo.isLt
  have h1 : k % 2 ^ 128 * 2 ^ 108 % 2 ^ 128 = k * 2 ^ 108 := by
    rw [Nat.mod_eq_of_lt (lt_trans hk (by norm_num)), Nat.mod_eq_of_lt]
    exact lt_of_lt_of_le (Nat.mul_lt_mul_of_pos_right hk (by norm_num)) (by norm_num)
  have h2 : s % 2 ^ 128 * 2 ^ 127 % 2 ^ 128 = s * 2 ^ 127 := by
    rcases Nat.le_one_iff_eq_zero_or_eq_one.mp hs with rfl | rfl <;> norm_num
  have h3 : c.hi.toNat % 2 ^ 108 < 2 ^ 108 := Nat.mod_lt _ (by norm_num)
  rw [h1, h2, or_disjoint' h3]
  have h4 : k * 2 ^ 108 + c.hi.toNat % 2 ^ 108 < 2 ^ 127 := by omega
  rw [or_disjoint' h4]
  unfold nat256
  omega

end Verif
