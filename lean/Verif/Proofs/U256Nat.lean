import Verif.Proofs.F256Nat
import Verif.Proofs.DivRem
import Verif.Model.Add

/-!
# 256-bit operations as arithmetic on naturals
-/

namespace Verif

open BigUInt LawfulBigUInt

theorem nat_shl256 (x : U256) {n : ℕ} (h : n < 256) :
    nat256 (UInt.shl x n) = nat256 x * 2 ^ n % 2 ^ 256 := UInt.nat_shl x n h

theorem nat_shr256 (x : U256) {n : ℕ} (h : n < 256) :
    nat256 (UInt.shr x n) = nat256 x / 2 ^ n := UInt.nat_shr x n h

theorem nat_shl256_of_lt (x : U256) {n : ℕ} (h : n < 256) (hx : nat256 x * 2 ^ n < 2 ^ 256) :
    nat256 (UInt.shl x n) = nat256 x * 2 ^ n := by
  rw [nat_shl256 x h, Nat.mod_eq_of_lt hx]

theorem add256 {x y : U256} (h : nat256 x + nat256 y < 2 ^ 256) :
    ∃ z, UInt.add x y = some z ∧ nat256 z = nat256 x + nat256 y := UInt.add_some h

theorem sub256 {x y : U256} (h : nat256 y ≤ nat256 x) :
    ∃ z, UInt.sub x y = some z ∧ nat256 z = nat256 x - nat256 y := UInt.sub_some h

theorem nat_incr256 (x : U256) : nat256 (UInt.incr x) = (nat256 x + 1) % 2 ^ 256 :=
  UInt.nat_incr x

theorem nat_incrIf256 (x : U256) (c : Bool) :
    nat256 (incrIf x c) = (nat256 x + c.toNat) % 2 ^ 256 := toNat_incrIf (α := U256) x c

theorem leadingZeros256 {z : U256} (h : nat256 z ≠ 0) :
    BigUInt.leadingZeros z = 255 - (nat256 z).log2 := by
  have := leadingZeros_eq (α := U256) z
  exact this.trans (if_neg h)

theorem log2_lt_256 (z : U256) : (nat256 z).log2 < 256 := by
  by_cases h : nat256 z = 0
  · rw [h]; decide
  · exact (Nat.log2_lt h).mpr (nat256_lt z)

theorem msb256 {z : U256} (h : nat256 z ≠ 0) : msb z = (nat256 z).log2 := by
  have h2 := log2_lt_256 z
  show 256 - BigUInt.leadingZeros z - 1 = _
  rw [leadingZeros256 h]; omega

theorem nat_mod_lo {k : ℕ} (x : U256) (h : k ≤ 128) :
    nat256 x % 2 ^ k = x.lo.toNat % 2 ^ k := by
  obtain ⟨j, hj⟩ := Nat.exists_eq_add_of_le h
  have e : 2 ^ 128 = 2 ^ k * 2 ^ j := by rw [hj, Nat.pow_add]
  rw [nat256, e, show x.hi.toNat * (2 ^ k * 2 ^ j) = 2 ^ k * (x.hi.toNat * 2 ^ j) by ring,
    Nat.mul_add_mod]

theorem lo_and_1 (x : U256) : (x.lo &&& 1).toNat = nat256 x % 2 := by
  have := nat_mod_lo (k := 1) x (by norm_num)
  rw [pow_one] at this
  rw [this, BitVec.toNat_and, show (1 : BitVec 128).toNat = 2 ^ 1 - 1 by decide,
    Nat.and_two_pow_sub_one_eq_mod, pow_one]

theorem lo_and_3 (x : U256) : (x.lo &&& 3).toNat = nat256 x % 4 := by
  have := nat_mod_lo (k := 2) x (by norm_num)
  rw [show (4 : ℕ) = 2 ^ 2 by norm_num, this, BitVec.toNat_and,
    show (3 : BitVec 128).toNat = 2 ^ 2 - 1 by decide, Nat.and_two_pow_sub_one_eq_mod]

theorem lo_and_7 (x : U256) : (x.lo &&& 7).toNat = nat256 x % 8 := by
  have := nat_mod_lo (k := 3) x (by norm_num)
  rw [show (8 : ℕ) = 2 ^ 3 by norm_num, this, BitVec.toNat_and,
    show (7 : BitVec 128).toNat = 2 ^ 3 - 1 by decide, Nat.and_two_pow_sub_one_eq_mod]

theorem isOdd_lo (x : U256) : isOdd x.lo = decide (nat256 x % 2 = 1) := by
  have h := isOdd_eq (α := U128) x.lo
  have := nat_mod_lo (k := 1) x (by norm_num)
  rw [pow_one] at this
  rw [this]; exact h

/-- Setting the lowest bit. -/
theorem nat_or_lo (x : U256) (b : BitVec 128) (hb : b.toNat ≤ 1) :
    nat256 ⟨x.hi, x.lo ||| b⟩ = nat256 x / 2 * 2 + max (nat256 x % 2) b.toNat := by
  obtain ⟨c, hc⟩ : ∃ c : Bool, b.toNat = c.toNat := by
    rcases Nat.le_one_iff_eq_zero_or_eq_one.mp hb with h | h
    · exact ⟨false, h⟩
    · exact ⟨true, h⟩
  rw [nat256_mk, BitVec.toNat_or, hc, or_bool]
  unfold nat256
  have : max (x.lo.toNat % 2) c.toNat = max ((x.hi.toNat * 2 ^ 128 + x.lo.toNat) % 2) c.toNat := by
    congr 1; omega
  omega

theorem isZero256 (x : U256) : U256.isZero x = decide (nat256 x = 0) := by
  rw [Bool.eq_iff_iff, U256.isZero, Bool.and_eq_true, decide_eq_true_iff, decide_eq_true_iff,
    decide_eq_true_iff, ← BitVec.toNat_inj, ← BitVec.toNat_inj, nat256,
    show (0 : BitVec 128).toNat = 0 by decide]
  omega

theorem cmp256 (x y : U256) : UInt.cmp x y = compare (nat256 x) (nat256 y) := UInt.cmp_eq x y

/-- Comparing the high word with a power of two. -/
theorem pow_le_hi (x : U256) {k : ℕ} {c : BitVec 128} (hc : c.toNat = 2 ^ k) :
    c ≤ x.hi ↔ 2 ^ (k + 128) ≤ nat256 x := by
  have := x.lo.isLt
  rw [BitVec.le_def, hc, nat256, pow_add]
  generalize 2 ^ k = K at *
  omega

theorem hi_lt_pow (x : U256) {k : ℕ} {c : BitVec 128} (hc : c.toNat = 2 ^ k) :
    x.hi < c ↔ nat256 x < 2 ^ (k + 128) := by
  rw [← not_iff_not, BitVec.not_lt, pow_le_hi x hc, not_lt]

theorem nat_packAbs (z : U256) {e : ℕ} (he : e < 2 ^ 20) :
    nat256 (packAbs z e) = e * 2 ^ 236 + nat256 z % 2 ^ 236 := by
  have h1 := z.lo.isLt
  rw [packAbs, nat256_mk, BitVec.toNat_or, toNat_and_frac, BitVec.toNat_shiftLeft,
    BitVec.toNat_ofNat, HI_FRACTION_BITS, Nat.shiftLeft_eq, Nat.mod_eq_of_lt (a := e) (by omega),
    Nat.mod_eq_of_lt (a := e * 2 ^ 108) (by omega), or_disjoint' (Nat.mod_lt _ (by norm_num)),
    nat256]
  omega

theorem nat_mod_pow_eq (z : U256) {k : ℕ} (hk : k < 256) (h0 : 0 < k) :
    U256.isZero (UInt.shl z (256 - k)) = decide (nat256 z % 2 ^ k = 0) := by
  rw [isZero256, decide_eq_decide, nat_shl256 z (by omega)]
  have e : 2 ^ 256 = 2 ^ k * 2 ^ (256 - k) := by rw [← pow_add]; congr 1; omega
  rw [e, Nat.mul_mod_mul_right]
  have := Nat.two_pow_pos (256 - k)
  constructor
  · intro h
    rcases Nat.mul_eq_zero.mp h with h | h
    · exact h
    · omega
  · intro h; rw [h, Nat.zero_mul]

end Verif
