import Verif.Proofs.LawfulUInt

/-!
# Remainder modulo powers of two
-/

namespace Verif.UInt

open BigUInt LawfulBigUInt

variable {α : Type} [BigUInt α] [LawfulBigUInt α]

theorem shl_shr_mod (x : α) {n : ℕ} (h0 : 0 < n) (hn : n < BITS α) :
    toNat (BigUInt.shr (BigUInt.shl x (BITS α - n)) (BITS α - n)) = toNat x % 2 ^ n := by
  rw [toNat_shr _ _ (by omega), toNat_shl _ _ (by omega)]
  have e : 2 ^ BITS α = 2 ^ n * 2 ^ (BITS α - n) := by rw [← pow_add]; congr 1; omega
  rw [e, Nat.mul_mod_mul_right, Nat.mul_div_cancel _ (Nat.two_pow_pos _)]

theorem nat_remPow2 (x : UInt α) (n : ℕ) : nat (remPow2 x n) = nat x % 2 ^ n := by
  have hl := toNat_lt x.lo
  have hh := toNat_lt x.hi
  have hb := bits_ge (α := α)
  unfold remPow2
  by_cases h0 : n = 0
  · rw [if_pos h0, h0, pow_zero, Nat.mod_one, nat_zero]
  rw [if_neg h0]
  by_cases h1 : n < BITS α
  · rw [if_pos h1]
    have e : 2 ^ BITS α = 2 ^ n * 2 ^ (BITS α - n) := by rw [← pow_add]; congr 1; omega
    have h2 := shl_shr_mod x.lo (Nat.pos_of_ne_zero h0) h1
    simp only [nat, toNat_zero, Nat.zero_mul, Nat.zero_add]
    rw [h2, e, show toNat x.hi * (2 ^ n * 2 ^ (BITS α - n)) =
      2 ^ n * (toNat x.hi * 2 ^ (BITS α - n)) by ring, Nat.mul_add_mod]
  rw [if_neg h1]
  by_cases h2 : n = BITS α
  · rw [if_pos h2, h2]
    simp only [nat, toNat_zero, Nat.zero_mul, Nat.zero_add]
    rw [base_mod' hl]
  rw [if_neg h2]
  by_cases h3 : n > BITS α ∧ n < 2 * BITS α
  · rw [if_pos h3]
    have e : 2 ^ n = 2 ^ (n - BITS α) * 2 ^ BITS α := by rw [← pow_add]; congr 1; omega
    have h4 := shl_shr_mod x.hi (n := n - BITS α) (by omega) (by omega)
    rw [show BITS α - (n - BITS α) = 2 * BITS α - n by omega] at h4
    simp only [nat]
    rw [h4, e, base_mod _ hl]
  · rw [if_neg h3, Nat.mod_eq_of_lt]
    refine lt_of_lt_of_le (nat_lt x) (Nat.pow_le_pow_right (by norm_num) (by omega))

end Verif.UInt
