import Verif.Model.UInt
import Verif.Spec.Rne
import Mathlib.Tactic.Ring
import Mathlib.Tactic.Linarith
import Mathlib.Tactic.LinearCombination
import Mathlib.Data.Nat.Log

/-!
# Wide integers refine the natural numbers

`LawfulBigUInt α` says that every operation of the `BigUInt` instance of `α` computes the
corresponding operation on naturals (modulo `2 ^ BITS`). It is proved for `U128` and lifted
from `α` to `UInt α`, hence it holds for `U256`, `U512`, `U1024` and all deeper nestings.
-/

namespace Verif

open BigUInt

class LawfulBigUInt (α : Type) [BigUInt α] where
  toNat : α → Nat
  ofNat : Nat → α
  bits_even : BITS α = 2 * (BITS α / 2)
  bits_ge : 128 ≤ BITS α
  toNat_lt (x : α) : toNat x < 2 ^ BITS α
  toNat_ofNat (n : Nat) : toNat (ofNat n) = n % 2 ^ BITS α
  ofNat_toNat (x : α) : ofNat (toNat x) = x
  toNat_zero : toNat (ZERO : α) = 0
  toNat_one : toNat (ONE : α) = 1
  toNat_two : toNat (TWO : α) = 2
  toNat_max : toNat (MAX : α) = 2 ^ BITS α - 1
  beq_eq (x y : α) : beq x y = decide (toNat x = toNat y)
  cmp_eq (x y : α) : cmp x y = compare (toNat x) (toNat y)
  isEven_eq (x : α) : isEven x = decide (toNat x % 2 = 0)
  isOdd_eq (x : α) : isOdd x = decide (toNat x % 2 = 1)
  leadingZeros_eq (x : α) :
    leadingZeros x = if toNat x = 0 then BITS α else BITS α - 1 - (toNat x).log2
  trailingZeros_eq (x : α) : trailingZeros x = U128.ctz (BITS α) (toNat x)
  toNat_incr (x : α) : toNat (incr x) = (toNat x + 1) % 2 ^ BITS α
  toNat_decr (x : α) : toNat (decr x) = (toNat x + 2 ^ BITS α - 1) % 2 ^ BITS α
  toNat_overflowingAdd (x y : α) :
    toNat (overflowingAdd x y).1 = (toNat x + toNat y) % 2 ^ BITS α
  overflowingAdd_snd (x y : α) :
    (overflowingAdd x y).2 = decide (2 ^ BITS α ≤ toNat x + toNat y)
  toNat_wrappingAdd (x y : α) : toNat (wrappingAdd x y) = (toNat x + toNat y) % 2 ^ BITS α
  toNat_overflowingSub (x y : α) :
    toNat (overflowingSub x y).1 = (toNat x + 2 ^ BITS α - toNat y) % 2 ^ BITS α
  overflowingSub_snd (x y : α) : (overflowingSub x y).2 = decide (toNat x < toNat y)
  toNat_wrappingSub (x y : α) :
    toNat (wrappingSub x y) = (toNat x + 2 ^ BITS α - toNat y) % 2 ^ BITS α
  toNat_overflowingMul (x y : α) :
    toNat (overflowingMul x y).1 = (toNat x * toNat y) % 2 ^ BITS α
  overflowingMul_snd (x y : α) :
    (overflowingMul x y).2 = decide (2 ^ BITS α ≤ toNat x * toNat y)
  toNat_wideningMul_fst (x y : α) :
    toNat (wideningMul x y).1 = (toNat x * toNat y) % 2 ^ BITS α
  toNat_wideningMul_snd (x y : α) :
    toNat (wideningMul x y).2 = (toNat x * toNat y) / 2 ^ BITS α
  add_eq (x y : α) :
    add x y = if toNat x + toNat y < 2 ^ BITS α then some (ofNat (toNat x + toNat y)) else none
  sub_eq (x y : α) :
    sub x y = if toNat y ≤ toNat x then some (ofNat (toNat x - toNat y)) else none
  mul_eq (x y : α) :
    mul x y = if toNat x * toNat y < 2 ^ BITS α then some (ofNat (toNat x * toNat y)) else none
  toNat_and (x y : α) : toNat (and x y) = toNat x &&& toNat y
  toNat_or (x y : α) : toNat (or x y) = toNat x ||| toNat y
  toNat_shl (x : α) (n : Nat) : n < BITS α → toNat (shl x n) = (toNat x * 2 ^ n) % 2 ^ BITS α
  toNat_shr (x : α) (n : Nat) : n < BITS α → toNat (shr x n) = toNat x / 2 ^ n
  toNat_roundingDivPow2 (x : α) (n : Nat) : n < BITS α →
    toNat (roundingDivPow2 x n) = Spec.rne (toNat x) (2 ^ n)
  toNat_ofU128 (v : BitVec 128) : toNat (ofU128 v : α) = v.toNat
  toNat_hiHalf (x : α) : toNat (hiHalf x) = toNat x / 2 ^ (BITS α / 2)
  toNat_loHalf (x : α) : toNat (loHalf x) = toNat x % 2 ^ (BITS α / 2)
  toNat_joinLo (x y : α) : toNat (joinLo x y) =
    toNat x % 2 ^ (BITS α / 2) * 2 ^ (BITS α / 2) + toNat y % 2 ^ (BITS α / 2)

namespace LawfulBigUInt

variable {α : Type} [BigUInt α] [LawfulBigUInt α]

theorem toNat_inj {x y : α} (h : toNat x = toNat y) : x = y := by
  rw [← ofNat_toNat x, ← ofNat_toNat y, h]

theorem eq_ofNat {x : α} {n : Nat} (h : toNat x = n % 2 ^ BITS α) : x = ofNat n :=
  toNat_inj (by rw [h, toNat_ofNat])

theorem toNat_ofNat_of_lt {n : Nat} (h : n < 2 ^ BITS α) : toNat (ofNat n : α) = n := by
  rw [toNat_ofNat, Nat.mod_eq_of_lt h]

theorem pow_bits_pos : 0 < 2 ^ BITS α := Nat.two_pow_pos _

theorem one_lt_pow_bits : 1 < 2 ^ BITS α := by
  have := bits_ge (α := α)
  calc 1 < 2 ^ 1 := by norm_num
    _ ≤ _ := Nat.pow_le_pow_right (by norm_num) (by omega)

theorem isZero_eq (x : α) : isZero x = decide (toNat x = 0) := by
  simp only [isZero, beq_eq, toNat_zero]

theorem toNat_bool (b : Bool) : (boolU128 b).toNat = b.toNat := by
  cases b <;> rfl

/-- `(a + b) % B` for `a, b < B`. -/
theorem add_mod_of_lt {a b B : Nat} (ha : a < B) (hb : b ≤ B) :
    (a + b) % B = if a + b < B then a + b else a + b - B := by
  split
  · rename_i h; exact Nat.mod_eq_of_lt h
  · rename_i h
    rw [Nat.mod_eq_sub_mod (by omega), Nat.mod_eq_of_lt (by omega)]

theorem toNat_incrIf (x : α) (c : Bool) :
    toNat (incrIf x c) = (toNat x + c.toNat) % 2 ^ BITS α := by
  simp only [incrIf, toNat_wrappingAdd, toNat_ofU128, toNat_bool]

theorem toNat_decrIf (x : α) (c : Bool) :
    toNat (decrIf x c) = (toNat x + 2 ^ BITS α - c.toNat) % 2 ^ BITS α := by
  simp only [decrIf, toNat_wrappingSub, toNat_ofU128, toNat_bool]

theorem bool_toNat_le (c : Bool) : c.toNat ≤ 1 := by cases c <;> decide

theorem toNat_carryingAdd (x y : α) (c : Bool) :
    toNat (carryingAdd x y c).1 = (toNat x + toNat y + c.toNat) % 2 ^ BITS α := by
  simp only [carryingAdd, toNat_overflowingAdd, toNat_ofU128, toNat_bool, Nat.mod_add_mod]

theorem carryingAdd_snd (x y : α) (c : Bool) :
    (carryingAdd x y c).2 = decide (2 ^ BITS α ≤ toNat x + toNat y + c.toNat) := by
  have hx := toNat_lt x
  have hy := toNat_lt y
  have hc := bool_toNat_le c
  have h1 := one_lt_pow_bits (α := α)
  simp only [carryingAdd, toNat_overflowingAdd, overflowingAdd_snd, toNat_ofU128, toNat_bool,
    add_mod_of_lt hx hy.le, ← Bool.decide_or]
  congr 1
  split <;> (apply propext; omega)

theorem toNat_borrowingSub (x y : α) (c : Bool) :
    toNat (borrowingSub x y c).1 =
      (toNat x + 2 * 2 ^ BITS α - toNat y - c.toNat) % 2 ^ BITS α := by
  have hx := toNat_lt x
  have hy := toNat_lt y
  have hc := bool_toNat_le c
  have h1 := one_lt_pow_bits (α := α)
  simp only [borrowingSub, toNat_overflowingSub, toNat_ofU128, toNat_bool]
  generalize 2 ^ BITS α = B at *
  have e : toNat x + 2 * B - toNat y - c.toNat = (toNat x + B - toNat y) + (B - c.toNat) := by
    omega
  rw [e, Nat.add_sub_assoc (by omega), Nat.mod_add_mod]

theorem borrowingSub_snd (x y : α) (c : Bool) :
    (borrowingSub x y c).2 = decide (toNat x < toNat y + c.toNat) := by
  have hx := toNat_lt x
  have hy := toNat_lt y
  have hc := bool_toNat_le c
  have h1 := one_lt_pow_bits (α := α)
  simp only [borrowingSub, toNat_overflowingSub, overflowingSub_snd, toNat_ofU128, toNat_bool,
    ← Bool.decide_or]
  congr 1
  rw [Nat.add_sub_assoc hy.le, add_mod_of_lt hx (by omega)]
  split <;> (apply propext; omega)

theorem carryingMul_eq (x y c : α) :
    toNat (carryingMul x y c).1 + toNat (carryingMul x y c).2 * 2 ^ BITS α =
      toNat x * toNat y + toNat c := by
  have hx := toNat_lt x
  have hy := toNat_lt y
  have hc := toNat_lt c
  have h1 := one_lt_pow_bits (α := α)
  simp only [carryingMul, toNat_overflowingAdd, overflowingAdd_snd, toNat_incrIf,
    toNat_wideningMul_fst, toNat_wideningMul_snd]
  generalize toNat x = a, toNat y = b, toNat c = c, 2 ^ BITS α = B at *
  have hab : a * b ≤ (B - 1) * (B - 1) := Nat.mul_le_mul (by omega) (by omega)
  obtain ⟨k, rfl⟩ : ∃ k, B = k + 1 := ⟨B - 1, by omega⟩
  have hq : a * b / (k + 1) < k := by
    rw [Nat.div_lt_iff_lt_mul (by omega)]
    simp only [Nat.add_sub_cancel] at hab
    have : k * (k + 1) = k * k + k := by ring
    omega
  have hdm := Nat.mod_add_div (a * b) (k + 1)
  have hr := Nat.mod_lt (a * b) (show k + 1 > 0 by omega)
  generalize a * b / (k + 1) = q, a * b % (k + 1) = r at *
  rw [add_mod_of_lt hr hc.le]
  rw [Nat.mod_eq_of_lt (a := q + _) (by
    have := bool_toNat_le (decide (k + 1 ≤ r + c)); omega)]
  split
  · rename_i h
    rw [decide_eq_false (by omega)]
    simp only [Bool.toNat_false]
    linarith
  · rename_i h
    rw [decide_eq_true (by omega)]
    simp only [Bool.toNat_true, Nat.add_mul]
    have : (k + 1) * q = q * (k + 1) := Nat.mul_comm _ _
    omega

end LawfulBigUInt
end Verif
