import Verif.Proofs.Wide

/-!
# The wide integers (C36-C40)

All theorems are about `Wide n`, the unsigned integer type with `2^n` words of 128 bits
(`Wide 1 = U256`, `Wide 2 = U512`, `Wide 3 = U1024`), for every `n`. `num x` is the number whose
base `2^128` digits, most significant first, are the words of `x`; `width n` is its bit width.
-/

namespace Verif.Props

open Verif Spec BigUInt

/-- The number denoted by `x`: its words are its base `2^128` digits. -/
def num {n : ℕ} (x : Wide n) : ℕ := wordsVal (toVec x)

/-- Number of bits. -/
def width (n : ℕ) : ℕ := 128 * 2 ^ n

theorem num_eq {n : ℕ} (x : Wide n) : LawfulBigUInt.toNat x = num x := Wide.toNat_eq n x
theorem bits_eq (n : ℕ) : BITS (Wide n) = width n := Wide.bits n

/-- C36. The words determine the integer and every list of `2^n` words is one; numbers are below
`2^width` and different integers denote different numbers. -/
theorem C36_words {n : ℕ} (x y : Wide n) (l : List (BitVec 128)) (hl : l.length = 2 ^ n) :
    (ofVec (toVec x) : Wide n) = x ∧ toVec (ofVec l : Wide n) = l ∧ num x < 2 ^ width n ∧
      (num x = num y → x = y) := by
  refine ⟨Wide.ofVec_toVec n x, Wide.toVec_ofVec n l hl, ?_, ?_⟩
  · rw [← num_eq, ← bits_eq]; exact LawfulBigUInt.toNat_lt x
  · rw [← num_eq, ← num_eq]; exact LawfulBigUInt.toNat_inj

/-- C36. Addition: the wrapping sum is the sum modulo `2^width`, overflow is reported exactly when
it happens, and the checked operator `+` panics exactly then. -/
theorem C36_add {n : ℕ} (x y : Wide n) :
    num (wrappingAdd x y) = (num x + num y) % 2 ^ width n ∧
    num (overflowingAdd x y).1 = (num x + num y) % 2 ^ width n ∧
    ((overflowingAdd x y).2 = true ↔ 2 ^ width n ≤ num x + num y) ∧
    (∀ z, add x y = some z ↔ num z = num x + num y) := by
  simp only [← num_eq, ← bits_eq]
  refine ⟨LawfulBigUInt.toNat_wrappingAdd x y, LawfulBigUInt.toNat_overflowingAdd x y, ?_, ?_⟩
  · rw [LawfulBigUInt.overflowingAdd_snd, decide_eq_true_iff]
  · intro z
    rw [LawfulBigUInt.add_eq]
    have hz := LawfulBigUInt.toNat_lt z
    split_ifs with h
    · rw [Option.some_inj]
      constructor
      · rintro rfl; exact LawfulBigUInt.toNat_ofNat_of_lt h
      · intro he; rw [← he, LawfulBigUInt.ofNat_toNat]
    · exact ⟨fun h' => (by cases h'), fun h' => (by omega)⟩

/-- C36. Addition with an incoming carry. -/
theorem C36_carryingAdd {n : ℕ} (x y : Wide n) (c : Bool) :
    num (carryingAdd x y c).1 = (num x + num y + c.toNat) % 2 ^ width n ∧
    ((carryingAdd x y c).2 = true ↔ 2 ^ width n ≤ num x + num y + c.toNat) := by
  simp only [← num_eq, ← bits_eq]
  refine ⟨LawfulBigUInt.toNat_carryingAdd x y c, ?_⟩
  rw [LawfulBigUInt.carryingAdd_snd, decide_eq_true_iff]

/-- C36. Subtraction, likewise. -/
theorem C36_sub {n : ℕ} (x y : Wide n) :
    (num (wrappingSub x y) + num y) % 2 ^ width n = num x ∧
    wrappingSub x y = (overflowingSub x y).1 ∧
    ((overflowingSub x y).2 = true ↔ num x < num y) ∧
    (∀ z, sub x y = some z ↔ num z + num y = num x) := by
  simp only [← num_eq, ← bits_eq]
  have hx := LawfulBigUInt.toNat_lt x
  have hy := LawfulBigUInt.toNat_lt y
  refine ⟨?_, ?_, ?_, ?_⟩
  · rw [LawfulBigUInt.toNat_wrappingSub, Nat.mod_add_mod, Nat.sub_add_cancel (by omega),
      Nat.add_mod_right, Nat.mod_eq_of_lt hx]
  · apply LawfulBigUInt.toNat_inj
    rw [LawfulBigUInt.toNat_wrappingSub, LawfulBigUInt.toNat_overflowingSub]
  · rw [LawfulBigUInt.overflowingSub_snd, decide_eq_true_iff]
  · intro z
    rw [LawfulBigUInt.sub_eq]
    split_ifs with h
    · rw [Option.some_inj]
      constructor
      · rintro rfl
        rw [LawfulBigUInt.toNat_ofNat_of_lt (by omega)]; omega
      · intro he
        rw [show LawfulBigUInt.toNat x - LawfulBigUInt.toNat y = LawfulBigUInt.toNat z by omega,
          LawfulBigUInt.ofNat_toNat]
    · exact ⟨fun h' => (by cases h'), fun h' => (by omega)⟩

/-- C36. Increment and decrement (wrapping). -/
theorem C36_incr_decr {n : ℕ} (x : Wide n) :
    num (incr x) = (num x + 1) % 2 ^ width n ∧ (num (decr x) + 1) % 2 ^ width n = num x := by
  simp only [← num_eq, ← bits_eq]
  have hx := LawfulBigUInt.toNat_lt x
  refine ⟨LawfulBigUInt.toNat_incr x, ?_⟩
  rw [LawfulBigUInt.toNat_decr, Nat.mod_add_mod, Nat.sub_add_cancel (by omega), Nat.add_mod_right,
    Nat.mod_eq_of_lt hx]

/-- C36. Comparison and equality are those of the numbers. -/
theorem C36_cmp {n : ℕ} (x y : Wide n) :
    cmp x y = compare (num x) (num y) ∧ (beq x y = true ↔ num x = num y) := by
  simp only [← num_eq]
  refine ⟨LawfulBigUInt.cmp_eq x y, ?_⟩
  rw [LawfulBigUInt.beq_eq, decide_eq_true_iff]

/-- C36. Shifts by less than the width. -/
theorem C36_shift {n : ℕ} (x : Wide n) {k : ℕ} (hk : k < width n) :
    num (shl x k) = num x * 2 ^ k % 2 ^ width n ∧ num (shr x k) = num x / 2 ^ k := by
  simp only [← num_eq, ← bits_eq] at *
  exact ⟨LawfulBigUInt.toNat_shl x k hk, LawfulBigUInt.toNat_shr x k hk⟩

theorem ctz_spec : ∀ (f m : ℕ), m ≠ 0 → m < 2 ^ f →
    2 ^ U128.ctz f m ∣ m ∧ ¬ 2 ^ (U128.ctz f m + 1) ∣ m := by
  intro f
  induction f with
  | zero => intro m h0 h; rw [pow_zero] at h; omega
  | succ f ih =>
    intro m h0 h
    rw [U128.ctz]
    by_cases h1 : m % 2 = 1
    · rw [if_pos h1]; exact ⟨by simp, by rw [zero_add, pow_one]; omega⟩
    · rw [if_neg h1]
      obtain ⟨k, rfl⟩ : ∃ k, m = 2 * k := ⟨m / 2, by omega⟩
      rw [show 2 * k / 2 = k by omega]
      obtain ⟨i1, i2⟩ := ih k (by omega) (by rw [pow_succ] at h; omega)
      rw [Nat.add_comm 1, pow_succ']
      refine ⟨Nat.mul_dvd_mul_left 2 i1, fun hd => i2 ?_⟩
      rw [pow_succ'] at hd
      exact Nat.dvd_of_mul_dvd_mul_left (by norm_num) hd

/-- C36. Counts of leading and trailing zeros, parity. -/
theorem C36_zeros {n : ℕ} (x : Wide n) :
    (num x = 0 → leadingZeros x = width n) ∧
    (num x ≠ 0 → leadingZeros x < width n ∧ 2 ^ (width n - 1 - leadingZeros x) ≤ num x ∧
      num x < 2 ^ (width n - leadingZeros x)) ∧
    (num x = 0 → trailingZeros x = width n) ∧
    (num x ≠ 0 → 2 ^ trailingZeros x ∣ num x ∧ ¬ 2 ^ (trailingZeros x + 1) ∣ num x) ∧
    (isOdd x = true ↔ num x % 2 = 1) ∧ (isEven x = true ↔ num x % 2 = 0) := by
  simp only [← num_eq, ← bits_eq]
  have hx := LawfulBigUInt.toNat_lt x
  rw [LawfulBigUInt.leadingZeros_eq, LawfulBigUInt.trailingZeros_eq, LawfulBigUInt.isOdd_eq,
    LawfulBigUInt.isEven_eq]
  refine ⟨fun h => by rw [if_pos h], fun h => ?_, fun h => ?_, fun h => ctz_spec _ _ h hx,
    by rw [decide_eq_true_iff], by rw [decide_eq_true_iff]⟩
  · rw [if_neg h]
    have hl := (Nat.log2_lt h).mpr hx
    refine ⟨by omega, ?_, ?_⟩
    · rw [show BITS (Wide n) - 1 - (BITS (Wide n) - 1 - (LawfulBigUInt.toNat x).log2) =
        (LawfulBigUInt.toNat x).log2 by omega]
      exact Nat.log2_self_le h
    · rw [show BITS (Wide n) - (BITS (Wide n) - 1 - (LawfulBigUInt.toNat x).log2) =
        (LawfulBigUInt.toNat x).log2 + 1 by omega]
      exact Nat.lt_log2_self
  · rw [h]; exact UInt.ctz_zero _

/-- C36. Bitwise conjunction and disjunction. -/
theorem C36_bitops {n : ℕ} (x y : Wide n) :
    num (BigUInt.and x y) = num x &&& num y ∧ num (BigUInt.or x y) = num x ||| num y := by
  simp only [← num_eq]
  exact ⟨LawfulBigUInt.toNat_and x y, LawfulBigUInt.toNat_or x y⟩

/-- C37. The double-width product. -/
theorem C37_wideningMul {n : ℕ} (x y : Wide n) :
    num (wideningMul x y).1 + num (wideningMul x y).2 * 2 ^ width n = num x * num y := by
  simp only [← num_eq, ← bits_eq]
  rw [LawfulBigUInt.toNat_wideningMul_fst, LawfulBigUInt.toNat_wideningMul_snd, Nat.mul_comm (_ / _)]
  exact Nat.mod_add_div _ _

/-- C37. The product with an added carry word does not overflow the two halves. -/
theorem C37_carryingMul {n : ℕ} (x y c : Wide n) :
    num (carryingMul x y c).1 + num (carryingMul x y c).2 * 2 ^ width n =
      num x * num y + num c := by
  simp only [← num_eq, ← bits_eq]
  exact LawfulBigUInt.carryingMul_eq x y c

/-- C37. The single-width products: low half with exact overflow report; the checked operator `*`
panics exactly when the product does not fit. -/
theorem C37_mul {n : ℕ} (x y : Wide n) :
    num (overflowingMul x y).1 = num x * num y % 2 ^ width n ∧
    ((overflowingMul x y).2 = true ↔ 2 ^ width n ≤ num x * num y) ∧
    num (wrappingMul x y) = num x * num y % 2 ^ width n ∧
    num (truncatingMul x y) = num x * num y / 2 ^ width n ∧
    (∀ z, mul x y = some z ↔ num z = num x * num y) := by
  simp only [← num_eq, ← bits_eq]
  refine ⟨LawfulBigUInt.toNat_overflowingMul x y, ?_, LawfulBigUInt.toNat_wideningMul_fst x y,
    LawfulBigUInt.toNat_wideningMul_snd x y, ?_⟩
  · rw [LawfulBigUInt.overflowingMul_snd, decide_eq_true_iff]
  · intro z
    rw [LawfulBigUInt.mul_eq]
    have hz := LawfulBigUInt.toNat_lt z
    split_ifs with h
    · rw [Option.some_inj]
      constructor
      · rintro rfl; exact LawfulBigUInt.toNat_ofNat_of_lt h
      · intro he; rw [← he, LawfulBigUInt.ofNat_toNat]
    · exact ⟨fun h' => (by cases h'), fun h' => (by omega)⟩

/-! ## Division -/

/-- C38. Dividing a wide integer (any width) by a non-zero 128-bit word: returns quotient and
remainder. -/
theorem C38_div_u128 {n : ℕ} (x : Wide (n + 1)) (d : U128) (hd : d ≠ 0) :
    ∃ (q : Wide (n + 1)) (r : U128), UInt.divRemU128 (α := Wide n) x d = some (q, r) ∧
      num x = num q * d.toNat + r.toNat ∧ r.toNat < d.toNat := by
  have hd' : d.toNat ≠ 0 := fun h => hd (BitVec.eq_of_toNat_eq h)
  obtain ⟨q, r, h1, h2, h3⟩ := Wide.divRemU128_spec x d hd'
  refine ⟨q, r, h1, ?_, ?_⟩
  · have h2' : num (n := n + 1) q = num x / d.toNat :=
      (num_eq (n := n + 1) q).symm.trans (h2.trans (by rw [num_eq]))
    rw [h2', h3, num_eq, Nat.mul_comm]; exact (Nat.div_add_mod _ _).symm
  · rw [h3]; exact Nat.mod_lt _ (Nat.pos_of_ne_zero hd')

theorem nat_num (x : U256) : UInt.nat x = num (n := 1) x := num_eq (n := 1) x

theorem nat_num2 (x : U512) : UInt.nat x = num (n := 2) x := num_eq (n := 2) x

/-- C38. Dividing a 256-bit integer by a non-zero 64-bit word. -/
theorem C38_div_u64 (x : U256) (d : BitVec 64) (hd : d ≠ 0) :
    ∃ q r, divRemU64 x d = some (q, r) ∧
      num (n := 1) x = num (n := 1) q * d.toNat + r.toNat ∧ r.toNat < d.toNat := by
  have hd' : d.toNat ≠ 0 := fun h => hd (BitVec.eq_of_toNat_eq h)
  obtain ⟨q, r, h1, h2, h3⟩ := divRemU64_spec x d hd'
  refine ⟨q, r, h1, ?_, ?_⟩
  · have h2' : num (n := 1) q = num (n := 1) x / d.toNat := by
      rw [← nat_num, ← nat_num]; exact h2
    have h3' : r.toNat = num (n := 1) x % d.toNat := by rw [← nat_num]; exact h3
    rw [h2', h3', Nat.mul_comm]; exact (Nat.div_add_mod _ _).symm
  · rw [h3]; exact Nat.mod_lt _ (Nat.pos_of_ne_zero hd')

theorem num_of_lt {k : ℕ} (h : k < 2 ^ 256) : num (n := 1) (UInt.mkNat k : U256) = k := by
  rw [← nat_num, UInt.nat_mkNat]; exact Nat.mod_eq_of_lt h

/-- C38. Dividing a 256-bit integer by a 128-bit one (`U256 / U128`). -/
theorem C38_div_half (x : U256) (d : U128) (hd : d ≠ 0) :
    ∃ q r, UInt.divRemSub x d = some (q, r) ∧
      num (n := 1) x = num (n := 1) q * d.toNat + r.toNat ∧ r.toNat < d.toNat := by
  have hd' : d.toNat ≠ 0 := fun h => hd (BitVec.eq_of_toNat_eq h)
  have hx : num (n := 1) x < 2 ^ 256 := by rw [← nat_num]; exact UInt.nat_lt x
  have hr : (BitVec.ofNat 128 (UInt.nat x % d.toNat)).toNat = UInt.nat x % d.toNat := by
    rw [BitVec.toNat_ofNat]
    exact Nat.mod_eq_of_lt (lt_trans (Nat.mod_lt _ (Nat.pos_of_ne_zero hd')) d.isLt)
  refine ⟨_, _, divRemSub256 x d hd', ?_, ?_⟩
  · rw [hr, nat_num, num_of_lt (lt_of_le_of_lt (Nat.div_le_self _ _) hx), Nat.mul_comm]
    exact (Nat.div_add_mod _ _).symm
  · rw [hr]; exact Nat.mod_lt _ (Nat.pos_of_ne_zero hd')

/-- C38 (partial). The full division of 256-bit integers. If it returns then quotient and remainder
reconstruct the dividend, and the remainder is at most the divisor; it is smaller than the divisor
unless the divisor divides the dividend and has a small non-zero high word. It returns if the top
bit of the dividend is clear, or if the high word of the divisor is zero, or if the top bit of the
divisor is set. See the counterexamples below for the excluded cases. -/
theorem C38_div_full_partial (x y : U256) (hy : num (n := 1) y ≠ 0) :
    (∀ q r, UInt.divRem x y = some (q, r) →
      num (n := 1) x = num (n := 1) q * num (n := 1) y + num (n := 1) r ∧
      num (n := 1) r ≤ num (n := 1) y ∧
      (num (n := 1) x % num (n := 1) y ≠ 0 ∨ y.hi.toNat = 0 ∨ 2 ^ 128 ≤ y.hi.toNat * y.hi.toNat →
        num (n := 1) r < num (n := 1) y)) ∧
    (num (n := 1) x < 2 ^ 255 ∨ y.hi.toNat = 0 ∨ 2 ^ 255 ≤ num (n := 1) y →
      ∃ q r, UInt.divRem x y = some (q, r)) := by
  have hα : ∀ a b : U128, LawfulBigUInt.toNat b ≠ 0 → DivExact a b := fun a b h =>
    U128.divRem_exact a b h
  simp only [← nat_num] at *
  constructor
  · intro q r h
    exact UInt.divRemFuel_partial hα _ x y q r hy h
  · rintro (h | h | h)
    · exact UInt.divRem_total hα x y hy h
    · have hlo : y.lo.toNat ≠ 0 := by
        intro h0
        apply hy
        show y.hi.toNat * 2 ^ 128 + y.lo.toNat = 0
        rw [h, h0]; rfl
      exact ⟨_, _, UInt.divRem_lo x y h hlo (fun _ => hα _ _ hlo) (fun _ => hα _ _ hlo)⟩
    · exact ⟨_, _, UInt.divRem_top x y h⟩

/-- C38 is false of the full division: there are dividends and divisors for which it panics
("multiply with overflow"), and others for which the remainder equals the divisor. -/
theorem C38_counterexample :
    UInt.divRem (⟨0xffffffffffffffffffffffffffffffff, 0xffffffffffffffffffffffffffffffff⟩ : U256)
      ⟨(0xffffffffffffffffffffffffffffffff : BitVec 128) / 983055,
        0xffffffffffffffffffffffffffffffff⟩ = none ∧
    (∃ x y : U256, y = ⟨1, 0xffffffffffffffffffffffffffffffff⟩ ∧
      UInt.mul y ⟨0, 0x10000000000000000⟩ = some x ∧
      UInt.divRem x y = some (⟨0, 0xffffffffffffffff⟩, y)) := by
  refine ⟨by decide +kernel, ⟨0x1ffffffffffffffff, 0xffffffffffffffff0000000000000000⟩, _, rfl,
    by decide +kernel, by decide +kernel⟩

/-! ## Rounding division -/

/-- C39. Rounding right shift: nearest integer, ties to even, at every width and for every shift
below the width. -/
theorem C39_roundingDivPow2 {n : ℕ} (x : Wide n) {k : ℕ} (hk : k < width n) :
    NearestEven (num x) (2 ^ k) (num (roundingDivPow2 x k)) := by
  rw [← bits_eq] at hk
  rw [← num_eq, ← num_eq, LawfulBigUInt.toNat_roundingDivPow2 x k hk]
  exact rne_nearest _ (Nat.two_pow_pos k)

/-- C39. The part shifted out: remainder modulo `2^k`, for every `k` (from 256 bits on; the base
type's `rem_pow2` is wrong, see `C39_remPow2_counterexample`). -/
theorem C39_remPow2 {n : ℕ} (x : Wide (n + 1)) (k : ℕ) : num (remPow2 x k) = num x % 2 ^ k := by
  rw [← num_eq, ← num_eq]
  exact UInt.nat_remPow2 (α := Wide n) x k

/-- `U128::rem_pow2(2)` of 5 is 5. -/
theorem C39_remPow2_counterexample : U128.remPow2 5 2 = 5 := by decide

/-- C40, decimal: `rounding_div_pow10` is the nearest integer to `x / 10^k`, ties to even, for every
512-bit `x` and every `k ≥ 1`. -/
theorem C40_roundingDivPow10 (x : U512) {k : ℕ} (hk : 1 ≤ k) :
    ∃ q, roundingDivPow10 x k = some q ∧
      NearestEven (num (n := 2) x) (10 ^ k) (num (n := 2) q) := by
  obtain ⟨q, h1, h2⟩ := roundingDivPow10_spec x hk
  refine ⟨q, h1, ?_⟩
  rw [← nat_num2, ← nat_num2, h2]
  exact rne_nearest _ (Nat.pow_pos (by norm_num))

/-- C40 (partial). `rounding_div` of 256-bit integers is the nearest integer, ties to even, if the
divisor is even and the dividend is below `2^255`. This is so although the underlying division may
return a quotient which is one too small (see C38): then the remainder equals the divisor, and the
quotient is rounded up. For odd divisors it is not, see `C40_counterexample`. -/
theorem C40_roundingDiv_partial (x y : U256) (hy : num (n := 1) y ≠ 0)
    (heven : num (n := 1) y % 2 = 0) (hx : num (n := 1) x < 2 ^ 255) :
    ∃ q, UInt.roundingDiv x y = some q ∧
      NearestEven (num (n := 1) x) (num (n := 1) y) (num (n := 1) q) := by
  obtain ⟨h1, h2⟩ := C38_div_full_partial x y hy
  obtain ⟨q, r, hq⟩ := h2 (Or.inl hx)
  obtain ⟨g1, g2, -⟩ := h1 q r hq
  have hne := rne_nearest (num (n := 1) x) (Nat.pos_of_ne_zero hy)
  by_cases g3 : num (n := 1) r < num (n := 1) y
  swap
  · have g4 : num (n := 1) r = num (n := 1) y := by omega
    have e1 : num (n := 1) x / num (n := 1) y = num (n := 1) q + 1 := by
      rw [g1, g4, ← Nat.succ_mul, Nat.mul_div_cancel _ (Nat.pos_of_ne_zero hy)]
    have e2 : num (n := 1) x % num (n := 1) y = 0 := by
      rw [g1, g4, ← Nat.succ_mul, Nat.mul_mod_left]
    have ht : UInt.nat (UInt.shr y 1) = UInt.nat y / 2 := UInt.nat_shr y 1 (by decide)
    unfold UInt.roundingDiv
    rw [hq]
    simp only [Option.bind_eq_bind, Option.bind_some]
    have hc : UInt.cmp r (UInt.shr y 1) = .gt := by
      rw [UInt.cmp_eq, ht, nat_num, nat_num, g4, Nat.compare_eq_gt]
      omega
    rw [hc]
    refine ⟨_, rfl, ?_⟩
    have : num (n := 1) (UInt.incr (α := U128) q) = num (n := 1) q + 1 := by
      rw [← nat_num, ← nat_num]
      refine (LawfulBigUInt.toNat_incr (α := U256) q).trans (Nat.mod_eq_of_lt ?_)
      have : UInt.nat q + 1 ≤ num (n := 1) x := by
        rw [nat_num, ← e1]; exact Nat.div_le_self _ _
      show UInt.nat q + 1 < 2 ^ 256
      omega
    unfold Spec.rne at hne
    rw [e1, e2, if_neg (by omega)] at hne
    rw [← this] at hne
    exact hne
  have e1 : num (n := 1) x / num (n := 1) y = num (n := 1) q := by
    rw [g1, Nat.add_comm, Nat.add_mul_div_right _ _ (Nat.pos_of_ne_zero hy), Nat.div_eq_of_lt g3,
      Nat.zero_add]
  have e2 : num (n := 1) x % num (n := 1) y = num (n := 1) r := by
    rw [g1, Nat.add_comm, Nat.add_mul_mod_self_right, Nat.mod_eq_of_lt g3]
  have ht : UInt.nat (UInt.shr y 1) = UInt.nat y / 2 := UInt.nat_shr y 1 (by decide)
  unfold UInt.roundingDiv
  rw [hq]
  simp only [Option.bind_eq_bind, Option.bind_some]
  rw [UInt.cmp_eq, UInt.beq_eq, ht, nat_num, nat_num,
    show isOdd q.lo = UInt.isOdd q from rfl,
    show UInt.isOdd q = decide (num (n := 1) q % 2 = 1) by
      rw [← nat_num]; exact LawfulBigUInt.isOdd_eq (α := U256) q]
  unfold Spec.rne at hne
  rw [e1, e2] at hne
  have hc : ((compare (num (n := 1) r) (num (n := 1) y / 2) == .gt) ||
      (decide (num (n := 1) r = num (n := 1) y / 2) && decide (num (n := 1) q % 2 = 1))) = true ↔
      (num (n := 1) y < 2 * num (n := 1) r ∨
        2 * num (n := 1) r = num (n := 1) y ∧ num (n := 1) q % 2 = 1) := by
    rw [Bool.or_eq_true, Bool.and_eq_true, decide_eq_true_iff, decide_eq_true_iff, beq_iff_eq,
      Nat.compare_eq_gt]
    omega
  by_cases h : num (n := 1) y < 2 * num (n := 1) r ∨
        2 * num (n := 1) r = num (n := 1) y ∧ num (n := 1) q % 2 = 1
  · rw [if_pos h] at hne
    rw [if_pos (hc.mpr h)]
    refine ⟨_, rfl, ?_⟩
    have : num (n := 1) (UInt.incr (α := U128) q) = num (n := 1) q + 1 := by
      rw [← nat_num, ← nat_num]
      refine (LawfulBigUInt.toNat_incr (α := U256) q).trans (Nat.mod_eq_of_lt ?_)
      have : UInt.nat q ≤ num (n := 1) x := by
        rw [nat_num, ← e1]; exact Nat.div_le_self _ _
      show UInt.nat q + 1 < 2 ^ 256
      omega
    rw [← this] at hne
    exact hne
  · rw [if_neg h] at hne
    rw [if_neg (fun h' => h (hc.mp h'))]
    exact ⟨_, rfl, hne⟩

/-- C40 is false for odd divisors: `4 / 3` is rounded to 2. -/
theorem C40_counterexample :
    UInt.roundingDiv (⟨0, 4⟩ : U256) ⟨0, 3⟩ = some ⟨0, 2⟩ ∧ U128.roundingDiv 4 3 = some 2 ∧
      ¬ NearestEven 4 3 2 := by
  refine ⟨by decide +kernel, by decide, ?_⟩
  rintro ⟨h, -, -⟩
  omega

/-! ## Concrete cases -/

example : num (n := 1) (⟨1, 2⟩ : U256) = 2 ^ 128 + 2 := by decide
example : add (α := U256) ⟨0xffffffffffffffffffffffffffffffff, 5⟩ ⟨1, 0⟩ = none ∧
    sub (α := U256) ⟨1, 0⟩ ⟨0, 1⟩ = some ⟨0, 0xffffffffffffffffffffffffffffffff⟩ ∧
    leadingZeros (α := U256) ⟨0, 1⟩ = 255 ∧ shl (α := U256) ⟨0, 3⟩ 127 = ⟨1, 1 <<< 127⟩ := by
  decide +kernel
example : wideningMul (α := U256) ⟨0, 3⟩ ⟨1 <<< 127, 0⟩ = (⟨1 <<< 127, 0⟩, ⟨0, 1⟩) := by
  decide +kernel
example : UInt.divRemU128 (⟨7, 1⟩ : U256) 2 = some (⟨3, 1 <<< 127⟩, 1) := by decide +kernel
example : roundingDivPow2 (α := U256) ⟨0, 6⟩ 2 = ⟨0, 2⟩ ∧ roundingDivPow2 (α := U256) ⟨0, 10⟩ 2 = ⟨0, 2⟩ ∧
    roundingDivPow2 (α := U256) ⟨0, 11⟩ 2 = ⟨0, 3⟩ := by decide +kernel
example : roundingDivPow10 ⟨⟨0, 0⟩, ⟨0, 1250⟩⟩ 2 = some ⟨⟨0, 0⟩, ⟨0, 12⟩⟩ := by decide +kernel
example : UInt.roundingDiv (⟨0, 10⟩ : U256) ⟨0, 4⟩ = some ⟨0, 2⟩ := by decide +kernel

end Verif.Props
