import Verif.Proofs.LawfulU128

/-!
# Laws lift from `α` to `UInt α`
-/

namespace Verif

open BigUInt

namespace LawfulBigUInt

variable {α : Type} [BigUInt α] [LawfulBigUInt α]

theorem lt_eq (x y : α) : lt x y = decide (toNat x < toNat y) := by
  rw [lt, cmp_eq, Bool.eq_iff_iff, beq_iff_eq, decide_eq_true_iff, Nat.compare_eq_lt]

theorem gt_eq (x y : α) : gt x y = decide (toNat y < toNat x) := by
  rw [gt, cmp_eq, Bool.eq_iff_iff, beq_iff_eq, decide_eq_true_iff, Nat.compare_eq_gt]

theorem ge_eq (x y : α) : ge x y = decide (toNat y ≤ toNat x) := by
  rw [ge, cmp_eq, Bool.eq_iff_iff, decide_eq_true_iff, bne_iff_ne, Ne, Nat.compare_eq_lt, not_lt]

theorem le_eq (x y : α) : le x y = decide (toNat x ≤ toNat y) := by
  rw [le, cmp_eq, Bool.eq_iff_iff, decide_eq_true_iff, bne_iff_ne, Ne, Nat.compare_eq_gt, not_lt]

theorem toNat_wideningShl (x : α) (n : Nat) (h : n < BITS α) :
    toNat (wideningShl x n).1 = toNat x * 2 ^ n % 2 ^ BITS α ∧
    toNat (wideningShl x n).2 = toNat x * 2 ^ n / 2 ^ BITS α := by
  have hx := toNat_lt x
  rcases n with _ | n
  · simp only [wideningShl, Nat.pow_zero, Nat.mul_one, Nat.mod_eq_of_lt hx,
      Nat.div_eq_of_lt hx, toNat_zero, and_self]
  · simp only [wideningShl]
    refine ⟨toNat_shl _ _ h, ?_⟩
    rw [toNat_shr _ _ (by omega)]
    have : 2 ^ BITS α = 2 ^ (BITS α - (n + 1)) * 2 ^ (n + 1) := by
      rw [← Nat.pow_add]; congr 1; omega
    rw [this, Nat.mul_div_mul_right _ _ (Nat.two_pow_pos _)]

end LawfulBigUInt

namespace UInt

open LawfulBigUInt

variable {α : Type} [BigUInt α]

theorem pow_two_bits : 2 ^ (2 * BITS α) = 2 ^ BITS α * 2 ^ BITS α := by
  rw [Nat.two_mul, Nat.pow_add]

variable [LawfulBigUInt α]

/-- The number a pair of halves stands for. -/
def nat (x : UInt α) : Nat := toNat x.hi * 2 ^ BITS α + toNat x.lo

/-- The pair of halves of a number. -/
def mkNat (n : Nat) : UInt α := ⟨LawfulBigUInt.ofNat (n / 2 ^ BITS α), LawfulBigUInt.ofNat n⟩

/-! Arithmetic in base `B`. -/

theorem base_lt {h l B C : Nat} (hh : h < C) (hl : l < B) : h * B + l < C * B := by
  calc h * B + l < h * B + B := by omega
    _ = (h + 1) * B := by ring
    _ ≤ C * B := Nat.mul_le_mul_right _ hh

theorem base_mod {h l B : Nat} (C : Nat) (hl : l < B) :
    (h * B + l) % (C * B) = h % C * B + l := by
  have hB : 0 < B := by omega
  rcases Nat.eq_zero_or_pos C with rfl | hC
  · simp
  have e : h * B + l = (h / C) * (C * B) + (h % C * B + l) := by
    conv_lhs => rw [← Nat.div_add_mod h C]
    ring
  rw [e, Nat.mul_comm (h / C), Nat.mul_add_mod, Nat.mod_eq_of_lt (base_lt (Nat.mod_lt _ hC) hl)]

theorem base_div {h l B : Nat} (hl : l < B) : (h * B + l) / B = h := by
  rw [Nat.mul_comm, Nat.mul_add_div (by omega), Nat.div_eq_of_lt hl, Nat.add_zero]

theorem base_mod' {h l B : Nat} (hl : l < B) : (h * B + l) % B = l := by
  rw [Nat.mul_comm, Nat.mul_add_mod, Nat.mod_eq_of_lt hl]

theorem base_lt_iff {a b c d B : Nat} (hb : b < B) (hd : d < B) :
    a * B + b < c * B + d ↔ a < c ∨ (a = c ∧ b < d) := by
  rcases lt_trichotomy a c with h | rfl | h
  · have := base_lt h hb; simp only [h, true_or, iff_true]; omega
  · simp
  · have := base_lt h hd
    constructor
    · intro; omega
    · rintro (h' | ⟨h', _⟩) <;> omega

theorem base_inj {a b c d B : Nat} (hb : b < B) (hd : d < B) :
    a * B + b = c * B + d ↔ a = c ∧ b = d := by
  constructor
  · intro h
    have h1 := base_div (h := a) hb
    have h2 := base_mod' (h := a) hb
    rw [h, base_div hd] at h1
    rw [h, base_mod' hd] at h2
    exact ⟨h1.symm, h2.symm⟩
  · rintro ⟨rfl, rfl⟩; rfl

/-- The sum of two low halves, as carry and low half. -/
theorem carry_split {a b B : Nat} (ha : a < B) (hb : b < B) :
    a + b = (decide (B ≤ a + b)).toNat * B + (a + b) % B := by
  by_cases h : B ≤ a + b
  · rw [decide_eq_true h, Bool.toNat_true, Nat.mod_eq_sub_mod h, Nat.mod_eq_of_lt (by omega)]
    omega
  · rw [decide_eq_false h, Bool.toNat_false, Nat.mod_eq_of_lt (by omega)]
    omega

theorem nat_lt (x : UInt α) : nat x < 2 ^ (2 * BITS α) := by
  rw [pow_two_bits]; exact base_lt (toNat_lt _) (toNat_lt _)

theorem nat_mkNat (n : Nat) : nat (mkNat n : UInt α) = n % 2 ^ (2 * BITS α) := by
  rw [pow_two_bits, nat, mkNat, LawfulBigUInt.toNat_ofNat, LawfulBigUInt.toNat_ofNat]
  conv_rhs => rw [← Nat.div_add_mod n (2 ^ BITS α), Nat.mul_comm]
  rw [base_mod _ (Nat.mod_lt _ (Nat.two_pow_pos _))]

theorem mkNat_nat (x : UInt α) : mkNat (nat x) = x := by
  rw [mkNat, nat, base_div (toNat_lt _)]
  congr 1
  · exact LawfulBigUInt.ofNat_toNat _
  · apply LawfulBigUInt.toNat_inj
    rw [LawfulBigUInt.toNat_ofNat, base_mod' (toNat_lt _)]

theorem eq_mkNat {x : UInt α} {n : Nat} (h : nat x = n) : x = mkNat n := by
  rw [← h, mkNat_nat]

theorem cmp_eq (x y : UInt α) : cmp x y = compare (nat x) (nat y) := by
  have hxl := toNat_lt x.lo
  have hyl := toNat_lt y.lo
  rw [cmp, LawfulBigUInt.cmp_eq, LawfulBigUInt.cmp_eq, nat, nat]
  rcases lt_trichotomy (toNat x.hi) (toNat y.hi) with h | h | h
  · rw [Nat.compare_eq_lt.2 h, Nat.compare_eq_lt.2 ((base_lt_iff hxl hyl).2 (Or.inl h))]; rfl
  · rw [h, Nat.compare_eq_eq.2 rfl]
    simp only [Ordering.then]
    rcases lt_trichotomy (toNat x.lo) (toNat y.lo) with h | h | h
    · rw [Nat.compare_eq_lt.2 h, Nat.compare_eq_lt.2 (by omega)]
    · rw [h, Nat.compare_eq_eq.2 rfl, Nat.compare_eq_eq.2 rfl]
    · rw [Nat.compare_eq_gt.2 h, Nat.compare_eq_gt.2 (by omega)]
  · rw [Nat.compare_eq_gt.2 h, Nat.compare_eq_gt.2 ((base_lt_iff hyl hxl).2 (Or.inl h))]; rfl

theorem beq_eq (x y : UInt α) : beq x y = decide (nat x = nat y) := by
  rw [beq, LawfulBigUInt.beq_eq, LawfulBigUInt.beq_eq, ← Bool.decide_and, decide_eq_decide, nat,
    nat, base_inj (toNat_lt _) (toNat_lt _)]

theorem two_dvd_pow_bits : 2 ∣ 2 ^ BITS α :=
  dvd_pow_self 2 (by have := bits_ge (α := α); omega)

theorem nat_mod_two (x : UInt α) : nat x % 2 = toNat x.lo % 2 := by
  obtain ⟨k, hk⟩ := two_dvd_pow_bits (α := α)
  rw [nat, hk, show toNat x.hi * (2 * k) = 2 * (toNat x.hi * k) by ring, Nat.mul_add_mod]

theorem log2_base {h l n : Nat} (hh : h ≠ 0) (hl : l < 2 ^ n) :
    (h * 2 ^ n + l).log2 = h.log2 + n := by
  have hne : h * 2 ^ n + l ≠ 0 := by
    have := Nat.mul_pos (Nat.pos_of_ne_zero hh) (Nat.two_pow_pos n); omega
  apply le_antisymm
  · have : (h * 2 ^ n + l).log2 < h.log2 + n + 1 := by
      rw [Nat.log2_lt hne, show h.log2 + n + 1 = (h.log2 + 1) + n by omega, Nat.pow_add]
      exact base_lt ((Nat.log2_lt hh).1 (Nat.lt_succ_self _)) hl
    omega
  · rw [Nat.le_log2 hne, Nat.pow_add]
    have := Nat.mul_le_mul_right (2 ^ n) ((Nat.le_log2 hh).1 (le_refl _))
    omega

theorem leadingZeros_eq (x : UInt α) :
    leadingZeros x = if nat x = 0 then 2 * BITS α else 2 * BITS α - 1 - (nat x).log2 := by
  have hxl := toNat_lt x.lo
  rw [leadingZeros, isZero_eq, LawfulBigUInt.leadingZeros_eq, LawfulBigUInt.leadingZeros_eq]
  by_cases h : toNat x.hi = 0
  · rw [nat, h]
    simp only [decide_true, Bool.toNat_true, Nat.zero_mul, Nat.zero_add, if_true, Nat.one_mul]
    split
    · omega
    · rename_i h0
      have := (Nat.log2_lt h0).2 hxl
      omega
  · have h2 := (Nat.log2_lt h).2 (toNat_lt x.hi)
    have hne : nat x ≠ 0 := by
      have := Nat.mul_pos (Nat.pos_of_ne_zero h) (Nat.two_pow_pos (BITS α))
      rw [nat]; omega
    rw [if_neg h, if_neg hne, decide_eq_false h, nat, log2_base h hxl]
    simp only [Bool.toNat_false]; omega

theorem ctz_zero (n : Nat) : U128.ctz n 0 = n := by
  induction n with
  | zero => rfl
  | succ n ih => simp only [U128.ctz, Nat.zero_div, ih]; simp; omega

theorem ctz_base (n m : Nat) : ∀ h l : Nat, l < 2 ^ n →
    U128.ctz (n + m) (h * 2 ^ n + l) = if l = 0 then n + U128.ctz m h else U128.ctz n l := by
  induction n with
  | zero =>
    intro h l hl
    have : l = 0 := by simpa using hl
    subst this; simp
  | succ n ih =>
    intro h l hl
    rw [Nat.pow_succ] at hl
    have e1 : (h * 2 ^ (n + 1) + l) % 2 = l % 2 := by
      rw [Nat.pow_succ, ← Nat.mul_assoc]; omega
    have e2 : (h * 2 ^ (n + 1) + l) / 2 = h * 2 ^ n + l / 2 := by
      rw [Nat.pow_succ, ← Nat.mul_assoc]; omega
    rw [show n + 1 + m = (n + m) + 1 by omega, U128.ctz, e1, e2, ih _ _ (by omega)]
    by_cases h0 : l = 0
    · subst h0; simp; omega
    · rw [if_neg h0, U128.ctz]
      by_cases h1 : l % 2 = 1
      · rw [if_pos h1, if_pos h1]
      · rw [if_neg h1, if_neg h1, if_neg (by omega)]

theorem trailingZeros_eq (x : UInt α) :
    trailingZeros x = U128.ctz (2 * BITS α) (nat x) := by
  rw [trailingZeros, isZero_eq, LawfulBigUInt.trailingZeros_eq, LawfulBigUInt.trailingZeros_eq,
    Nat.two_mul, nat, ctz_base _ _ _ _ (toNat_lt _)]
  by_cases h : toNat x.lo = 0
  · rw [h, if_pos rfl, ctz_zero]; simp
  · rw [if_neg h, decide_eq_false h]; simp

theorem nat_overflowingAdd (x y : UInt α) :
    nat (overflowingAdd x y).1 = (nat x + nat y) % 2 ^ (2 * BITS α) := by
  have hxl := toNat_lt x.lo
  have hyl := toNat_lt y.lo
  simp only [overflowingAdd, nat, toNat_carryingAdd, toNat_overflowingAdd, overflowingAdd_snd,
    pow_two_bits]
  rw [← base_mod _ (Nat.mod_lt _ (Nat.two_pow_pos _))]
  have := carry_split hxl hyl
  congr 1
  conv_rhs => rw [show ∀ a b c d e : Nat, a * e + b + (c * e + d) = (a + c) * e + (b + d) by
    intros; ring, this]
  ring

theorem overflowingAdd_snd (x y : UInt α) :
    (overflowingAdd x y).2 = decide (2 ^ (2 * BITS α) ≤ nat x + nat y) := by
  have hxl := toNat_lt x.lo
  have hyl := toNat_lt y.lo
  simp only [overflowingAdd, nat, carryingAdd_snd, LawfulBigUInt.overflowingAdd_snd, pow_two_bits]
  rw [decide_eq_decide]
  have := carry_split hxl hyl
  have hm := Nat.mod_lt (toNat x.lo + toNat y.lo) (Nat.two_pow_pos (BITS α))
  generalize (decide (2 ^ BITS α ≤ toNat x.lo + toNat y.lo)).toNat = c,
    (toNat x.lo + toNat y.lo) % 2 ^ BITS α = r at *
  rw [show ∀ a b c d e : Nat, a * e + b + (c * e + d) = (a + c) * e + (b + d) by
    intros; ring, this, ← Nat.add_assoc, ← Nat.add_mul]
  have hb := @base_lt_iff (toNat x.hi + toNat y.hi + c) _ (2 ^ BITS α) 0 _ hm
      (Nat.two_pow_pos (BITS α))
  omega

theorem wrappingAdd_eq (x y : UInt α) : wrappingAdd x y = (overflowingAdd x y).1 := by
  simp only [wrappingAdd, overflowingAdd]
  congr 1
  apply LawfulBigUInt.toNat_inj
  rw [toNat_incrIf, toNat_carryingAdd, toNat_wrappingAdd, Nat.mod_add_mod]

theorem sub_add_cancel_mod {a b d N : Nat} (hb : b < N) (hd : d < N)
    (h : a = d + b ∨ a + N = d + b) : d = (a + N - b) % N := by
  rcases h with h | h
  · rw [show a + N - b = d + N by omega, Nat.add_mod_right, Nat.mod_eq_of_lt hd]
  · rw [show a + N - b = d by omega, Nat.mod_eq_of_lt hd]

/-- Subtraction with borrow: `x + borrow·N = y + diff`. -/
theorem overflowingSub_spec (x y : UInt α) :
    nat x + (overflowingSub x y).2.toNat * 2 ^ (2 * BITS α) =
      nat y + nat (overflowingSub x y).1 := by
  have hxl := toNat_lt x.lo
  have hyl := toNat_lt y.lo
  have hxh := toNat_lt x.hi
  have hyh := toNat_lt y.hi
  have h1 := one_lt_pow_bits (α := α)
  simp only [overflowingSub, nat, toNat_borrowingSub, borrowingSub_snd,
    toNat_overflowingSub, overflowingSub_snd, pow_two_bits]
  generalize toNat x.lo = xl, toNat y.lo = yl, toNat x.hi = xh, toNat y.hi = yh,
    2 ^ BITS α = B at *
  have key : ∀ c : Nat, c ≤ 1 → ∃ b : Nat, b = (decide (xh < yh + c)).toNat ∧
      xh + b * B = yh + c + (xh + 2 * B - yh - c) % B := by
    intro c hc
    by_cases h : xh < yh + c
    · refine ⟨1, by simp [h], ?_⟩
      rw [show xh + 2 * B - yh - c = (xh + B - yh - c) + B by omega, Nat.add_mod_right,
        Nat.mod_eq_of_lt (by omega)]; omega
    · refine ⟨0, by simp [h], ?_⟩
      rw [show xh + 2 * B - yh - c = (xh - yh - c) + 2 * B by omega, Nat.add_mul_mod_self_right,
        Nat.mod_eq_of_lt (by omega)]; omega
  by_cases h : xl < yl
  · simp only [h, decide_true, Bool.toNat_true]
    obtain ⟨b, hb, e⟩ := key 1 (le_refl _)
    rw [← hb, Nat.mod_eq_of_lt (a := xl + B - yl) (by omega)]
    have : (xh + b * B) * B = (yh + 1 + (xh + 2 * B - yh - 1) % B) * B := by rw [e]
    generalize (xh + 2 * B - yh - 1) % B = d at *
    have e3 : xh * B + b * (B * B) = yh * B + B + d * B := by linarith
    omega
  · simp only [h, decide_false, Bool.toNat_false]
    obtain ⟨b, hb, e⟩ := key 0 (by omega)
    rw [← hb, show xl + B - yl = (xl - yl) + B by omega, Nat.add_mod_right,
      Nat.mod_eq_of_lt (a := xl - yl) (by omega)]
    have : (xh + b * B) * B = (yh + 0 + (xh + 2 * B - yh - 0) % B) * B := by rw [e]
    generalize (xh + 2 * B - yh - 0) % B = d at *
    have e3 : xh * B + b * (B * B) = yh * B + d * B := by linarith
    omega

theorem nat_overflowingSub (x y : UInt α) :
    nat (overflowingSub x y).1 = (nat x + 2 ^ (2 * BITS α) - nat y) % 2 ^ (2 * BITS α) := by
  have h := overflowingSub_spec x y
  have hd := nat_lt (overflowingSub x y).1
  refine sub_add_cancel_mod (nat_lt y) hd ?_
  cases hb : (overflowingSub x y).2 <;> rw [hb] at h
  · left; simp only [Bool.toNat_false] at h; omega
  · right; simp only [Bool.toNat_true] at h; omega

theorem overflowingSub_snd (x y : UInt α) :
    (overflowingSub x y).2 = decide (nat x < nat y) := by
  have h := overflowingSub_spec x y
  have hd := nat_lt (overflowingSub x y).1
  have hy := nat_lt y
  cases hb : (overflowingSub x y).2 <;> rw [hb] at h
  · simp only [Bool.toNat_false] at h
    rw [decide_eq_false (by omega)]
  · simp only [Bool.toNat_true] at h
    rw [decide_eq_true (by omega)]

theorem wrappingSub_eq (x y : UInt α) : wrappingSub x y = (overflowingSub x y).1 := by
  have hxh := toNat_lt x.hi
  have hyh := toNat_lt y.hi
  have h1 := one_lt_pow_bits (α := α)
  simp only [wrappingSub, overflowingSub]
  congr 1
  apply LawfulBigUInt.toNat_inj
  generalize (BigUInt.overflowingSub x.lo y.lo).2 = c
  have hc := bool_toNat_le c
  rw [toNat_decrIf, toNat_borrowingSub, toNat_wrappingSub]
  rw [Nat.add_sub_assoc (by omega), Nat.mod_add_mod]
  congr 1; omega

theorem nat_incr (x : UInt α) : nat (incr x) = (nat x + 1) % 2 ^ (2 * BITS α) := by
  have hxl := toNat_lt x.lo
  have h1 := one_lt_pow_bits (α := α)
  simp only [incr, nat, toNat_incrIf, isZero_eq, toNat_wrappingAdd, toNat_one, pow_two_bits]
  rw [← base_mod _ (Nat.mod_lt _ (Nat.two_pow_pos _))]
  have := carry_split hxl h1
  have e : (decide ((toNat x.lo + 1) % 2 ^ BITS α = 0)) =
      decide (2 ^ BITS α ≤ toNat x.lo + 1) := by
    rw [decide_eq_decide, add_mod_of_lt hxl (by omega)]
    split <;> omega
  rw [e, Nat.add_assoc, this]
  congr 1
  rw [← this]
  conv_rhs => rw [this]
  ring

theorem nat_decr (x : UInt α) :
    nat (decr x) = (nat x + 2 ^ (2 * BITS α) - 1) % 2 ^ (2 * BITS α) := by
  have hxl := toNat_lt x.lo
  have hxh := toNat_lt x.hi
  have h1 := one_lt_pow_bits (α := α)
  have e : decr x = (overflowingSub x one).1 := by
    rw [← wrappingSub_eq]
    simp only [decr, wrappingSub, one, isZero_eq, LawfulBigUInt.overflowingSub_snd, toNat_one]
    congr 1
    · rw [show decide (toNat x.lo < 1) = decide (toNat x.lo = 0) by
        rw [decide_eq_decide]; omega]
      apply LawfulBigUInt.toNat_inj
      rw [toNat_decrIf, toNat_decrIf, toNat_wrappingSub, toNat_zero]
      rw [Nat.sub_zero, Nat.add_mod_right, Nat.mod_eq_of_lt hxh]
    · apply LawfulBigUInt.toNat_inj
      rw [toNat_wrappingSub, toNat_overflowingSub]
  rw [e, nat_overflowingSub]
  simp only [nat, one, toNat_zero, toNat_one, Nat.zero_mul, Nat.zero_add]

theorem wideningMul_spec (x y : UInt α) :
    nat (wideningMul x y).1 + nat (wideningMul x y).2 * 2 ^ (2 * BITS α) = nat x * nat y := by
  have hxl := toNat_lt x.lo
  have hyl := toNat_lt y.lo
  have hxh := toNat_lt x.hi
  have hyh := toNat_lt y.hi
  have h1 := one_lt_pow_bits (α := α)
  -- the intermediate results
  obtain ⟨ll, carry, e0⟩ : ∃ a b, BigUInt.wideningMul x.lo y.lo = (a, b) := ⟨_, _, rfl⟩
  obtain ⟨lh1, hl1, e1⟩ : ∃ a b, carryingMul x.lo y.hi carry = (a, b) := ⟨_, _, rfl⟩
  obtain ⟨lh, c2, e2⟩ : ∃ a b, carryingMul x.hi y.lo lh1 = (a, b) := ⟨_, _, rfl⟩
  obtain ⟨hl2, ov, e3⟩ : ∃ a b, BigUInt.overflowingAdd hl1 c2 = (a, b) := ⟨_, _, rfl⟩
  obtain ⟨hl, hh, e4⟩ : ∃ a b, carryingMul x.hi y.hi hl2 = (a, b) := ⟨_, _, rfl⟩
  have f0 := toNat_wideningMul_fst x.lo y.lo
  have f0' := toNat_wideningMul_snd x.lo y.lo
  have f1 := carryingMul_eq x.lo y.hi carry
  have f2 := carryingMul_eq x.hi y.lo lh1
  have f3 := toNat_overflowingAdd hl1 c2
  have f3' := LawfulBigUInt.overflowingAdd_snd hl1 c2
  have f4 := carryingMul_eq x.hi y.hi hl2
  rw [e0] at f0 f0'; rw [e1] at f1; rw [e2] at f2; rw [e3] at f3 f3'; rw [e4] at f4
  have g0 : toNat ll + toNat carry * 2 ^ BITS α = toNat x.lo * toNat y.lo := by
    rw [f0, f0', Nat.mul_comm (_ / _), Nat.mod_add_div]
  have g3 := carry_split (toNat_lt hl1) (toNat_lt c2)
  rw [← f3, ← f3'] at g3
  simp only at f1 f2 f3 f4 g3
  have h5 := toNat_lt (ll); have h6 := toNat_lt (lh); have h7 := toNat_lt hl
  simp only [wideningMul, e0, e1, e2, e3, e4, nat, toNat_incrIf, pow_two_bits]
  generalize toNat x.lo = xl, toNat y.lo = yl, toNat x.hi = xh, toNat y.hi = yh,
    2 ^ BITS α = B, toNat ll = ll, toNat carry = carry, toNat lh1 = lh1, toNat hl1 = hl1,
    toNat lh = lh, toNat c2 = c2, toNat hl2 = hl2, ov.toNat = ov, toNat hl = hl,
    toNat hh = hh at *
  have tot : ll + lh * B + hl * (B * B) + (hh + ov) * (B * B * B) =
      (xh * B + xl) * (yh * B + yl) := by
    have e : (xh * B + xl) * (yh * B + yl) =
      xl * yl + (xl * yh + xh * yl) * B + xh * yh * (B * B) := by ring
    rw [e]
    zify at *
    linear_combination g0 + B * f1 + B * f2 - B * B * g3 + B * B * f4
  have hlt : hh + ov < B := by
    by_contra hge
    have m := Nat.mul_le_mul_right (B * B * B) (Nat.le_of_not_lt hge)
    have a1 : xh * B + xl < B * B := base_lt hxh hxl
    have a2 : yh * B + yl < B * B := base_lt hyh hyl
    have m2 := Nat.mul_lt_mul'' a1 a2
    have m3 : B * (B * B * B) = B * B * (B * B) := by ring
    omega
  rw [Nat.mod_eq_of_lt hlt, ← tot]
  ring

theorem wideningMul_halves (x y : UInt α) :
    nat (wideningMul x y).1 = nat x * nat y % 2 ^ (2 * BITS α) ∧
    nat (wideningMul x y).2 = nat x * nat y / 2 ^ (2 * BITS α) := by
  have h := wideningMul_spec x y
  have h1 := nat_lt (wideningMul x y).1
  rw [← h, Nat.add_comm]
  exact ⟨(base_mod' h1).symm, (base_div h1).symm⟩

theorem overflowingMul_spec (x y : UInt α) :
    nat (overflowingMul x y).1 = nat x * nat y % 2 ^ (2 * BITS α) ∧
    (overflowingMul x y).2 = decide (2 ^ (2 * BITS α) ≤ nat x * nat y) := by
  have hxl := toNat_lt x.lo
  have hyl := toNat_lt y.lo
  have hxh := toNat_lt x.hi
  have hyh := toNat_lt y.hi
  have h1 := one_lt_pow_bits (α := α)
  obtain ⟨ll, carry, e0⟩ : ∃ a b, BigUInt.wideningMul x.lo y.lo = (a, b) := ⟨_, _, rfl⟩
  obtain ⟨lh1, hl1, e1⟩ : ∃ a b, carryingMul x.lo y.hi carry = (a, b) := ⟨_, _, rfl⟩
  obtain ⟨lh, c2, e2⟩ : ∃ a b, carryingMul x.hi y.lo lh1 = (a, b) := ⟨_, _, rfl⟩
  have f0 := toNat_wideningMul_fst x.lo y.lo
  have f0' := toNat_wideningMul_snd x.lo y.lo
  have f1 := carryingMul_eq x.lo y.hi carry
  have f2 := carryingMul_eq x.hi y.lo lh1
  rw [e0] at f0 f0'; rw [e1] at f1; rw [e2] at f2
  have g0 : toNat ll + toNat carry * 2 ^ BITS α = toNat x.lo * toNat y.lo := by
    rw [f0, f0', Nat.mul_comm (_ / _), Nat.mod_add_div]
  simp only at f1 f2
  have h5 := toNat_lt (ll); have h6 := toNat_lt (lh)
  simp only [overflowingMul, e0, e1, e2, nat, pow_two_bits, isZero_eq]
  generalize toNat x.lo = xl, toNat y.lo = yl, toNat x.hi = xh, toNat y.hi = yh,
    2 ^ BITS α = B, toNat ll = ll, toNat carry = carry, toNat lh1 = lh1, toNat hl1 = hl1,
    toNat lh = lh, toNat c2 = c2 at *
  have tot : (lh * B + ll) + (hl1 + c2 + xh * yh) * (B * B) =
      (xh * B + xl) * (yh * B + yl) := by
    have e : (xh * B + xl) * (yh * B + yl) =
      xl * yl + (xl * yh + xh * yl) * B + xh * yh * (B * B) := by ring
    rw [e]
    zify at *
    linear_combination g0 + B * f1 + B * f2
  have hlt : lh * B + ll < B * B := base_lt h6 h5
  rw [← tot]
  constructor
  · rw [Nat.add_mul_mod_self_right, Nat.mod_eq_of_lt hlt]
  · rw [Bool.eq_iff_iff, decide_eq_true_iff]
    simp only [Bool.not_eq_true', Bool.and_eq_false_iff, Bool.or_eq_false_iff,
      decide_eq_false_iff_not]
    have hz : (hl1 + c2 + xh * yh) = 0 ↔ hl1 = 0 ∧ c2 = 0 ∧ (xh = 0 ∨ yh = 0) := by
      rw [← Nat.mul_eq_zero]; omega
    constructor
    · intro h
      have : 0 < hl1 + c2 + xh * yh := by
        apply Nat.pos_of_ne_zero; rw [Ne, hz]; omega
      have := Nat.mul_le_mul_right (B * B) this
      omega
    · intro h
      by_contra hn
      have : hl1 + c2 + xh * yh = 0 := by rw [hz]; omega
      rw [this] at h
      omega

theorem add_eq (x y : UInt α) : add x y =
    if nat x + nat y < 2 ^ (2 * BITS α) then some (mkNat (nat x + nat y)) else none := by
  rw [add]
  simp only [overflowingAdd_snd, decide_eq_true_eq]
  by_cases h : nat x + nat y < 2 ^ (2 * BITS α)
  · rw [if_neg (by omega), if_pos h]
    congr 1
    apply eq_mkNat
    rw [nat_overflowingAdd, Nat.mod_eq_of_lt h]
  · rw [if_pos (by omega), if_neg h]

theorem sub_eq (x y : UInt α) : sub x y =
    if nat y ≤ nat x then some (mkNat (nat x - nat y)) else none := by
  have hx := nat_lt x
  rw [sub]
  simp only [overflowingSub_snd, decide_eq_true_eq]
  by_cases h : nat y ≤ nat x
  · rw [if_neg (by omega), if_pos h]
    congr 1
    apply eq_mkNat
    rw [nat_overflowingSub, show nat x + 2 ^ (2 * BITS α) - nat y =
      (nat x - nat y) + 2 ^ (2 * BITS α) by omega, Nat.add_mod_right, Nat.mod_eq_of_lt (by omega)]
  · rw [if_pos (by omega), if_neg h]

theorem mul_eq (x y : UInt α) : mul x y =
    if nat x * nat y < 2 ^ (2 * BITS α) then some (mkNat (nat x * nat y)) else none := by
  have hxl := toNat_lt x.lo
  have hyl := toNat_lt y.lo
  have hxh := toNat_lt x.hi
  have hyh := toNat_lt y.hi
  have h1 := one_lt_pow_bits (α := α)
  have epr : nat x * nat y = toNat x.lo * toNat y.lo + (toNat x.lo * toNat y.hi) * 2 ^ BITS α +
      toNat x.hi * toNat y.lo * 2 ^ BITS α +
      toNat x.hi * toNat y.hi * (2 ^ BITS α * 2 ^ BITS α) := by
    rw [nat, nat]; ring
  have f0 := toNat_wideningMul_fst x.lo y.lo
  have f0' := toNat_wideningMul_snd x.lo y.lo
  have g0 : toNat (BigUInt.wideningMul x.lo y.lo).1 +
      toNat (BigUInt.wideningMul x.lo y.lo).2 * 2 ^ BITS α = toNat x.lo * toNat y.lo := by
    rw [f0, f0', Nat.mul_comm (_ / _), Nat.mod_add_div]
  have hl := toNat_lt (BigUInt.wideningMul x.lo y.lo).1
  have hc := toNat_lt (BigUInt.wideningMul x.lo y.lo).2
  simp only [mul, pow_two_bits, LawfulBigUInt.beq_eq, toNat_zero, overflowingMul_snd,
    LawfulBigUInt.overflowingAdd_snd, toNat_overflowingMul, toNat_overflowingAdd,
    Bool.not_eq_true', Bool.or_eq_false_iff, decide_eq_false_iff_not, decide_eq_true_eq]
  generalize hB : 2 ^ BITS α = B at *
  by_cases c0 : ¬toNat x.hi = 0 ∧ ¬toNat y.hi = 0
  · rw [if_pos c0, if_neg]
    have : 1 ≤ toNat x.hi * toNat y.hi :=
      Nat.mul_pos (Nat.pos_of_ne_zero c0.1) (Nat.pos_of_ne_zero c0.2)
    have := Nat.mul_le_mul_right (B * B) this
    omega
  rw [if_neg c0]
  have hz : toNat x.hi * toNat y.hi = 0 := by rw [Nat.mul_eq_zero]; omega
  rw [hz, Nat.zero_mul, Nat.add_zero, ← g0] at epr
  set ll := toNat (BigUInt.wideningMul x.lo y.lo).1
  set cc := toNat (BigUInt.wideningMul x.lo y.lo).2
  set p := toNat x.lo * toNat y.hi with hp
  set q := toNat x.hi * toNat y.lo
  have epr' : nat x * nat y = (cc + p + q) * B + ll := by rw [epr]; ring
  have hiff : nat x * nat y < B * B ↔ cc + p + q < B := by
    have := @base_lt_iff (cc + p + q) ll B 0 B hl (by omega)
    rw [epr']; omega
  by_cases c1 : B ≤ p
  · rw [if_pos c1, if_neg]; omega
  rw [if_neg c1, Nat.mod_eq_of_lt (by omega : p < B)]
  by_cases c2 : B ≤ cc + p
  · rw [if_pos c2, if_neg]; omega
  rw [if_neg c2, Nat.mod_eq_of_lt (by omega : cc + p < B)]
  by_cases c3 : B ≤ q
  · rw [if_pos c3, if_neg]; omega
  rw [if_neg c3, Nat.mod_eq_of_lt (by omega : q < B)]
  by_cases c4 : B ≤ cc + p + q
  · rw [if_pos c4, if_neg]; omega
  rw [if_neg c4, if_pos (by omega)]
  congr 1
  apply eq_mkNat
  rw [epr']
  show toNat _ * 2 ^ BITS α + toNat _ = _
  rw [toNat_overflowingAdd, toNat_overflowingAdd, toNat_overflowingMul, toNat_overflowingMul, hB]
  show (((cc + p % B) % B + q % B) % B) * B + ll = _
  rw [Nat.mod_eq_of_lt (a := p) (by omega), Nat.mod_eq_of_lt (a := q) (by omega),
    Nat.mod_eq_of_lt (a := cc + p) (by omega), Nat.mod_eq_of_lt (by omega)]

theorem and_base (n a b c d : Nat) (hb : b < 2 ^ n) (hd : d < 2 ^ n) :
    (a * 2 ^ n + b) &&& (c * 2 ^ n + d) = (a &&& c) * 2 ^ n + (b &&& d) := by
  have hbd : b &&& d < 2 ^ n := Nat.and_lt_two_pow _ hd
  apply Nat.eq_of_testBit_eq
  intro i
  rw [Nat.testBit_and, Nat.mul_comm a, Nat.mul_comm c, Nat.mul_comm (a &&& c),
    Nat.testBit_two_pow_mul_add _ hb, Nat.testBit_two_pow_mul_add _ hd,
    Nat.testBit_two_pow_mul_add _ hbd]
  split <;> simp [Nat.testBit_and]

theorem or_base (n a b c d : Nat) (hb : b < 2 ^ n) (hd : d < 2 ^ n) :
    (a * 2 ^ n + b) ||| (c * 2 ^ n + d) = (a ||| c) * 2 ^ n + (b ||| d) := by
  have hbd : b ||| d < 2 ^ n := Nat.or_lt_two_pow hb hd
  apply Nat.eq_of_testBit_eq
  intro i
  rw [Nat.testBit_or, Nat.mul_comm a, Nat.mul_comm c, Nat.mul_comm (a ||| c),
    Nat.testBit_two_pow_mul_add _ hb, Nat.testBit_two_pow_mul_add _ hd,
    Nat.testBit_two_pow_mul_add _ hbd]
  split <;> simp [Nat.testBit_or]

theorem nat_and (x y : UInt α) : nat (and x y) = nat x &&& nat y := by
  simp only [and, nat, toNat_and]
  rw [and_base _ _ _ _ _ (toNat_lt _) (toNat_lt _)]

theorem nat_or (x y : UInt α) : nat (or x y) = nat x ||| nat y := by
  simp only [or, nat, toNat_or]
  rw [or_base _ _ _ _ _ (toNat_lt _) (toNat_lt _)]

theorem nat_shl (x : UInt α) (n : Nat) (h : n < 2 * BITS α) :
    nat (shl x n) = nat x * 2 ^ n % 2 ^ (2 * BITS α) := by
  have hxl := toNat_lt x.lo
  have hxh := toNat_lt x.hi
  rw [pow_two_bits, shl]
  split
  · rename_i hn
    obtain ⟨w1, w2⟩ := toNat_wideningShl x.lo n hn.2
    simp only [nat, carryingShl, w1, w2, toNat_or, toNat_shl x.hi n hn.2]
    have hsplit : 2 ^ BITS α = 2 ^ (BITS α - n) * 2 ^ n := by
      rw [← Nat.pow_add]; congr 1; omega
    have hc : toNat x.lo * 2 ^ n / 2 ^ BITS α < 2 ^ n := by
      rw [Nat.div_lt_iff_lt_mul (Nat.two_pow_pos _), Nat.mul_comm]
      exact Nat.mul_lt_mul_of_pos_left hxl (Nat.two_pow_pos _)
    have e1 : toNat x.hi * 2 ^ n % 2 ^ BITS α ||| toNat x.lo * 2 ^ n / 2 ^ BITS α =
        (toNat x.hi * 2 ^ n + toNat x.lo * 2 ^ n / 2 ^ BITS α) % 2 ^ BITS α := by
      generalize toNat x.lo * 2 ^ n / 2 ^ BITS α = c at hc ⊢
      rw [hsplit, base_mod _ hc, Nat.mul_mod_mul_right, Nat.mul_comm _ (2 ^ n),
        ← Nat.two_pow_add_eq_or_of_lt hc]
    rw [e1, ← base_mod _ (Nat.mod_lt _ (Nat.two_pow_pos _))]
    congr 1
    have := Nat.div_add_mod (toNat x.lo * 2 ^ n) (2 ^ BITS α)
    calc _ = toNat x.hi * 2 ^ n * 2 ^ BITS α + (2 ^ BITS α * (toNat x.lo * 2 ^ n / 2 ^ BITS α) +
          toNat x.lo * 2 ^ n % 2 ^ BITS α) := by ring
      _ = _ := by rw [this]; ring
  · rename_i hn
    split
    · rename_i hb
      subst hb
      simp only [nat, toNat_zero, Nat.add_zero]
      rw [Nat.mul_mod_mul_right, base_mod' hxl]
    · split
      · rename_i hb hb2
        simp only [nat, toNat_zero, Nat.add_zero, toNat_shl x.lo (n - BITS α) (by omega)]
        have hsplit : 2 ^ n = 2 ^ (n - BITS α) * 2 ^ BITS α := by
          rw [← Nat.pow_add]; congr 1; omega
        rw [hsplit, ← Nat.mul_assoc, Nat.mul_mod_mul_right]
        congr 1
        rw [Nat.add_mul, show toNat x.hi * 2 ^ BITS α * 2 ^ (n - BITS α) =
          2 ^ BITS α * (toNat x.hi * 2 ^ (n - BITS α)) by ring, Nat.mul_add_mod]
      · have : n = 0 := by omega
        subst this
        rw [Nat.pow_zero, Nat.mul_one, ← pow_two_bits, Nat.mod_eq_of_lt (nat_lt x)]

theorem nat_shr (x : UInt α) (n : Nat) (h : n < 2 * BITS α) :
    nat (shr x n) = nat x / 2 ^ n := by
  have hxl := toNat_lt x.lo
  have hxh := toNat_lt x.hi
  rw [shr]
  split
  · rename_i hn
    obtain ⟨n, rfl⟩ : ∃ m, n = m + 1 := ⟨n - 1, by omega⟩
    simp only [nat, carryingShr, BigUInt.wideningShr, toNat_or,
      toNat_shr x.hi _ hn.2, toNat_shr x.lo _ hn.2, toNat_shl x.hi (BITS α - (n + 1)) (by omega)]
    generalize n + 1 = n at *
    have hsplit : 2 ^ BITS α = 2 ^ n * 2 ^ (BITS α - n) := by
      rw [← Nat.pow_add]; congr 1; omega
    have hc : toNat x.lo / 2 ^ n < 2 ^ (BITS α - n) := by
      rw [Nat.div_lt_iff_lt_mul (Nat.two_pow_pos _), Nat.mul_comm, ← hsplit]; exact hxl
    have e1 : toNat x.hi * 2 ^ (BITS α - n) % 2 ^ BITS α ||| toNat x.lo / 2 ^ n =
        toNat x.hi % 2 ^ n * 2 ^ (BITS α - n) + toNat x.lo / 2 ^ n := by
      rw [hsplit, Nat.mul_mod_mul_right, Nat.mul_comm _ (2 ^ (BITS α - n)),
        ← Nat.two_pow_add_eq_or_of_lt hc]
    rw [e1]
    have e2 := Nat.div_add_mod (toNat x.hi) (2 ^ n)
    have e3 : toNat x.hi * 2 ^ BITS α + toNat x.lo = 2 ^ n * (toNat x.hi / 2 ^ n * 2 ^ BITS α +
        toNat x.hi % 2 ^ n * 2 ^ (BITS α - n)) + toNat x.lo := by
      conv_lhs => rw [← e2]
      rw [Nat.add_mul, Nat.mul_add]
      conv_lhs => rw [Nat.mul_comm (toNat x.hi % 2 ^ n), hsplit]
      rw [hsplit]
      ring
    rw [e3, Nat.mul_add_div (Nat.two_pow_pos _)]
    omega
  · rename_i hn
    split
    · rename_i hb
      subst hb
      simp only [nat, toNat_zero, Nat.zero_mul, Nat.zero_add]
      rw [base_div hxl]
    · split
      · rename_i hb hb2
        simp only [nat, toNat_zero, Nat.zero_mul, Nat.zero_add,
          toNat_shr x.hi (n - BITS α) (by omega)]
        have hsplit : 2 ^ n = 2 ^ BITS α * 2 ^ (n - BITS α) := by
          rw [← Nat.pow_add]; congr 1; omega
        rw [hsplit, ← Nat.div_div_eq_div_mul, base_div hxl]
      · have : n = 0 := by omega
        subst this
        rw [Nat.pow_zero, Nat.div_one]

theorem nat_zero : nat (zero : UInt α) = 0 := by simp [nat, zero, toNat_zero]

theorem nat_roundingDivPow2 (x : UInt α) (n : Nat) (h : n < 2 * BITS α) :
    nat (roundingDivPow2 x n) = Spec.rne (nat x) (2 ^ n) := by
  have hb := bits_ge (α := α)
  have hx := nat_lt x
  have htie : nat (⟨BigUInt.shl ONE (BITS α - 1), ZERO⟩ : UInt α) = 2 ^ (2 * BITS α - 1) := by
    simp only [nat, toNat_shl (ONE : α) (BITS α - 1) (by omega), toNat_one, toNat_zero]
    rw [Nat.one_mul, Nat.mod_eq_of_lt (Nat.pow_lt_pow_right (by norm_num) (by omega)),
      ← Nat.pow_add, Nat.add_zero]
    congr 1; omega
  rw [roundingDivPow2]
  simp only [cmp_eq, beq_eq, htie, LawfulBigUInt.isOdd_eq, ← nat_mod_two]
  simp only [Bool.or_eq_true, Bool.and_eq_true, decide_eq_true_eq, beq_iff_eq, Nat.compare_eq_gt]
  rcases n with _ | n
  · simp only [wideningShr, nat_zero]
    have : 0 < 2 ^ (2 * BITS α - 1) := Nat.two_pow_pos _
    rw [if_neg (by omega), Spec.rne, Nat.pow_zero, Nat.mod_one, Nat.div_one, if_neg (by omega)]
  · simp only [wideningShr]
    have e1 : nat (shl x (2 * BITS α - (n + 1))) =
        nat x % 2 ^ (n + 1) * 2 ^ (2 * BITS α - (n + 1)) := by
      rw [nat_shl _ _ (by omega)]
      have : 2 ^ (2 * BITS α) = 2 ^ (n + 1) * 2 ^ (2 * BITS α - (n + 1)) := by
        rw [← Nat.pow_add]; congr 1; omega
      rw [this, Nat.mul_mod_mul_right]
    have e2 : nat (shr x (n + 1)) = nat x / 2 ^ (n + 1) := nat_shr _ _ h
    have e3 : 2 ^ (2 * BITS α - 1) = 2 ^ n * 2 ^ (2 * BITS α - (n + 1)) := by
      rw [← Nat.pow_add]; congr 1; omega
    have hp : 0 < 2 ^ (2 * BITS α - (n + 1)) := Nat.two_pow_pos _
    simp only [e1, e2, e3, Nat.mul_lt_mul_right hp, Nat.mul_left_inj hp.ne', Spec.rne]
    have e5 : (2 ^ n < nat x % 2 ^ (n + 1) ∨
          nat x % 2 ^ (n + 1) = 2 ^ n ∧ nat x / 2 ^ (n + 1) % 2 = 1) ↔
        (2 ^ (n + 1) < 2 * (nat x % 2 ^ (n + 1)) ∨
          2 * (nat x % 2 ^ (n + 1)) = 2 ^ (n + 1) ∧ nat x / 2 ^ (n + 1) % 2 = 1) := by
      rw [Nat.pow_succ]; omega
    have hq : nat x / 2 ^ (n + 1) + 1 < 2 ^ (2 * BITS α) := by
      have : nat x / 2 ^ (n + 1) ≤ nat x / 2 ^ 1 :=
        Nat.div_le_div_left (Nat.pow_le_pow_right (by norm_num) (by omega)) (by norm_num)
      have : 2 ^ 2 ≤ 2 ^ (2 * BITS α) := Nat.pow_le_pow_right (by norm_num) (by omega)
      omega
    by_cases hc : (2 ^ (n + 1) < 2 * (nat x % 2 ^ (n + 1)) ∨
          2 * (nat x % 2 ^ (n + 1)) = 2 ^ (n + 1) ∧ nat x / 2 ^ (n + 1) % 2 = 1)
    · rw [if_pos (e5.2 hc), if_pos hc, nat_incr, e2, Nat.mod_eq_of_lt hq]
    · rw [if_neg (fun h => hc (e5.1 h)), if_neg hc, e2]

instance : LawfulBigUInt (UInt α) where
  toNat := nat
  ofNat := mkNat
  bits_even := by show 2 * BITS α = 2 * (2 * BITS α / 2); omega
  bits_ge := by have := bits_ge (α := α); show 128 ≤ 2 * BITS α; omega
  toNat_lt := nat_lt
  toNat_ofNat := nat_mkNat
  ofNat_toNat := mkNat_nat
  toNat_zero := nat_zero
  toNat_one := by
    show toNat ZERO * _ + toNat ONE = 1
    rw [toNat_zero, toNat_one, Nat.zero_mul]
  toNat_two := by
    show toNat ZERO * _ + toNat TWO = 2
    rw [toNat_zero, toNat_two, Nat.zero_mul]
  toNat_max := by
    show toNat MAX * _ + toNat MAX = 2 ^ (2 * BITS α) - 1
    rw [toNat_max, pow_two_bits, Nat.sub_mul]
    have := Nat.mul_le_mul_right (2 ^ BITS α) (one_lt_pow_bits (α := α)).le
    have := one_lt_pow_bits (α := α)
    omega
  beq_eq := beq_eq
  cmp_eq := cmp_eq
  isEven_eq x := by rw [nat_mod_two]; exact isEven_eq x.lo
  isOdd_eq x := by rw [nat_mod_two]; exact isOdd_eq x.lo
  leadingZeros_eq := leadingZeros_eq
  trailingZeros_eq := trailingZeros_eq
  toNat_incr := nat_incr
  toNat_decr := nat_decr
  toNat_overflowingAdd := nat_overflowingAdd
  overflowingAdd_snd := overflowingAdd_snd
  toNat_wrappingAdd x y := by
    show nat (wrappingAdd x y) = _
    rw [wrappingAdd_eq]; exact nat_overflowingAdd x y
  toNat_overflowingSub := nat_overflowingSub
  overflowingSub_snd := overflowingSub_snd
  toNat_wrappingSub x y := by
    show nat (wrappingSub x y) = _
    rw [wrappingSub_eq]; exact nat_overflowingSub x y
  toNat_overflowingMul x y := (overflowingMul_spec x y).1
  overflowingMul_snd x y := (overflowingMul_spec x y).2
  toNat_wideningMul_fst x y := (wideningMul_halves x y).1
  toNat_wideningMul_snd x y := (wideningMul_halves x y).2
  add_eq := add_eq
  sub_eq := sub_eq
  mul_eq := mul_eq
  toNat_and := nat_and
  toNat_or := nat_or
  toNat_shl := nat_shl
  toNat_shr := nat_shr
  toNat_roundingDivPow2 := nat_roundingDivPow2
  toNat_ofU128 v := by
    show toNat (ZERO : α) * _ + toNat (ofU128 v : α) = _
    rw [toNat_zero, toNat_ofU128, Nat.zero_mul, Nat.zero_add]
  toNat_hiHalf x := by
    show toNat (ZERO : α) * _ + toNat x.hi = nat x / 2 ^ (2 * BITS α / 2)
    rw [toNat_zero, Nat.zero_mul, Nat.zero_add, Nat.mul_div_cancel_left _ (by norm_num), nat,
      base_div (toNat_lt _)]
  toNat_loHalf x := by
    show toNat (ZERO : α) * _ + toNat x.lo = nat x % 2 ^ (2 * BITS α / 2)
    rw [toNat_zero, Nat.zero_mul, Nat.zero_add, Nat.mul_div_cancel_left _ (by norm_num), nat,
      base_mod' (toNat_lt _)]
  toNat_joinLo x y := by
    show toNat x.lo * _ + toNat y.lo = nat x % 2 ^ (2 * BITS α / 2) * 2 ^ (2 * BITS α / 2) +
      nat y % 2 ^ (2 * BITS α / 2)
    rw [Nat.mul_div_cancel_left _ (by norm_num), nat, nat, base_mod' (toNat_lt _),
      base_mod' (toNat_lt _)]

end UInt
end Verif
