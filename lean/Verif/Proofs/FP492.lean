import Verif.Model.FP492
import Verif.Proofs.Scale
import Verif.Proofs.Sticky
import Verif.Proofs.Exact
import Verif.Proofs.Chunk

/-!
# The fixed point numbers as integers

`sval x` is the two's complement value of an `FP492` in units of `2^-492`.
-/

namespace Verif

open BigUInt LawfulBigUInt Spec

set_option exponentiation.threshold 1100

namespace FP492

/-- Two's complement value. -/
def sval (x : FP492) : ℤ := if UInt.nat x < 2 ^ 511 then UInt.nat x else (UInt.nat x : ℤ) - 2 ^ 512

theorem nat_lt (x : FP492) : UInt.nat x < 2 ^ 512 := by
  have h1 := nat256_lt x.hi
  have h2 := nat256_lt x.lo
  have h3 : UInt.nat x = nat256 x.hi * 2 ^ 256 + nat256 x.lo := rfl
  omega

theorem nat_limbs (x : FP492) : UInt.nat x =
    ((x.hi.hi.toNat * 2 ^ 128 + x.hi.lo.toNat) * 2 ^ 128 + x.lo.hi.toNat) * 2 ^ 128 + x.lo.lo.toNat := by
  have h3 : UInt.nat x = nat256 x.hi * 2 ^ 256 + nat256 x.lo := rfl
  rw [h3]
  unfold nat256
  generalize x.hi.hi.toNat = a, x.hi.lo.toNat = b, x.lo.hi.toNat = c, x.lo.lo.toNat = d
  omega

theorem nat_inj {x y : FP492} (h : UInt.nat x = UInt.nat y) : x = y := by
  have h1 := nat256_lt x.lo
  have h2 := nat256_lt y.lo
  have hx : UInt.nat x = nat256 x.hi * 2 ^ 256 + nat256 x.lo := rfl
  have hy : UInt.nat y = nat256 y.hi * 2 ^ 256 + nat256 y.lo := rfl
  have e1 : x.hi = y.hi := nat256_inj (by omega)
  have e2 : x.lo = y.lo := nat256_inj (by omega)
  cases x; cases y; simp_all

theorem sval_range (x : FP492) : -2 ^ 511 ≤ sval x ∧ sval x < 2 ^ 511 := by
  have := nat_lt x
  unfold sval; split <;> constructor <;> omega

theorem sval_of_lt {x : FP492} (h : UInt.nat x < 2 ^ 511) : sval x = UInt.nat x := if_pos h

/-- `sval` is determined by being in range and congruent modulo `2^512`. -/
theorem sval_eq {x : FP492} {z : ℤ} (h1 : -2 ^ 511 ≤ z) (h2 : z < 2 ^ 511)
    (h : (UInt.nat x : ℤ) % 2 ^ 512 = z % 2 ^ 512) : sval x = z := by
  have := nat_lt x
  unfold sval; split <;> omega

theorem sval_mod (x : FP492) : (UInt.nat x : ℤ) % 2 ^ 512 = sval x % 2 ^ 512 := by
  unfold sval; split <;> omega

theorem toNat_xor_ones (a : BitVec 128) : (a ^^^ BitVec.allOnes 128).toNat = 2 ^ 128 - 1 - a.toNat := by
  rw [BitVec.xor_allOnes, BitVec.toNat_not]

theorem nat_invert (x : FP492) : UInt.nat (invert x) = 2 ^ 512 - 1 - UInt.nat x := by
  have h1 := x.hi.hi.isLt
  have h2 := x.hi.lo.isLt
  have h3 := x.lo.hi.isLt
  have h4 := x.lo.lo.isLt
  rw [nat_limbs, nat_limbs]
  unfold invert
  dsimp only
  simp only [toNat_xor_ones]
  omega

theorem nat_ineg (x : FP492) : UInt.nat (ineg x) = (2 ^ 512 - UInt.nat x) % 2 ^ 512 := by
  have h := nat_lt x
  have hd : UInt.nat (UInt.decr x) = (UInt.nat x + 2 ^ 512 - 1) % 2 ^ 512 := UInt.nat_decr x
  unfold ineg
  rw [nat_invert, hd]
  omega

theorem sval_ineg {x : FP492} (h : sval x ≠ -2 ^ 511) : sval (ineg x) = -sval x := by
  have h1 := sval_range x
  have h2 := sval_mod x
  have h3 := nat_lt x
  apply sval_eq (by omega) (by omega)
  rw [nat_ineg]
  omega

theorem isSignNegative_eq (x : FP492) : isSignNegative x = decide (sval x < 0) := by
  have hl := LawfulBigUInt.leadingZeros_eq (α := U128) x.hi.hi
  have hb : LawfulBigUInt.toNat x.hi.hi = x.hi.hi.toNat := rfl
  have hB : BITS U128 = 128 := rfl
  rw [hb, hB] at hl
  have h1 := x.hi.hi.isLt
  have h2 := x.hi.lo.isLt
  have h3 := x.lo.hi.isLt
  have h4 := x.lo.lo.isLt
  have hn := nat_limbs x
  unfold isSignNegative
  rw [decide_eq_decide, hl]
  by_cases h0 : x.hi.hi.toNat = 0
  · rw [if_pos h0]
    unfold sval; split <;> omega
  · rw [if_neg h0]
    have ha := Nat.log2_self_le h0
    have hc : x.hi.hi.toNat < 2 ^ (x.hi.hi.toNat.log2 + 1) := Nat.lt_log2_self
    have hd : x.hi.hi.toNat.log2 < 128 := (Nat.log2_lt h0).2 h1
    by_cases h7 : x.hi.hi.toNat.log2 = 127
    · rw [h7] at ha hc
      rw [h7]
      have : ¬ UInt.nat x < 2 ^ 511 := by omega
      unfold sval; rw [if_neg this]; omega
    · have : 2 ^ (x.hi.hi.toNat.log2 + 1) ≤ 2 ^ 127 := Nat.pow_le_pow_right (by norm_num) (by omega)
      have : UInt.nat x < 2 ^ 511 := by omega
      unfold sval; rw [if_pos this]; omega

theorem nat_iabs (x : FP492) : UInt.nat (iabs x) = (sval x).natAbs := by
  have h1 := sval_range x
  have h3 := nat_lt x
  have h2 := sval_mod x
  unfold iabs
  rw [isSignNegative_eq]
  by_cases h : sval x < 0
  · rw [decide_eq_true h, if_pos rfl, nat_ineg]
    omega
  · rw [decide_eq_false h, if_neg (by simp)]
    omega

theorem leadingZeros_nat {x : FP492} (h : UInt.nat x ≠ 0) :
    UInt.leadingZeros x = 511 - (UInt.nat x).log2 := by
  have := UInt.leadingZeros_eq x
  rw [if_neg h] at this
  exact this

theorem log2_lt {x : FP492} (h : UInt.nat x ≠ 0) : (UInt.nat x).log2 < 512 :=
  (Nat.log2_lt h).2 (nat_lt x)

theorem signum_eq (x : FP492) : signum x = (sval x).sign := by
  by_cases h0 : UInt.nat x = 0
  · have hl := UInt.leadingZeros_eq x
    rw [if_pos h0] at hl
    have hl' : UInt.leadingZeros x = 512 := hl
    have : sval x = 0 := by unfold sval; rw [h0]; rfl
    unfold signum
    rw [hl', this]; rfl
  · have hl := leadingZeros_nat h0
    have hb := log2_lt h0
    have hlo := Nat.log2_self_le h0
    have hhi : UInt.nat x < 2 ^ ((UInt.nat x).log2 + 1) := Nat.lt_log2_self
    have hx := nat_lt x
    unfold signum
    dsimp only
    rw [hl]
    by_cases h7 : (UInt.nat x).log2 = 511
    · rw [h7] at hlo
      rw [if_pos (by omega)]
      unfold sval
      rw [if_neg (by omega), Int.sign_eq_neg_one_of_neg (by omega)]
    · have : 2 ^ ((UInt.nat x).log2 + 1) ≤ 2 ^ 511 := Nat.pow_le_pow_right (by norm_num) (by omega)
      rw [if_neg (by omega), if_neg (by omega)]
      unfold sval
      rw [if_pos (by omega), Int.sign_eq_one_of_pos (by omega)]

theorem nat_add (x y : FP492) : UInt.nat (add x y) = (UInt.nat x + UInt.nat y) % 2 ^ 512 := by
  have h : add x y = (UInt.overflowingAdd x y).1 := rfl
  rw [h]
  exact UInt.nat_overflowingAdd x y

theorem sval_add {x y : FP492} (h1 : -2 ^ 511 ≤ sval x + sval y) (h2 : sval x + sval y < 2 ^ 511) :
    sval (add x y) = sval x + sval y := by
  apply sval_eq h1 h2
  rw [nat_add, Int.natCast_mod, Nat.cast_add, Nat.cast_pow, Nat.cast_ofNat, Int.emod_emod, Int.add_emod, sval_mod,
    sval_mod, ← Int.add_emod]

theorem xor_top (a : BitVec 128) : (a ^^^ (1#128 <<< 127)).toNat =
    if a.toNat < 2 ^ 127 then a.toNat + 2 ^ 127 else a.toNat - 2 ^ 127 := by
  have ha := a.isLt
  rw [BitVec.toNat_xor, show (1#128 <<< 127).toNat = 0 + 2 ^ 127 * 1 by decide]
  split
  · rename_i h
    have := xor_split (k := 127) (a := a.toNat) (m := 0) 0 1 h (by norm_num)
    rw [Nat.mul_zero, Nat.add_zero, Nat.xor_zero] at this
    rw [this, show 0 ^^^ 1 = 1 by decide, Nat.mul_one]
  · have := xor_split (k := 127) (a := a.toNat - 2 ^ 127) (m := 0) 1 1 (by omega) (by norm_num)
    rw [show a.toNat - 2 ^ 127 + 2 ^ 127 * 1 = a.toNat by omega, Nat.xor_zero] at this
    rw [this, show 1 ^^^ 1 = 0 by decide, Nat.mul_zero, Nat.add_zero]

theorem cmp_eq (x y : FP492) : cmp x y = compare (sval x) (sval y) := by
  have key : ∀ z : FP492, (UInt.nat (⟨⟨z.hi.hi ^^^ (1#128 <<< 127), z.hi.lo⟩, z.lo⟩ : FP492) : ℤ) = sval z + 2 ^ 511 := by
    intro z
    have h1 := z.hi.hi.isLt
    have h2 := z.hi.lo.isLt
    have h3 := z.lo.hi.isLt
    have h4 := z.lo.lo.isLt
    have hn := nat_limbs z
    rw [nat_limbs]
    dsimp only
    rw [xor_top]
    unfold sval
    split <;> split <;> omega
  have h := UInt.cmp_eq (⟨⟨x.hi.hi ^^^ (1#128 <<< 127), x.hi.lo⟩, x.lo⟩ : FP492)
    (⟨⟨y.hi.hi ^^^ (1#128 <<< 127), y.hi.lo⟩, y.lo⟩ : FP492)
  have hx := key x
  have hy := key y
  unfold cmp
  dsimp only
  rw [h]
  generalize UInt.nat (⟨⟨x.hi.hi ^^^ (1#128 <<< 127), x.hi.lo⟩, x.lo⟩ : FP492) = a at *
  generalize UInt.nat (⟨⟨y.hi.hi ^^^ (1#128 <<< 127), y.hi.lo⟩, y.lo⟩ : FP492) = b at *
  clear h key
  generalize sval x = u, sval y = v at *
  rcases lt_trichotomy u v with h | h | h
  · rw [compare_lt_iff_lt.mpr h, compare_lt_iff_lt.mpr (by omega)]
  · rw [compare_eq_iff_eq.mpr h, compare_eq_iff_eq.mpr (by omega)]
  · rw [compare_gt_iff_gt.mpr h, compare_gt_iff_gt.mpr (by omega)]

theorem cmp_lt {x y : FP492} (h : sval x < sval y) : cmp x y = .lt := by
  rw [cmp_eq]
  generalize sval x = u, sval y = v at *
  exact compare_lt_iff_lt.mpr h

theorem cmp_gt {x y : FP492} (h : sval y < sval x) : cmp x y = .gt := by
  rw [cmp_eq]
  generalize sval x = u, sval y = v at *
  exact compare_gt_iff_gt.mpr h

theorem cmp_same {x y : FP492} (h : sval x = sval y) : cmp x y = .eq := by
  rw [cmp_eq]
  generalize sval x = u, sval y = v at *
  exact compare_eq_iff_eq.mpr h

/-- The product of the magnitudes, before the sign is applied. -/
theorem mul_core {x y : FP492} {up : Bool} (h : UInt.nat x * UInt.nat y < 2 ^ 1002 + 2 ^ 1001) :
    let lo := (UInt.wideningMul x y).1
    let hi := UInt.shl (UInt.wideningMul x y).2 20
    let carry : BitVec 128 := (lo.hi.hi >>> 108) + boolU128 up
    UInt.nat (⟨BigUInt.incrIf hi.hi (UInt.overflowingAdd hi.lo (⟨0#128, carry⟩ : U256)).2,
      (UInt.overflowingAdd hi.lo (⟨0#128, carry⟩ : U256)).1⟩ : FP492) =
      UInt.nat x * UInt.nat y / 2 ^ 492 + up.toNat := by
  have hw : UInt.nat (UInt.wideningMul x y).1 + UInt.nat (UInt.wideningMul x y).2 * 2 ^ 512 =
    UInt.nat x * UInt.nat y := UInt.wideningMul_spec x y
  obtain ⟨lo, hlo⟩ : ∃ lo, (UInt.wideningMul x y).1 = lo := ⟨_, rfl⟩
  obtain ⟨hi, hhi⟩ : ∃ hi, (UInt.wideningMul x y).2 = hi := ⟨_, rfl⟩
  rw [hlo, hhi] at hw
  rw [hlo, hhi]
  have hl := nat_lt lo
  have hs : UInt.nat (UInt.shl hi 20) = UInt.nat hi * 2 ^ 20 % 2 ^ 512 := UInt.nat_shl hi 20 (by show 20 < 512; norm_num)
  obtain ⟨s, hs'⟩ : ∃ s, UInt.shl hi 20 = s := ⟨_, rfl⟩
  rw [hs'] at hs
  intro lo' hi' carry
  have hc : carry.toNat = lo.hi.hi.toNat / 2 ^ 108 + up.toNat := by
    have h1 := lo.hi.hi.isLt
    have h2 := bool_toNat_le up
    show ((lo.hi.hi >>> 108) + boolU128 up).toNat = _
    rw [BitVec.toNat_add, toNat_bool, BitVec.toNat_ushiftRight, Nat.shiftRight_eq_div_pow]
    omega
  obtain ⟨c, hc'⟩ : ∃ c, carry = c := ⟨_, rfl⟩
  rw [hc'] at hc ⊢
  have hi'' : hi' = s := hs'
  rw [hi'']
  have o1 : nat256 (UInt.overflowingAdd s.lo (⟨0#128, c⟩ : U256)).1 = (nat256 s.lo + nat256 (⟨0#128, c⟩ : U256)) % 2 ^ 256 :=
    UInt.nat_overflowingAdd s.lo (⟨0#128, c⟩ : U256)
  have o2 : (UInt.overflowingAdd s.lo (⟨0#128, c⟩ : U256)).2 = decide (2 ^ 256 ≤ nat256 s.lo + nat256 (⟨0#128, c⟩ : U256)) :=
    UInt.overflowingAdd_snd s.lo (⟨0#128, c⟩ : U256)
  have o3 := nat_incrIf256 s.hi (UInt.overflowingAdd s.lo (⟨0#128, c⟩ : U256)).2
  have hcn : nat256 (⟨0#128, c⟩ : U256) = c.toNat := by
    rw [nat256_mk]; simp
  rw [hcn] at o1 o2
  rw [o2] at o3
  have hmk : ∀ a b : U256, UInt.nat (⟨a, b⟩ : FP492) = nat256 a * 2 ^ 256 + nat256 b := fun _ _ => rfl
  rw [hmk, o1, o2, o3]
  have hsn : UInt.nat s = nat256 s.hi * 2 ^ 256 + nat256 s.lo := rfl
  have hsl := nat256_lt s.lo
  have hsh := nat256_lt s.hi
  have hln := nat_limbs lo
  have l1 := lo.hi.hi.isLt
  have l2 := lo.hi.lo.isLt
  have l3 := lo.lo.hi.isLt
  have l4 := lo.lo.lo.isLt
  have hup := bool_toNat_le up
  rw [← hw] at h ⊢
  generalize up.toNat = u at *
  generalize UInt.nat hi = H at *
  generalize UInt.nat lo = Lo at *
  generalize nat256 s.hi = sh at *
  generalize nat256 s.lo = sl at *
  generalize UInt.nat s = sn at *
  generalize lo.hi.hi.toNat = a at *
  generalize lo.hi.lo.toNat = b at *
  generalize lo.lo.hi.toNat = d at *
  generalize lo.lo.lo.toNat = e at *
  generalize c.toNat = cc at *
  clear o1 o2 o3 hcn hmk hi'' hc' hs' hlo hhi
  have hH : H < 2 ^ 490 + 2 ^ 489 := by omega
  have q1 : (Lo + H * 2 ^ 512) / 2 ^ 492 = H * 2 ^ 20 + a / 2 ^ 108 := by omega
  rw [q1]
  rw [Nat.mod_eq_of_lt (by omega)] at hs
  have hcc : cc ≤ 2 ^ 20 := by omega
  by_cases hov : 2 ^ 256 ≤ sl + cc
  · rw [decide_eq_true hov]
    simp only [Bool.toNat_true]
    omega
  · rw [decide_eq_false hov]
    simp only [Bool.toNat_false]
    omega

theorem limbs_zero {a b c d : ℕ} (hb : b < 2 ^ 128) (hc : c < 2 ^ 128) (hd : d < 2 ^ 128)
    (h : (((a * 2 ^ 128 + b) * 2 ^ 128 + c) * 2 ^ 128 + d) % 2 ^ 492 = 0) :
    a % 2 ^ 108 = 0 ∧ b = 0 ∧ c = 0 ∧ d = 0 := by
  refine ⟨?_, ?_, ?_, ?_⟩ <;> omega

theorem roundUp_false {lo : U512} (h : UInt.nat lo % 2 ^ 492 = 0) : roundUp lo = false := by
  rw [nat_limbs] at h
  obtain ⟨e1, e2, e3, e4⟩ := limbs_zero lo.hi.lo.isLt lo.lo.hi.isLt lo.lo.lo.isLt h
  have f1 : lo.hi.hi <<< 20 = 0#128 := by
    apply BitVec.eq_of_toNat_eq
    obtain ⟨k, hk⟩ := Nat.dvd_of_mod_eq_zero e1
    rw [BitVec.toNat_shiftLeft, Nat.shiftLeft_eq, hk, show 2 ^ 108 * k * 2 ^ 20 = 2 ^ 128 * k by ring,
      Nat.mul_mod_right]
    rfl
  have f2 : lo.hi.lo = 0#128 := BitVec.eq_of_toNat_eq (by rw [e2]; rfl)
  have f3 : BigUInt.isZero lo.lo = true := by
    have := LawfulBigUInt.isZero_eq (α := U256) lo.lo
    rw [this]
    apply decide_eq_true
    show lo.lo.hi.toNat * 2 ^ 128 + lo.lo.lo.toNat = 0
    rw [e3, e4, Nat.zero_mul]
  unfold roundUp
  rw [f1, f2, f3]
  rfl

theorem nat_mulMag {x y : FP492} (h : UInt.nat x * UInt.nat y < 2 ^ 1002 + 2 ^ 1001) :
    ∃ up : Bool, UInt.nat (mulMag x y) = UInt.nat x * UInt.nat y / 2 ^ 492 + up.toNat ∧
      (UInt.nat x * UInt.nat y % 2 ^ 492 = 0 → up = false) := by
  refine ⟨_, mul_core (up := roundUp (UInt.wideningMul x y).1) h, fun h0 => ?_⟩
  have hw : UInt.nat (UInt.wideningMul x y).1 + UInt.nat (UInt.wideningMul x y).2 * 2 ^ 512 =
    UInt.nat x * UInt.nat y := UInt.wideningMul_spec x y
  rw [← hw] at h0
  apply roundUp_false
  generalize UInt.nat (UInt.wideningMul x y).1 = u, UInt.nat (UInt.wideningMul x y).2 = v at h0
  rw [show v * 2 ^ 512 = 2 ^ 492 * (v * 2 ^ 20) by ring, Nat.add_mul_mod_self_left] at h0
  exact h0

theorem sign_cases (a : ℤ) : a.sign = -1 ∨ a.sign = 0 ∨ a.sign = 1 := by
  rcases lt_trichotomy a 0 with h | h | h
  · exact Or.inl (Int.sign_eq_neg_one_of_neg h)
  · rw [h]; simp
  · exact Or.inr (Or.inr (Int.sign_eq_one_of_pos h))

theorem sval_signed {a b : ℤ} {z : FP492} {R : ℕ} (hz : UInt.nat z = R) (hR : R < 2 ^ 511)
    (h0 : a.sign * b.sign = 0 → R = 0) :
    sval (if a.sign * b.sign < 0 then ineg z else z) = a.sign * b.sign * R := by
  have hzv : sval z = R := by rw [sval_of_lt (hz ▸ hR), hz]
  have hne : sval z ≠ -2 ^ 511 := by rw [hzv]; omega
  have hs : a.sign * b.sign = -1 ∨ a.sign * b.sign = 0 ∨ a.sign * b.sign = 1 := by
    rcases sign_cases a with h | h | h <;> rcases sign_cases b with h' | h' | h' <;> rw [h, h'] <;> decide
  rcases hs with hs | hs | hs
  · rw [hs, if_pos (by norm_num), sval_ineg hne, hzv]; ring
  · rw [h0 hs] at hzv ⊢
    rw [hs, if_neg (by norm_num), hzv]; rfl
  · rw [hs, if_neg (by norm_num), hzv, one_mul]

theorem imulRound_spec {x y : FP492} (h : (sval x).natAbs * (sval y).natAbs < 2 ^ 1002 + 2 ^ 1001) :
    ∃ R : ℕ, sval (imulRound x y) = (sval x).sign * (sval y).sign * R ∧
      (sval x).natAbs * (sval y).natAbs / 2 ^ 492 ≤ R ∧ R ≤ (sval x).natAbs * (sval y).natAbs / 2 ^ 492 + 1 ∧
      ((sval x).natAbs * (sval y).natAbs % 2 ^ 492 = 0 → R = (sval x).natAbs * (sval y).natAbs / 2 ^ 492) := by
  have hxn := nat_iabs x
  have hyn := nat_iabs y
  obtain ⟨up, h1, h2⟩ := nat_mulMag (x := iabs x) (y := iabs y) (by rw [hxn, hyn]; exact h)
  rw [hxn, hyn] at h1 h2
  have hub := bool_toNat_le up
  unfold imulRound
  rw [signum_eq, signum_eq]
  obtain ⟨P, hP⟩ : ∃ P, (sval x).natAbs * (sval y).natAbs = P := ⟨_, rfl⟩
  rw [hP] at h h1 h2 ⊢
  have hlt : P / 2 ^ 492 < 2 ^ 510 + 2 ^ 509 :=
    Nat.div_lt_of_lt_mul (by rw [Nat.mul_add, ← pow_add, ← pow_add]; exact h)
  refine ⟨_, sval_signed h1 (by omega) fun h0 => ?_, Nat.le_add_right _ _, Nat.add_le_add_left hub _, fun h0 => ?_⟩
  · have : P = 0 := by
      rw [← hP]
      rcases mul_eq_zero.mp h0 with h0 | h0 <;> rw [Int.sign_eq_zero_iff_zero.mp h0] <;> simp
    rw [this] at h2 ⊢
    rw [h2 (Nat.zero_mod _), Nat.zero_div]; rfl
  · rw [h2 h0]; rfl

theorem sval_ofInt {i : ℤ} (h : i.natAbs < 2 ^ 19) : sval (ofInt i) = i * 2 ^ 492 := by
  have ht : UInt.nat (new (i.natAbs <<< 108) 0 0 0) = i.natAbs * 2 ^ 492 := by
    rw [nat_limbs]
    unfold new
    dsimp only
    rw [BitVec.toNat_ofNat, BitVec.toNat_ofNat, Nat.shiftLeft_eq]
    generalize i.natAbs = n at *
    omega
  obtain ⟨t, ht'⟩ : ∃ t, new (i.natAbs <<< 108) 0 0 0 = t := ⟨_, rfl⟩
  rw [ht'] at ht
  have htv : sval t = i.natAbs * 2 ^ 492 := by
    rw [sval_of_lt, ht, Nat.cast_mul, Nat.cast_pow, Nat.cast_ofNat]
    rw [ht]; omega
  unfold ofInt
  dsimp only
  rw [ht']
  by_cases hi : i < 0
  · rw [if_pos hi, sval_ineg (by rw [htv]; omega), htv]; omega
  · rw [if_neg hi, htv]; omega

theorem lo_of_lt {x : FP492} (h : UInt.nat x < 2 ^ 256) : nat256 x.lo = UInt.nat x := by
  have h3 : UInt.nat x = nat256 x.hi * 2 ^ 256 + nat256 x.lo := rfl
  omega

/-- The conversion to `f256` rounds correctly. -/
theorem toF256_spec (v : FP492) : IsRNE ((sval v : ℝ) / 2 ^ 492) (toF256 v).pat := by
  have hEB : EXP_BITS = 19 := rfl
  have hsg : signum v < 0 ↔ sval v < 0 := by rw [signum_eq, Int.sign_neg_iff]
  obtain ⟨s, hs, hs1, hsd, hsp, hsn⟩ : ∃ s : ℕ, (if signum v < 0 then 1 else 0) = s ∧ s ≤ 1 ∧
      (s = 0 ↔ ¬ sval v < 0) ∧ (0 < (sval v : ℝ) / 2 ^ 492 → s = 0) ∧ ((sval v : ℝ) / 2 ^ 492 < 0 → s = 1) := by
    refine ⟨_, rfl, by split <;> norm_num, ?_, ?_, ?_⟩
    · by_cases h : sval v < 0
      · rw [if_pos (hsg.mpr h)]; simp [h]
      · rw [if_neg (fun hc => h (hsg.mp hc))]; simp [h]
    · intro h
      have : 0 < sval v := by
        by_contra hc
        have h2 : (sval v : ℝ) ≤ 0 := by exact_mod_cast not_lt.mp hc
        exact absurd h (not_lt.mpr (div_nonpos_of_nonpos_of_nonneg h2 (by positivity)))
      rw [if_neg (by rw [hsg]; omega)]
    · intro h
      have : sval v < 0 := by
        by_contra hc
        have h2 : (0 : ℝ) ≤ (sval v : ℝ) := by exact_mod_cast not_lt.mp hc
        exact absurd h (not_lt.mpr (by positivity))
      rw [if_pos (hsg.mpr this)]
  obtain ⟨a, ha, han⟩ : ∃ a, (if s = 0 then v else ineg v) = a ∧ UInt.nat a = (sval v).natAbs := by
    refine ⟨_, rfl, ?_⟩
    rw [← nat_iabs]
    unfold iabs
    rw [isSignNegative_eq]
    by_cases h : sval v < 0
    · rw [decide_eq_true h, if_pos rfl, if_neg (fun hc => (hsd.mp hc) h)]
    · rw [decide_eq_false h, if_pos (hsd.mpr h), if_neg (by simp)]
  have hV : |(sval v : ℝ) / 2 ^ 492| * 2 ^ 262378 = (UInt.nat a : ℝ) * 2 ^ 261886 := by
    rw [abs_div, abs_of_pos (show (0 : ℝ) < 2 ^ 492 by positivity), han, Nat.cast_natAbs, Int.cast_abs,
      show 262378 = 261886 + 492 by norm_num, pow_add]
    have : (2 : ℝ) ^ 492 ≠ 0 := by positivity
    field_simp
  suffices hsuff : ∃ A, (toF256 v).pat = s * 2 ^ 255 + A ∧ RoundsTo ((UInt.nat a : ℝ) * 2 ^ 261886) A by
    obtain ⟨A, h1, h2⟩ := hsuff
    rw [h1]
    rw [← hV] at h2
    exact h2.isRNE hs1 hsp hsn
  have halt := nat_lt a
  unfold toF256
  dsimp only
  rw [hs, ha, hEB]
  by_cases h0 : UInt.nat a = 0
  · have hl : UInt.leadingZeros a = 512 := by
      have hl := UInt.leadingZeros_eq a
      rw [if_pos h0] at hl
      exact hl
    rw [hl, if_neg (by norm_num), if_neg (by norm_num), if_neg (by norm_num)]
    have hs0 : s = 0 := hsd.mpr (by omega)
    refine ⟨0, ?_, ?_⟩
    · rw [hs0]; rfl
    · rw [h0, Nat.cast_zero, zero_mul]
      have := RoundsTo.exact (t := 0) (M := 0) (by norm_num) (Or.inl rfl) (by norm_num)
      simpa using this
  · have hl := leadingZeros_nat h0
    have hb := log2_lt h0
    have hlo := Nat.log2_self_le h0
    have hhi : UInt.nat a < 2 ^ ((UInt.nat a).log2 + 1) := Nat.lt_log2_self
    obtain ⟨L, hL⟩ : ∃ L, L = (UInt.nat a).log2 := ⟨_, rfl⟩
    rw [← hL] at hl hb hlo hhi
    rw [hl]
    have hloR : (2 : ℝ) ^ L ≤ UInt.nat a := by exact_mod_cast hlo
    have hhiR : (UInt.nat a : ℝ) < 2 ^ (L + 1) := by exact_mod_cast hhi
    by_cases c1 : 511 - L ≤ 274
    · rw [if_pos c1]
      obtain ⟨n, hn⟩ : ∃ n, L = 236 + n := ⟨L - 236, by omega⟩
      rw [show 256 + 19 - (511 - L) = n by omega]
      have hr : UInt.nat (UInt.roundingDivPow2 a n) = Spec.rne (UInt.nat a) (2 ^ n) :=
        UInt.nat_roundingDivPow2 a n (by show n < 512; omega)
      obtain ⟨r, hr'⟩ : ∃ r, UInt.roundingDivPow2 a n = r := ⟨_, rfl⟩
      rw [hr'] at hr ⊢
      have hrne := RNE.of_rne (UInt.nat a) (Nat.two_pow_pos n)
      obtain ⟨M, hM⟩ : ∃ M, Spec.rne (UInt.nat a) (2 ^ n) = M := ⟨_, rfl⟩
      rw [hM] at hr hrne
      rw [Nat.cast_pow, Nat.cast_ofNat] at hrne
      have hp : (0 : ℝ) < 2 ^ n := by positivity
      have w1 : (2 : ℝ) ^ 236 ≤ UInt.nat a / 2 ^ n := by
        rw [le_div_iff₀ hp, ← pow_add, ← hn]; exact hloR
      have w2 : (UInt.nat a / 2 ^ n : ℝ) < 2 ^ 237 := by
        rw [div_lt_iff₀ hp, ← pow_add, show 237 + n = L + 1 by omega]; exact hhiR
      have hR := RoundsTo.of_rne (v := (UInt.nat a : ℝ) * 2 ^ 261886) (t := 261886 + n)
        (by rw [pow_add]; field_simp) w2 (Or.inr w1) hrne (by omega)
      have m1 : 2 ^ 236 ≤ M := by
        have h1 := abs_le.mp hrne.1
        have h2 : (2 : ℝ) ^ 236 < M + 1 := by linarith [h1.2]
        have h3 : 2 ^ 236 < M + 1 := by exact_mod_cast h2
        omega
      have m2 : M ≤ 2 ^ 237 := by
        have h1 := abs_le.mp hrne.1
        have h2 : (M : ℝ) < 2 ^ 237 + 1 := by linarith [h1.1]
        have h3 : M < 2 ^ 237 + 1 := by exact_mod_cast h2
        omega
      have hlon : nat256 r.lo = M := by rw [lo_of_lt (by rw [hr]; omega), hr]
      refine ⟨_, ?_, hR⟩
      have hlz := leadingZeros256 (z := r.lo) (by omega)
      rw [hlon] at hlz
      rcases Nat.lt_or_ge M (2 ^ 237) with hlt | hge
      · have : M.log2 = 236 := (Nat.log2_eq_iff (by omega)).mpr ⟨m1, hlt⟩
        rw [this] at hlz
        rw [hlz, show 19 - (255 - 236) = 0 by norm_num]
        have hsh : nat256 (UInt.shr r.lo 0) = M := by
          rw [nat_shr256 _ (by norm_num), hlon, pow_zero, Nat.div_one]
        rw [pat_new' (k := 261886 + n) hs1 (by omega) (by omega) (by omega) (by omega) (by omega), hsh]
      · have hMe : M = 2 ^ 237 := by omega
        have : M.log2 = 237 := by rw [hMe, Nat.log2_two_pow]
        rw [this] at hlz
        rw [hlz, show 19 - (255 - 237) = 1 by norm_num]
        have hsh : nat256 (UInt.shr r.lo 1) = 2 ^ 236 := by
          rw [nat_shr256 _ (by norm_num), hlon, hMe]; norm_num
        rw [pat_new' (k := 261886 + n + 1) hs1 (by omega) (by omega) (by omega) (by omega) (by omega), hsh, hMe]
        omega
    · rw [if_neg c1]
      obtain ⟨j, hj⟩ : ∃ j, L + j = 236 := ⟨236 - L, by omega⟩
      have b1 : 2 ^ 236 ≤ UInt.nat a * 2 ^ j := by
        rw [← hj, pow_add]; exact Nat.mul_le_mul_right _ hlo
      have b2 : UInt.nat a * 2 ^ j < 2 ^ 237 := by
        rw [show 237 = L + 1 + j by omega, pow_add]
        exact Nat.mul_lt_mul_of_pos_right hhi (Nat.two_pow_pos _)
      have hR : RoundsTo ((UInt.nat a : ℝ) * 2 ^ 261886) ((261886 - j) * 2 ^ 236 + UInt.nat a * 2 ^ j) := by
        have := RoundsTo.exact (t := 261886 - j) b2 (Or.inr b1) (by omega)
        rw [Nat.mul_assoc, ← pow_add, show j + (261886 - j) = 261886 by omega, Nat.cast_mul, Nat.cast_pow,
          Nat.cast_ofNat] at this
        exact this
      refine ⟨_, ?_, hR⟩
      by_cases c2 : 511 - L = 275
      · rw [if_pos c2]
        have hj0 : j = 0 := by omega
        rw [hj0, pow_zero, Nat.mul_one] at b1 b2 ⊢
        have hlon : nat256 a.lo = UInt.nat a := lo_of_lt (by omega)
        rw [pat_new' (k := 261886) hs1 (by norm_num) (by omega) (by omega) (by omega) (by norm_num), hlon]
      · rw [if_neg c2, if_pos (by omega), show 511 - L - 256 - 19 = j by omega]
        have hsn : UInt.nat (UInt.shl a j) = UInt.nat a * 2 ^ j % 2 ^ 512 := UInt.nat_shl a j (by show j < 512; omega)
        rw [Nat.mod_eq_of_lt (by omega)] at hsn
        have hlon : nat256 (UInt.shl a j).lo = UInt.nat a * 2 ^ j := by
          rw [lo_of_lt (by rw [hsn]; omega), hsn]
        rw [pat_new' (k := 261886 - j) hs1 (by omega) (by omega) (by omega) (by omega) (by omega), hlon]

end FP492

end Verif
