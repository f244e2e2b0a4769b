import Verif.Model.Fma
import Verif.Proofs.Rem

/-!
# The 768-bit integers of the fused multiply-add
-/

namespace Verif

open BigUInt LawfulBigUInt

/-! ## Operations on `U256` that `U768` is built from -/

theorem wmul256 (x y : U256) :
    nat256 (UInt.wideningMul x y).1 = nat256 x * nat256 y % 2 ^ 256 ∧
    nat256 (UInt.wideningMul x y).2 = nat256 x * nat256 y / 2 ^ 256 :=
  UInt.wideningMul_halves x y

theorem oadd256 (x y : U256) :
    nat256 (UInt.overflowingAdd x y).1 = (nat256 x + nat256 y) % 2 ^ 256 ∧
    (UInt.overflowingAdd x y).2 = decide (2 ^ 256 ≤ nat256 x + nat256 y) :=
  ⟨toNat_overflowingAdd (α := U256) x y, overflowingAdd_snd (α := U256) x y⟩

theorem osub256 (x y : U256) :
    nat256 (UInt.overflowingSub x y).1 = (nat256 x + 2 ^ 256 - nat256 y) % 2 ^ 256 ∧
    (UInt.overflowingSub x y).2 = decide (nat256 x < nat256 y) :=
  ⟨toNat_overflowingSub (α := U256) x y, overflowingSub_snd (α := U256) x y⟩

theorem cadd256 (x y : U256) (c : Bool) :
    nat256 (carryingAdd x y c).1 = (nat256 x + nat256 y + c.toNat) % 2 ^ 256 ∧
    (carryingAdd x y c).2 = decide (2 ^ 256 ≤ nat256 x + nat256 y + c.toNat) :=
  ⟨toNat_carryingAdd (α := U256) x y c, carryingAdd_snd (α := U256) x y c⟩

theorem bsub256 (x y : U256) (c : Bool) :
    nat256 (borrowingSub x y c).1 = (nat256 x + 2 * 2 ^ 256 - nat256 y - c.toNat) % 2 ^ 256 ∧
    (borrowingSub x y c).2 = decide (nat256 x < nat256 y + c.toNat) :=
  ⟨toNat_borrowingSub (α := U256) x y c, borrowingSub_snd (α := U256) x y c⟩

theorem wshl256 (x : U256) {n : ℕ} (h0 : 0 < n) (h : n < 256) :
    nat256 (wideningShl x n).1 = nat256 x * 2 ^ n % 2 ^ 256 ∧
    nat256 (wideningShl x n).2 = nat256 x * 2 ^ n / 2 ^ 256 := by
  obtain ⟨m, rfl⟩ : ∃ m, n = m + 1 := ⟨n - 1, by omega⟩
  refine ⟨nat_shl256 x h, ?_⟩
  show nat256 (UInt.shr x (256 - (m + 1))) = _
  rw [nat_shr256 x (by omega)]
  have e : 2 ^ 256 = 2 ^ (256 - (m + 1)) * 2 ^ (m + 1) := by rw [← pow_add]; congr 1; omega
  rw [e, Nat.mul_div_mul_right _ _ (Nat.two_pow_pos _)]

theorem cshl256 (x c : U256) {n : ℕ} (h0 : 0 < n) (h : n < 256) (hc : nat256 c < 2 ^ n) :
    nat256 (carryingShl x n c).1 = nat256 x * 2 ^ n % 2 ^ 256 + nat256 c ∧
    nat256 (carryingShl x n c).2 = nat256 x * 2 ^ n / 2 ^ 256 := by
  have e : 2 ^ 256 = 2 ^ (256 - n) * 2 ^ n := by rw [← pow_add]; congr 1; omega
  constructor
  · show nat256 (UInt.or (UInt.shl x n) c) = _
    have h1 : nat256 (UInt.or (UInt.shl x n) c) = nat256 (UInt.shl x n) ||| nat256 c :=
      toNat_or (α := U256) _ _
    rw [h1, nat_shl256 x h]
    conv_lhs => rw [e, Nat.mul_mod_mul_right]
    conv_rhs => rw [e, Nat.mul_mod_mul_right]
    rw [Nat.or_comm]
    exact or_disjoint' hc
  · show nat256 (UInt.shr x (256 - n)) = _
    rw [nat_shr256 x (by omega), e, Nat.mul_div_mul_right _ _ (Nat.two_pow_pos _)]

/-! ## `U768` -/

/-- A 768-bit integer as a natural number. -/
def nat768 (x : U768) : ℕ := nat256 x.hi * 2 ^ 512 + nat256 x.mi * 2 ^ 256 + nat256 x.lo

theorem nat768_mk (a b c : U256) :
    nat768 ⟨a, b, c⟩ = nat256 a * 2 ^ 512 + nat256 b * 2 ^ 256 + nat256 c := rfl

theorem nat768_lt (x : U768) : nat768 x < 2 ^ 768 := by
  have h1 := nat256_lt x.hi
  have h2 := nat256_lt x.mi
  have h3 := nat256_lt x.lo
  unfold nat768; omega

theorem iadd768 {x y : U768} (h : nat768 x + nat768 y < 2 ^ 768) :
    nat768 (U768.iadd x y) = nat768 x + nat768 y := by
  obtain ⟨a1, a2⟩ := oadd256 x.lo y.lo
  obtain ⟨b1, b2⟩ := cadd256 x.mi y.mi (UInt.overflowingAdd x.lo y.lo).2
  obtain ⟨c1, -⟩ := cadd256 x.hi y.hi
    (carryingAdd x.mi y.mi (UInt.overflowingAdd x.lo y.lo).2).2
  have e : nat768 (U768.iadd x y) = nat256 (carryingAdd x.hi y.hi
    (carryingAdd x.mi y.mi (UInt.overflowingAdd x.lo y.lo).2).2).1 * 2 ^ 512 +
    nat256 (carryingAdd x.mi y.mi (UInt.overflowingAdd x.lo y.lo).2).1 * 2 ^ 256 +
    nat256 (UInt.overflowingAdd x.lo y.lo).1 := rfl
  rw [e, c1, b1, a1, b2, a2]
  have h1 := nat256_lt x.hi
  have h2 := nat256_lt x.mi
  have h3 := nat256_lt x.lo
  have h4 := nat256_lt y.hi
  have h5 := nat256_lt y.mi
  have h6 := nat256_lt y.lo
  unfold nat768 at h ⊢
  clear * - h h1 h2 h3 h4 h5 h6
  by_cases d1 : 2 ^ 256 ≤ nat256 x.lo + nat256 y.lo
  · rw [decide_eq_true d1, Bool.toNat_true]
    by_cases d2 : 2 ^ 256 ≤ nat256 x.mi + nat256 y.mi + 1
    · rw [decide_eq_true d2, Bool.toNat_true]; omega
    · rw [decide_eq_false d2, Bool.toNat_false]; omega
  · rw [decide_eq_false d1, Bool.toNat_false]
    by_cases d2 : 2 ^ 256 ≤ nat256 x.mi + nat256 y.mi + 0
    · rw [decide_eq_true d2, Bool.toNat_true]; omega
    · rw [decide_eq_false d2, Bool.toNat_false]; omega

theorem isub768 {x y : U768} (h : nat768 y ≤ nat768 x) :
    nat768 (U768.isub x y) = nat768 x - nat768 y := by
  obtain ⟨a1, a2⟩ := osub256 x.lo y.lo
  obtain ⟨b1, b2⟩ := bsub256 x.mi y.mi (UInt.overflowingSub x.lo y.lo).2
  obtain ⟨c1, -⟩ := bsub256 x.hi y.hi
    (borrowingSub x.mi y.mi (UInt.overflowingSub x.lo y.lo).2).2
  have e : nat768 (U768.isub x y) = nat256 (borrowingSub x.hi y.hi
    (borrowingSub x.mi y.mi (UInt.overflowingSub x.lo y.lo).2).2).1 * 2 ^ 512 +
    nat256 (borrowingSub x.mi y.mi (UInt.overflowingSub x.lo y.lo).2).1 * 2 ^ 256 +
    nat256 (UInt.overflowingSub x.lo y.lo).1 := rfl
  rw [e, c1, b1, a1, b2, a2]
  have h1 := nat256_lt x.hi
  have h2 := nat256_lt x.mi
  have h3 := nat256_lt x.lo
  have h4 := nat256_lt y.hi
  have h5 := nat256_lt y.mi
  have h6 := nat256_lt y.lo
  unfold nat768 at h ⊢
  clear * - h h1 h2 h3 h4 h5 h6
  by_cases d1 : nat256 x.lo < nat256 y.lo
  · rw [decide_eq_true d1, Bool.toNat_true]
    by_cases d2 : nat256 x.mi < nat256 y.mi + 1
    · rw [decide_eq_true d2, Bool.toNat_true]; omega
    · rw [decide_eq_false d2, Bool.toNat_false]; omega
  · rw [decide_eq_false d1, Bool.toNat_false]
    by_cases d2 : nat256 x.mi < nat256 y.mi + 0
    · rw [decide_eq_true d2, Bool.toNat_true]; omega
    · rw [decide_eq_false d2, Bool.toNat_false]; omega

theorem compare_then {a b c d B : ℕ} (hb : b < B) (hd : d < B) :
    (compare a c).then (compare b d) = compare (a * B + b) (c * B + d) := by
  rcases lt_trichotomy a c with h | h | h
  · have h2 : a * B + B ≤ c * B := by rw [← Nat.succ_mul]; exact Nat.mul_le_mul_right _ h
    have h3 : a * B + b < c * B + d := by omega
    rw [Nat.compare_eq_lt.mpr h, Nat.compare_eq_lt.mpr h3]; rfl
  · subst h
    rw [Nat.compare_eq_eq.mpr (rfl : a = a)]
    show compare b d = _
    rcases lt_trichotomy b d with g | g | g
    · have h3 : a * B + b < a * B + d := by omega
      rw [Nat.compare_eq_lt.mpr g, Nat.compare_eq_lt.mpr h3]
    · have h3 : a * B + b = a * B + d := by omega
      rw [Nat.compare_eq_eq.mpr g, Nat.compare_eq_eq.mpr h3]
    · have h3 : a * B + d < a * B + b := by omega
      rw [Nat.compare_eq_gt.mpr g, Nat.compare_eq_gt.mpr h3]
  · have h2 : c * B + B ≤ a * B := by rw [← Nat.succ_mul]; exact Nat.mul_le_mul_right _ h
    have h3 : c * B + d < a * B + b := by omega
    rw [Nat.compare_eq_gt.mpr h, Nat.compare_eq_gt.mpr h3]; rfl

theorem cmp768 (x y : U768) : U768.cmp x y = compare (nat768 x) (nat768 y) := by
  have h2 := nat256_lt x.mi
  have h3 := nat256_lt x.lo
  have h5 := nat256_lt y.mi
  have h6 := nat256_lt y.lo
  unfold U768.cmp nat768
  rw [cmp256, cmp256, cmp256, compare_then (B := 2 ^ 256) h3 h6,
    compare_then (B := 2 ^ 512) (by omega) (by omega), ← Nat.add_assoc, ← Nat.add_assoc]

theorem log2_mul_add {a b k : ℕ} (ha : a ≠ 0) (hb : b < 2 ^ k) :
    (a * 2 ^ k + b).log2 = a.log2 + k := by
  have h := log2_bounds ha rfl
  have hn : a * 2 ^ k + b ≠ 0 := by
    have := Nat.two_pow_pos k
    have := Nat.mul_le_mul_right (2 ^ k) (Nat.one_le_iff_ne_zero.mpr ha)
    omega
  have h1 := Nat.mul_le_mul_right (2 ^ k) h.1
  have h2 := Nat.mul_le_mul_right (2 ^ k) (Nat.succ_le_of_lt h.2)
  rw [Nat.succ_mul] at h2
  rw [Nat.log2_eq_iff hn]
  constructor
  · rw [Nat.pow_add]; omega
  · rw [show a.log2 + k + 1 = (a.log2 + 1) + k by omega, Nat.pow_add]; omega

theorem lz256 (x : U256) :
    BigUInt.leadingZeros x = if nat256 x = 0 then 256 else 255 - (nat256 x).log2 :=
  leadingZeros_eq (α := U256) x

theorem lz768 (x : U768) :
    x.leadingZeros = if nat768 x = 0 then 768 else 767 - (nat768 x).log2 := by
  have l1 := log2_lt_256 x.hi
  have l2 := log2_lt_256 x.mi
  have l3 := log2_lt_256 x.lo
  have h1 := nat256_lt x.hi
  have h2 := nat256_lt x.mi
  have h3 := nat256_lt x.lo
  unfold U768.leadingZeros
  rw [isZero256, isZero256, lz256, lz256, lz256]
  dsimp only
  by_cases c1 : nat256 x.hi = 0
  · by_cases c2 : nat256 x.mi = 0
    · have e : nat768 x = nat256 x.lo := by unfold nat768; rw [c1, c2]; omega
      rw [e]
      simp only [c1, c2, decide_true, Bool.and_self, Bool.toNat_true, if_true]
      split <;> omega
    · have e : nat768 x = nat256 x.mi * 2 ^ 256 + nat256 x.lo := by unfold nat768; rw [c1]; omega
      have hl := log2_mul_add c2 h3
      rw [← e] at hl
      have hne : nat768 x ≠ 0 := by omega
      simp only [c1, c2, hne, hl, decide_true, decide_false, Bool.and_false, Bool.toNat_true,
        Bool.toNat_false, if_true, if_false]
      omega
  · have e : nat768 x = nat256 x.hi * 2 ^ 512 + (nat256 x.mi * 2 ^ 256 + nat256 x.lo) := by
      unfold nat768; omega
    have hl := log2_mul_add (k := 512) (b := nat256 x.mi * 2 ^ 256 + nat256 x.lo) c1 (by omega)
    rw [← e] at hl
    have hne : nat768 x ≠ 0 := by omega
    simp only [c1, hne, hl, decide_false, Bool.false_and, Bool.toNat_false, if_false]
    omega

theorem nat_lo_zero : nat256 (UInt.zero : U256) = 0 := nat256_zero

/-- Shifting left without loss. -/
theorem shl768 {x : U768} {n : ℕ} (hn : n < 768) (h : nat768 x * 2 ^ n < 2 ^ 768) :
    ∃ z, U768.shl x n = some z ∧ nat768 z = nat768 x * 2 ^ n := by
  have h1 := nat256_lt x.hi
  have h2 := nat256_lt x.mi
  have h3 := nat256_lt x.lo
  unfold U768.shl U768.BITS
  rw [if_neg (not_not.mpr hn)]
  have hx : nat768 x = nat256 x.hi * 2 ^ 512 + nat256 x.mi * 2 ^ 256 + nat256 x.lo := rfl
  have hlt : nat768 x < 2 ^ (768 - n) := by
    refine Nat.lt_of_mul_lt_mul_right (a := 2 ^ n) ?_
    rw [← Nat.pow_add, show 768 - n + n = 768 by omega]
    exact h
  by_cases c1 : 1 ≤ n ∧ n ≤ 255
  · rw [if_pos c1]
    refine ⟨_, rfl, ?_⟩
    obtain ⟨a1, a2⟩ := wshl256 x.lo (n := n) (by omega) (by omega)
    have hp : 0 < 2 ^ n := Nat.two_pow_pos n
    have ca : nat256 (wideningShl x.lo n).2 < 2 ^ n := by
      rw [a2, Nat.div_lt_iff_lt_mul (by norm_num), Nat.mul_comm]
      exact (Nat.mul_lt_mul_left hp).mpr h3
    obtain ⟨b1, b2⟩ := cshl256 x.mi _ (n := n) (by omega) (by omega) ca
    have cb : nat256 (carryingShl x.mi n (wideningShl x.lo n).2).2 < 2 ^ n := by
      rw [b2, Nat.div_lt_iff_lt_mul (by norm_num), Nat.mul_comm]
      exact (Nat.mul_lt_mul_left hp).mpr h2
    obtain ⟨d1, -⟩ := cshl256 x.hi _ (n := n) (by omega) (by omega) cb
    show nat256 (carryingShl x.hi n (carryingShl x.mi n (wideningShl x.lo n).2).2).1 * 2 ^ 512 +
      nat256 (carryingShl x.mi n (wideningShl x.lo n).2).1 * 2 ^ 256 +
      nat256 (wideningShl x.lo n).1 = _
    rw [d1, b2, b1, a2, a1]
    have e : nat768 x * 2 ^ n = nat256 x.hi * 2 ^ n * 2 ^ 512 + nat256 x.mi * 2 ^ n * 2 ^ 256
        + nat256 x.lo * 2 ^ n := by rw [hx]; ring
    rw [e] at h ⊢
    generalize nat256 x.hi * 2 ^ n = a at *
    generalize nat256 x.mi * 2 ^ n = b at *
    generalize nat256 x.lo * 2 ^ n = c at *
    clear * - h
    omega
  rw [if_neg c1]
  by_cases c2 : n = 256
  · rw [if_pos c2]
    refine ⟨_, rfl, ?_⟩
    subst c2
    rw [show 768 - 256 = 512 by norm_num] at hlt
    rw [nat768_mk, nat_lo_zero, hx]
    rw [hx] at hlt
    clear * - hlt h1 h2 h3
    omega
  rw [if_neg c2]
  by_cases c3 : 257 ≤ n ∧ n ≤ 511
  · rw [if_pos c3]
    obtain ⟨m, rfl⟩ : ∃ m, n = 256 + m := ⟨n - 256, by omega⟩
    rw [show 256 + m - 256 = m by omega]
    refine ⟨⟨(carryingShl x.mi m (wideningShl x.lo m).2).1, (wideningShl x.lo m).1, UInt.zero⟩,
      rfl, ?_⟩
    obtain ⟨a1, a2⟩ := wshl256 x.lo (n := m) (by omega) (by omega)
    have hp : 0 < 2 ^ m := Nat.two_pow_pos m
    have ca : nat256 (wideningShl x.lo m).2 < 2 ^ m := by
      rw [a2, Nat.div_lt_iff_lt_mul (by norm_num), Nat.mul_comm]
      exact (Nat.mul_lt_mul_left hp).mpr h3
    obtain ⟨b1, b2⟩ := cshl256 x.mi _ (n := m) (by omega) (by omega) ca
    show nat256 (carryingShl x.mi m (wideningShl x.lo m).2).1 * 2 ^ 512 +
      nat256 (wideningShl x.lo m).1 * 2 ^ 256 + nat256 (UInt.zero : U256) = _
    rw [b1, a2, a1, nat_lo_zero]
    have h256 : 2 ^ (768 - (256 + m)) = 2 ^ (256 - m) * 2 ^ 256 := by
      rw [← Nat.pow_add]; congr 1; omega
    have h512 : 2 ^ (768 - (256 + m)) ≤ 2 ^ 512 := Nat.pow_le_pow_right (by norm_num) (by omega)
    have ha : nat256 x.hi = 0 := by clear * - hlt hx h512; omega
    have hb : nat256 x.mi < 2 ^ (256 - m) := by
      rw [h256] at hlt
      refine Nat.lt_of_mul_lt_mul_right (a := 2 ^ 256) (Nat.lt_of_le_of_lt ?_ hlt)
      clear * - hx
      omega
    have hb2 : nat256 x.mi * 2 ^ m < 2 ^ 256 := by
      have h4 := (Nat.mul_lt_mul_right hp).mpr hb
      rwa [← Nat.pow_add, show 256 - m + m = 256 by omega] at h4
    have e : nat768 x * 2 ^ (256 + m) =
        nat256 x.mi * 2 ^ m * 2 ^ 512 + nat256 x.lo * 2 ^ m * 2 ^ 256 := by
      rw [hx, ha, Nat.pow_add, show 512 = 256 + 256 by norm_num, Nat.pow_add 2 256 256]
      generalize 2 ^ 256 = B
      ring
    rw [e]
    generalize nat256 x.mi * 2 ^ m = b at *
    generalize nat256 x.lo * 2 ^ m = c at *
    clear * - hb2
    omega
  rw [if_neg c3]
  by_cases c4 : n = 512
  · rw [if_pos c4]
    refine ⟨_, rfl, ?_⟩
    subst c4
    rw [show 768 - 512 = 256 by norm_num] at hlt
    rw [nat768_mk, nat_lo_zero, hx]
    rw [hx] at hlt
    clear * - hlt h1 h2 h3
    omega
  rw [if_neg c4]
  by_cases c5 : 513 ≤ n ∧ n ≤ 767
  · rw [if_pos c5]
    refine ⟨_, rfl, ?_⟩
    obtain ⟨m, rfl⟩ : ∃ m, n = 512 + m := ⟨n - 512, by omega⟩
    rw [show 512 + m - 512 = m by omega, nat768_mk, nat_lo_zero, nat_shl256 _ (by omega)]
    have hp : 0 < 2 ^ m := Nat.two_pow_pos m
    have h256 : 2 ^ (768 - (512 + m)) = 2 ^ (256 - m) := by congr 1; omega
    have hle : 2 ^ (256 - m) ≤ 2 ^ 256 := Nat.pow_le_pow_right (by norm_num) (by omega)
    have ha : nat768 x = nat256 x.lo := by clear * - hlt hx h256 hle; omega
    rw [h256, ha] at hlt
    have hb2 : nat256 x.lo * 2 ^ m < 2 ^ 256 := by
      have h4 := (Nat.mul_lt_mul_right hp).mpr hlt
      rwa [← Nat.pow_add, show 256 - m + m = 256 by omega] at h4
    rw [ha, Nat.mod_eq_of_lt hb2, Nat.pow_add, Nat.mul_assoc, Nat.mul_comm (2 ^ m), Nat.zero_mul,
      Nat.add_zero]
  rw [if_neg c5]
  have : n = 0 := by omega
  subst this
  exact ⟨x, rfl, by rw [Nat.pow_zero, Nat.mul_one]⟩

theorem div_mul_add_mod_pow (u : ℕ) {s : ℕ} (hs : s ≤ 256) :
    u / 2 ^ s * 2 ^ 256 + u * 2 ^ (256 - s) % 2 ^ 256 = u * 2 ^ (256 - s) := by
  have e : 2 ^ 256 = 2 ^ s * 2 ^ (256 - s) := by rw [← pow_add]; congr 1; omega
  rw [e, Nat.mul_mod_mul_right, ← Nat.mul_assoc, ← Nat.add_mul]
  congr 1
  exact Nat.div_add_mod' u (2 ^ s)

/-- Placing a significand: exact as long as nothing is shifted out. -/
theorem fromShifted_exact (u : U256) {s : ℕ} (hs : s ≤ 512) :
    ∃ z, U768.fromU256Shifted u s = some z ∧ nat768 z = nat256 u * 2 ^ (512 - s) := by
  unfold U768.fromU256Shifted
  by_cases c1 : s = 0
  · rw [if_pos c1]
    refine ⟨_, rfl, ?_⟩
    rw [nat768_mk, nat_lo_zero, c1]; omega
  rw [if_neg c1]
  by_cases c2 : s ≤ 255
  · rw [if_pos c2]
    refine ⟨_, rfl, ?_⟩
    rw [nat768_mk, nat_lo_zero, nat_shr256 _ (by omega), nat_shl256 _ (by omega)]
    have h := div_mul_add_mod_pow (nat256 u) (s := s) (by omega)
    have e : 2 ^ (512 - s) = 2 ^ (256 - s) * 2 ^ 256 := by rw [← pow_add]; congr 1; omega
    rw [e, ← Nat.mul_assoc]
    generalize nat256 u / 2 ^ s = a at *
    generalize nat256 u * 2 ^ (256 - s) = b at *
    clear * - h
    omega
  rw [if_neg c2]
  by_cases c3 : s = 256
  · rw [if_pos c3]
    refine ⟨_, rfl, ?_⟩
    rw [nat768_mk, nat_lo_zero, c3]; omega
  rw [if_neg c3]
  by_cases c4 : s ≤ 511
  · rw [if_pos c4]
    refine ⟨_, rfl, ?_⟩
    rw [nat768_mk, nat_lo_zero, nat_shr256 _ (by omega), nat_shl256 _ (by omega)]
    have h := div_mul_add_mod_pow (nat256 u) (s := s - 256) (by omega)
    rw [show 256 - (s - 256) = 512 - s by omega] at h
    rw [← h]; omega
  rw [if_neg c4, if_pos (by omega)]
  refine ⟨_, rfl, ?_⟩
  rw [nat768_mk, nat_lo_zero, show 512 - s = 0 by omega]; omega

/-- Placing a significand: lower bits are collected in the last bit. -/
theorem fromShifted_sticky (u : U256) {s : ℕ} (h1 : 512 < s) (h2 : s < 768) :
    ∃ z, U768.fromU256Shifted u s = some z ∧
      nat768 z = nat256 u / 2 ^ (s - 512) / 2 * 2 + max (nat256 u / 2 ^ (s - 512) % 2)
        (decide (nat256 u % 2 ^ (s - 512) ≠ 0)).toNat := by
  unfold U768.fromU256Shifted
  rw [if_neg (by omega), if_neg (by omega), if_neg (by omega), if_neg (by omega),
    if_neg (by omega), if_pos (by omega)]
  refine ⟨_, rfl, ?_⟩
  rw [nat768_mk, nat_lo_zero, nat_or_lo _ _ (by rw [toNat_bool]; exact bool_toNat_le _),
    toNat_bool, nat_mod_pow_eq _ (by omega) (by omega), nat_shr256 _ (by omega), ← decide_not,
    Nat.zero_mul, Nat.zero_mul, Nat.zero_add]

theorem nat_product {X Y : U256} (hY : nat256 Y < 2 ^ 237) :
    nat768 (Fma.product X Y) = 4 * (nat256 X * nat256 Y) := by
  have h := wmul256 X (UInt.shl Y 2)
  have e : nat256 (UInt.shl Y 2) = nat256 Y * 2 ^ 2 := nat_shl256_of_lt Y (by norm_num) (by omega)
  rw [e] at h
  show nat256 (UInt.zero : U256) * 2 ^ 512 + nat256 (UInt.wideningMul X (UInt.shl Y 2)).2 * 2 ^ 256
    + nat256 (UInt.wideningMul X (UInt.shl Y 2)).1 = _
  rw [nat_lo_zero, h.1, h.2, show 4 * (nat256 X * nat256 Y) = nat256 X * (nat256 Y * 2 ^ 2) by ring]
  omega

end Verif
