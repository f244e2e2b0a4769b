import Verif.Model.BigFloat
import Verif.Proofs.FP492
import Verif.Proofs.Wide
import Mathlib.Algebra.Order.Field.Power
import Mathlib.Tactic.Linarith

/-!
# The arithmetic of `BigFloat`: values and errors
-/

set_option exponentiation.threshold 2000

namespace Verif.BigFloat

open BigUInt LawfulBigUInt

/-- The number represented -/
noncomputable def bval (b : BigFloat) : ℝ := b.signum * (nat256 b.signif : ℝ) * (2 : ℝ) ^ (b.exp - 254)

def Sgn (s : ℤ) : Prop := s = 1 ∨ s = -1

/-- A normalised number different from zero -/
def Norm (b : BigFloat) : Prop := Sgn b.signum ∧ 2 ^ 254 ≤ nat256 b.signif ∧ nat256 b.signif < 2 ^ 255

/-- The same, but rounding may have carried into the highest bit -/
def Norm' (b : BigFloat) : Prop := Sgn b.signum ∧ 2 ^ 254 ≤ nat256 b.signif ∧ nat256 b.signif ≤ 2 ^ 255

theorem Norm.weaken {b : BigFloat} (h : Norm b) : Norm' b := ⟨h.1, h.2.1, h.2.2.le⟩

theorem nat512 (x : U512) : UInt.nat x = nat256 x.hi * 2 ^ 256 + nat256 x.lo := rfl

theorem nat512_lt (x : U512) : UInt.nat x < 2 ^ 512 := FP492.nat_lt x

theorem nat512_hi (x : U512) : nat256 x.hi = UInt.nat x / 2 ^ 256 := by
  have := nat256_lt x.lo
  rw [nat512]; omega

theorem nat512_lo (x : U512) : nat256 x.lo = UInt.nat x % 2 ^ 256 := by
  have := nat256_lt x.lo
  rw [nat512]; omega

theorem log2_of {x k : ℕ} (h1 : 2 ^ k ≤ x) (h2 : x < 2 ^ (k + 1)) : x.log2 = k := by
  have h0 : x ≠ 0 := by
    have := Nat.two_pow_pos k
    omega
  exact (Nat.log2_eq_iff h0).mpr ⟨h1, h2⟩

theorem lz256_of {z : U256} {k : ℕ} (h1 : 2 ^ k ≤ nat256 z) (h2 : nat256 z < 2 ^ (k + 1)) :
    UInt.leadingZeros z = 255 - k := by
  have h0 : nat256 z ≠ 0 := by
    have := Nat.two_pow_pos k
    omega
  have := leadingZeros256 h0
  rw [log2_of h1 h2] at this
  exact this

theorem lz512_of {z : U512} {k : ℕ} (h1 : 2 ^ k ≤ UInt.nat z) (h2 : UInt.nat z < 2 ^ (k + 1)) :
    UInt.leadingZeros z = 511 - k := by
  have h0 : UInt.nat z ≠ 0 := by
    have := Nat.two_pow_pos k
    omega
  have := FP492.leadingZeros_nat (x := z) h0
  rw [log2_of h1 h2] at this
  exact this

theorem exists_log {n b : ℕ} (h0 : n ≠ 0) (h : n < 2 ^ b) : ∃ k, k < b ∧ 2 ^ k ≤ n ∧ n < 2 ^ (k + 1) :=
  ⟨n.log2, (Nat.log2_lt h0).mpr h, Nat.log2_self_le h0, Nat.lt_log2_self⟩

theorem nat_shl512 (x : U512) {n : ℕ} (h : n < 512) : UInt.nat (UInt.shl x n) = UInt.nat x * 2 ^ n % 2 ^ 512 :=
  UInt.nat_shl x n h

theorem nat_shr512 (x : U512) {n : ℕ} (h : n < 512) : UInt.nat (UInt.shr x n) = UInt.nat x / 2 ^ n :=
  UInt.nat_shr x n h

theorem u32Sub_eq {a b : ℕ} (h : b ≤ a) (ha : a < 2 ^ 32) : u32Sub a b = a - b := by
  unfold u32Sub; omega

/-- The product of two significands -/
theorem mulSignifs_spec {x y : U256} (hx : 2 ^ 254 ≤ nat256 x) (hx2 : nat256 x < 2 ^ 255) (hy : 2 ^ 254 ≤ nat256 y)
    (hy2 : nat256 y < 2 ^ 255) : ∃ (p : U512) (adj : ℕ), mulSignifs x y = (p, (adj : ℤ)) ∧ adj ≤ 1 ∧
      UInt.nat p = nat256 x * nat256 y * 2 ^ (2 - adj) ∧ 2 ^ 510 ≤ UInt.nat p ∧ UInt.nat p < 2 ^ 511 := by
  have hm := UInt.wideningMul_spec x y
  rw [show 2 * BITS U128 = 256 from rfl] at hm
  obtain ⟨lo, hi, hw⟩ : ∃ lo hi, UInt.wideningMul x y = (lo, hi) := ⟨_, _, rfl⟩
  rw [hw] at hm
  have hP : UInt.nat (⟨hi, lo⟩ : U512) = nat256 x * nat256 y := by
    rw [nat512, ← show UInt.nat x * UInt.nat y = nat256 x * nat256 y from rfl, ← hm]
    exact Nat.add_comm _ _
  have hb1 : 2 ^ 508 ≤ nat256 x * nat256 y := by
    calc 2 ^ 508 = 2 ^ 254 * 2 ^ 254 := by norm_num
      _ ≤ _ := Nat.mul_le_mul hx hy
  have hb2 : nat256 x * nat256 y < 2 ^ 510 := by
    calc nat256 x * nat256 y < 2 ^ 255 * 2 ^ 255 := Nat.mul_lt_mul'' hx2 hy2
      _ = 2 ^ 510 := by norm_num
  have hhi : nat256 hi = nat256 x * nat256 y / 2 ^ 256 := by rw [← hP]; exact nat512_hi ⟨hi, lo⟩
  unfold mulSignifs
  rw [hw]
  dsimp only
  generalize nat256 x * nat256 y = P at *
  by_cases hc : P < 2 ^ 509
  · have hl := lz256_of (z := hi) (k := 252) (by omega) (by omega)
    refine ⟨_, 0, by rw [hl]; rfl, by norm_num, ?_⟩
    rw [show u32Sub (255 - 252) 1 = 2 by decide, nat_shl512 _ (by norm_num), hP]
    omega
  · have hl := lz256_of (z := hi) (k := 253) (by omega) (by omega)
    refine ⟨_, 1, by rw [hl]; rfl, by norm_num, ?_⟩
    rw [show u32Sub (255 - 253) 1 = 1 by decide, nat_shl512 _ (by norm_num), hP]
    omega

theorem or_low (x : U512) (c : Bool) :
    UInt.nat (⟨x.hi, ⟨x.lo.hi, x.lo.lo ||| boolU128 c⟩⟩ : U512) = UInt.nat x / 2 * 2 + max (UInt.nat x % 2) c.toNat := by
  have h := nat_or_lo x.lo (boolU128 c) (by rw [toNat_bool]; exact bool_toNat_le _)
  rw [toNat_bool] at h
  rw [nat512, nat512]
  dsimp only
  rw [h]
  generalize c.toNat = c
  generalize nat256 x.hi = a
  generalize nat256 x.lo = b
  have e : a * 2 ^ 256 = 2 * (a * 2 ^ 255) := by ring
  rw [e]
  generalize a * 2 ^ 255 = a
  have e1 : (2 * a + b) % 2 = b % 2 := by omega
  have e2 : (2 * a + b) / 2 = a + b / 2 := by omega
  rw [e1, e2]
  ring

theorem wideningShr_rem (x : U512) (k : ℕ) (h : k + 1 < 512) :
    BigUInt.beq (UInt.shl x (512 - (k + 1))) UInt.zero = decide (UInt.nat x % 2 ^ (k + 1) = 0) := by
  have hr : UInt.nat (UInt.shl x (512 - (k + 1))) = UInt.nat x % 2 ^ (k + 1) * 2 ^ (512 - (k + 1)) := by
    rw [nat_shl512 _ (by omega)]
    have : 2 ^ 512 = 2 ^ (k + 1) * 2 ^ (512 - (k + 1)) := by
      rw [← Nat.pow_add]; congr 1; omega
    rw [this, Nat.mul_mod_mul_right]
  have := UInt.beq_eq (UInt.shl x (512 - (k + 1))) UInt.zero
  rw [UInt.nat_zero, hr] at this
  refine this.trans ?_
  rw [decide_eq_decide, Nat.mul_eq_zero]
  have := Nat.two_pow_pos (512 - (k + 1))
  constructor
  · rintro (h | h)
    · exact h
    · rw [h] at this; exact absurd this (lt_irrefl 0)
  · exact Or.inl

theorem sticky_core {q r K S N : ℕ} (hml : r < K) (hd : K * q + r = N)
    (hs : S = q / 2 * 2 + max (q % 2) (decide (r ≠ 0)).toNat) :
    N < S * K + K ∧ S * K < N + K ∧ (r = 0 → S * K = N) ∧ (N ≠ 0 → S ≠ 0) := by
  by_cases hr0 : r = 0
  · have hS : S = q := by
      rw [hs, hr0]
      simp only [ne_eq, not_true_eq_false, decide_false, Bool.toNat_false]
      omega
    subst hS
    rw [hr0, add_zero] at hd
    rw [mul_comm S, hd]
    refine ⟨by omega, by omega, fun _ => rfl, ?_⟩
    intro h1 h2
    rw [h2, mul_zero] at hd
    exact h1 hd.symm
  · have hS : S = q / 2 * 2 + 1 := by
      rw [hs, decide_eq_true hr0]
      simp only [Bool.toNat_true]
      omega
    have h1 : q ≤ S ∧ S ≤ q + 1 := by omega
    have h2 : K * q ≤ S * K := by rw [mul_comm]; exact Nat.mul_le_mul_right _ h1.1
    have h3 : S * K ≤ K * q + K := by
      have := Nat.mul_le_mul_right K h1.2
      rw [Nat.add_mul, Nat.one_mul, mul_comm q] at this
      exact this
    exact ⟨by omega, by omega, fun hc => absurd hc hr0, by omega⟩

/-- The shift that keeps a sticky bit -/
theorem shrSticky_spec (x : U512) {n : ℕ} (h0 : 1 ≤ n) (h : n < 512) :
    UInt.nat x < UInt.nat (shrSticky x n) * 2 ^ n + 2 ^ n ∧ UInt.nat (shrSticky x n) * 2 ^ n < UInt.nat x + 2 ^ n ∧
      (UInt.nat x % 2 ^ n = 0 → UInt.nat (shrSticky x n) * 2 ^ n = UInt.nat x) ∧
      (UInt.nat x ≠ 0 → UInt.nat (shrSticky x n) ≠ 0) := by
  obtain ⟨k, rfl⟩ : ∃ k, n = k + 1 := ⟨n - 1, by omega⟩
  have hw : UInt.wideningShr x (k + 1) = (UInt.shr x (k + 1), UInt.shl x (512 - (k + 1))) := rfl
  have hq := nat_shr512 x h
  have hd := Nat.div_add_mod (UInt.nat x) (2 ^ (k + 1))
  have hml := Nat.mod_lt (UInt.nat x) (Nat.two_pow_pos (k + 1))
  refine sticky_core hml hd ?_
  unfold shrSticky
  rw [hw]
  dsimp only
  rw [wideningShr_rem x k h, or_low, hq]
  congr 3
  simp

theorem pow_split {a b c : ℕ} (h : a + b = c) : 2 ^ a * 2 ^ b = 2 ^ c := by
  rw [← Nat.pow_add, h]

theorem nearest_range {X s d : ℕ} (hd : 0 < d) (h1 : 2 ^ 254 * d ≤ X) (h2 : X < 2 ^ 255 * d)
    (hn : Spec.NearestEven X d s) : 2 ^ 254 ≤ s ∧ s ≤ 2 ^ 255 := by
  obtain ⟨l, u, -⟩ := hn
  constructor
  · by_contra hc
    have h3 : s * d ≤ (2 ^ 254 - 1) * d := Nat.mul_le_mul_right _ (by omega)
    have h4 : (2 ^ 254 - 1) * d + d = 2 ^ 254 * d := by
      rw [← Nat.succ_mul]
      congr 1
    omega
  · by_contra hc
    have h3 : (2 ^ 255 + 1) * d ≤ s * d := Nat.mul_le_mul_right _ (by omega)
    rw [Nat.add_mul, Nat.one_mul] at h3
    omega

theorem fmaSub_big {D : U512} {X k : ℕ} (hDX : UInt.nat D = X) (hk : k ≤ 510) (k1 : 2 ^ k ≤ X) (k2 : X < 2 ^ (k + 1))
    (hc : 254 ≤ k) : nat256 (UInt.roundingDivPow2 D (k - 254)).lo = Spec.rne X (2 ^ (k - 254)) ∧
      2 ^ 254 ≤ Spec.rne X (2 ^ (k - 254)) ∧ Spec.rne X (2 ^ (k - 254)) ≤ 2 ^ 255 := by
  have hr : UInt.nat (UInt.roundingDivPow2 D (k - 254)) = Spec.rne X (2 ^ (k - 254)) := by
    rw [← hDX]
    exact UInt.nat_roundingDivPow2 D (k - 254) (by
      show k - 254 < 512
      clear k1 k2 hDX
      omega)
  have hp := Nat.two_pow_pos (k - 254)
  have hn := rne_nearest X hp
  have hrg := nearest_range hp (by
    rw [pow_split (c := k) (by clear k1 k2 hDX hr; omega)]; exact k1) (by
    rw [pow_split (c := k + 1) (by clear k1 k2 hDX hr; omega)]; exact k2) hn
  refine ⟨?_, hrg⟩
  rw [← hr]
  refine FP492.lo_of_lt ?_
  rw [hr]
  exact lt_of_le_of_lt hrg.2 (Nat.pow_lt_pow_right (by norm_num) (by norm_num))

theorem fmaSub_small {D : U512} {X k : ℕ} (hDX : UInt.nat D = X) (k1 : 2 ^ k ≤ X) (k2 : X < 2 ^ (k + 1))
    (hc : k < 254) : nat256 (UInt.shl D.lo (254 - k)) = X * 2 ^ (254 - k) ∧
      2 ^ 254 ≤ X * 2 ^ (254 - k) ∧ X * 2 ^ (254 - k) ≤ 2 ^ 255 := by
  have hlo : nat256 D.lo = X := by
    rw [← hDX]
    refine FP492.lo_of_lt ?_
    rw [hDX]
    exact lt_of_lt_of_le k2 (Nat.pow_le_pow_right (by norm_num) (by clear k1 k2 hDX; omega))
  have hle : X * 2 ^ (254 - k) ≤ 2 ^ 255 := by
    rw [← pow_split (a := k + 1) (b := 254 - k) (c := 255) (by clear k1 k2 hDX hlo; omega)]
    exact Nat.mul_le_mul_right _ k2.le
  refine ⟨?_, ?_, hle⟩
  · rw [nat_shl256_of_lt _ (by clear k1 k2 hDX hlo hle; omega), hlo]
    rw [hlo]
    exact lt_of_le_of_lt hle (Nat.pow_lt_pow_right (by norm_num) (by norm_num))
  · rw [← pow_split (a := k) (b := 254 - k) (c := 254) (by clear k1 k2 hDX hlo hle; omega)]
    exact Nat.mul_le_mul_right _ k1

theorem fmaSub_eq {T S D : U512} (sg e : ℤ) {k : ℕ} (hD : UInt.sub T S = some D)
    (hk : u32Sub (UInt.leadingZeros D) 1 = k) : fmaSub sg e T S =
      if k ≤ 256 then some ⟨sg, e - (k : ℤ), (UInt.roundingDivPow2 D (256 - k)).lo⟩
      else if k ≤ 510 then some ⟨sg, e - (k : ℤ), UInt.shl D.lo (k - 256)⟩
      else some ZERO := by
  unfold fmaSub
  rw [hD, Option.bind_eq_bind, Option.bind_some, hk]
  clear hk hD
  rfl

theorem fmaSub_spec {T S : U512} (sg e : ℤ) {X : ℕ} (hX : UInt.nat T = UInt.nat S + X) (hlt : X < 2 ^ 511) :
    (X = 0 ∧ fmaSub sg e T S = some ZERO) ∨ ∃ k s, k ≤ 510 ∧ 2 ^ k ≤ X ∧ X < 2 ^ (k + 1) ∧
      fmaSub sg e T S = some ⟨sg, e - (510 - k : ℕ), s⟩ ∧ 2 ^ 254 ≤ nat256 s ∧ nat256 s ≤ 2 ^ 255 ∧
      (k ≤ 254 → nat256 s = X * 2 ^ (254 - k)) ∧ (254 ≤ k → Spec.NearestEven X (2 ^ (k - 254)) (nat256 s)) := by
  obtain ⟨D, hD, hDn⟩ := UInt.sub_some (x := T) (y := S) (by rw [hX]; exact Nat.le_add_right _ _)
  have hDX : UInt.nat D = X := by rw [hDn, hX, Nat.add_sub_cancel_left]
  clear hX hDn
  by_cases h0 : X = 0
  · left
    refine ⟨h0, ?_⟩
    have hl : UInt.leadingZeros D = 512 := by
      have := UInt.leadingZeros_eq D
      rw [if_pos (hDX.trans h0)] at this
      exact this
    have hs : u32Sub (UInt.leadingZeros D) 1 = 511 := by
      rw [hl, u32Sub_eq (by norm_num) (by norm_num)]
    rw [fmaSub_eq sg e hD hs, if_neg (by norm_num), if_neg (by norm_num)]
  · right
    obtain ⟨k, hk, k1, k2⟩ := exists_log h0 hlt
    have hl := lz512_of (z := D) (k := k) (by rw [hDX]; exact k1) (by rw [hDX]; exact k2)
    have hk' : k ≤ 510 := by clear k1 k2 hlt hl; omega
    have hs : u32Sub (UInt.leadingZeros D) 1 = 510 - k := by
      rw [hl, u32Sub_eq (by clear k1 k2 hlt hl; omega) (by clear k1 k2 hlt hl; omega)]
      clear k1 k2 hlt hl
      omega
    rw [fmaSub_eq sg e hD hs]
    clear hs hl hlt hD
    by_cases hc : 254 ≤ k
    · have e1 : 256 - (510 - k) = k - 254 := by clear k1 k2; omega
      obtain ⟨h1, h2, h3⟩ := fmaSub_big hDX hk' k1 k2 hc
      rw [if_pos (by clear k1 k2 h1 h2 h3; omega), e1]
      refine ⟨k, _, hk', k1, k2, rfl, ?_, ?_, ?_, ?_⟩
      · rw [h1]; exact h2
      · rw [h1]; exact h3
      · intro hk4
        have : k = 254 := le_antisymm hk4 hc
        rw [h1, this, Nat.sub_self, pow_zero, mul_one]
        simp [Spec.rne, Nat.mod_one]
      · intro _
        rw [h1]; exact rne_nearest X (Nat.two_pow_pos _)
    · obtain ⟨h1, h2, h3⟩ := fmaSub_small hDX k1 k2 (not_le.mp hc)
      rw [if_neg (by clear k1 k2 h1 h2 h3; omega), if_pos (by clear k1 k2 h1 h2 h3; omega)]
      have e1 : 510 - k - 256 = 254 - k := by clear k1 k2 h1 h2 h3; omega
      rw [e1]
      refine ⟨k, _, hk', k1, k2, rfl, ?_, ?_, ?_, ?_⟩
      · rw [h1]; exact h2
      · rw [h1]; exact h3
      · intro _; exact h1
      · intro h; exact absurd h hc

theorem TIE_nat : nat256 TIE = 2 ^ 255 := by decide

theorem fmaAdd_core0 {h l X r : ℕ} (hX : h * 2 ^ 256 + l = X) (hl : l < 2 ^ 256)
    (hr : r = 0 ∧ l ≤ 2 ^ 255 ∨ r = 1 ∧ 2 ^ 255 ≤ l) :
    (h + r) * 2 ^ 256 ≤ X + 2 ^ 255 ∧ X ≤ (h + r) * 2 ^ 256 + 2 ^ 255 := by
  omega

theorem fmaAdd_core1 {h h' l X r : ℕ} (hX : h * 2 ^ 256 + l = X) (hh : h' = h / 2) (hl : l < 2 ^ 256)
    (hr : r = 0 ∧ (h % 2 = 0 ∧ l ≤ 2 ^ 255 ∨ h % 2 = 1 ∧ l = 0) ∨ r = 1 ∧ (h % 2 = 1 ∨ 2 ^ 255 ≤ l)) :
    (h' + r) * 2 ^ 257 ≤ X + 3 * 2 ^ 255 ∧ X ≤ (h' + r) * 2 ^ 257 + 3 * 2 ^ 255 := by
  omega

/-- The shift after the rounding. -/
theorem fmaAdd_shift {v : U256} {n : ℕ} (hv : nat256 v = n) (h1 : 2 ^ 254 ≤ n) (h2 : n ≤ 2 ^ 255) :
    ∃ a : ℕ, a ≤ 1 ∧ (if UInt.leadingZeros v = 0 then 1 else 0) = a ∧ nat256 (UInt.shr v a) * 2 ^ a = n ∧
      2 ^ 254 ≤ nat256 (UInt.shr v a) ∧ nat256 (UInt.shr v a) < 2 ^ 255 := by
  rcases Nat.lt_or_ge n (2 ^ 255) with h | h
  · have hl := lz256_of (z := v) (k := 254) (by rw [hv]; exact h1) (by rw [hv]; exact h)
    refine ⟨0, by norm_num, by rw [hl]; rfl, ?_, ?_, ?_⟩ <;> rw [nat_shr256 _ (by norm_num), hv, pow_zero, Nat.div_one]
    · rw [mul_one]
    · exact h1
    · exact h
  · have hn : n = 2 ^ 255 := le_antisymm h2 h
    have hl := lz256_of (z := v) (k := 255) (by rw [hv]; exact h) (by
      rw [hv, hn]; exact Nat.pow_lt_pow_right (by norm_num) (by norm_num))
    refine ⟨1, by norm_num, by rw [hl]; rfl, ?_, ?_, ?_⟩ <;> rw [nat_shr256 _ (by norm_num), hv, hn]
    all_goals norm_num

theorem fmaAdd_hi {D : U512} {X : ℕ} (hDX : UInt.nat D = X) (hge : 2 ^ 510 ≤ X) :
    (UInt.leadingZeros D = 1 ∧ 2 ^ 254 ≤ nat256 D.hi ∧ nat256 D.hi < 2 ^ 255) ∨
    (UInt.leadingZeros D = 0 ∧ 2 ^ 255 ≤ nat256 D.hi) := by
  have hh := nat512_hi D
  rw [hDX] at hh
  rcases Nat.lt_or_ge X (2 ^ 511) with h | h
  · left
    refine ⟨lz512_of (z := D) (k := 510) (by rw [hDX]; exact hge) (by rw [hDX]; exact h), ?_, ?_⟩ <;> omega
  · right
    have hX : X < 2 ^ 512 := by rw [← hDX]; exact nat512_lt D
    refine ⟨lz512_of (z := D) (k := 511) (by rw [hDX]; exact h) (by rw [hDX]; exact hX), ?_⟩
    omega

theorem fmaAdd_eq {T S D : U512} (sg e : ℤ) {sh a : ℕ} {r : Bool} (hD : UInt.add T S = some D)
    (hs : (if UInt.leadingZeros D = 0 then 1 else 0) = sh)
    (hr : (decide (D.hi.lo &&& BitVec.ofNat 128 sh = 1#128) && (!BigUInt.beq D.lo UInt.zero ||
      (BigUInt.beq D.lo UInt.zero && BigUInt.isOdd (UInt.shr D.hi sh))) ||
      (BigUInt.gt D.lo TIE || (BigUInt.beq D.lo TIE && BigUInt.isOdd (UInt.shr D.hi sh)))) = r)
    (ha : (if UInt.leadingZeros (BigUInt.incrIf (UInt.shr D.hi sh) r) = 0 then 1 else 0) = a) :
    fmaAdd sg e T S = some ⟨sg, e + (sh : ℤ) + (a : ℤ), UInt.shr (BigUInt.incrIf (UInt.shr D.hi sh) r) a⟩ := by
  unfold fmaAdd
  rw [hD, Option.bind_eq_bind, Option.bind_some]
  dsimp only
  rw [hs, hr, ha]
  rfl

theorem gt256 (x y : U256) : BigUInt.gt x y = decide (nat256 y < nat256 x) := gt_eq (α := U256) x y
theorem ge512 (x y : U512) : BigUInt.ge x y = decide (UInt.nat y ≤ UInt.nat x) := ge_eq (α := U512) x y
theorem beq256 (x y : U256) : BigUInt.beq x y = decide (nat256 x = nat256 y) := LawfulBigUInt.beq_eq (α := U256) x y
theorem isOdd256 (x : U256) : BigUInt.isOdd x = decide (nat256 x % 2 = 1) := LawfulBigUInt.isOdd_eq (α := U256) x
theorem zero256 : nat256 (UInt.zero : U256) = 0 := by decide

theorem rnd_core (h l : ℕ) (o : Bool) :
    (decide (h % 2 = 1) && (!decide (l = 0) || decide (l = 0) && o) ||
      (decide (2 ^ 255 < l) || decide (l = 2 ^ 255) && o)).toNat = 0 ∧
        (h % 2 = 0 ∧ l ≤ 2 ^ 255 ∨ h % 2 = 1 ∧ l = 0) ∨
    (decide (h % 2 = 1) && (!decide (l = 0) || decide (l = 0) && o) ||
      (decide (2 ^ 255 < l) || decide (l = 2 ^ 255) && o)).toNat = 1 ∧ (h % 2 = 1 ∨ 2 ^ 255 ≤ l) := by
  rcases Nat.mod_two_eq_zero_or_one h with h | h <;> rw [h]
  · rcases Nat.lt_trichotomy l (2 ^ 255) with hh | hh | hh
    · left
      refine ⟨?_, Or.inl ⟨rfl, hh.le⟩⟩
      rw [decide_eq_false hh.ne, decide_eq_false hh.not_gt]
      rfl
    · rw [hh]
      cases o
      · left; exact ⟨by decide, Or.inl ⟨rfl, le_refl _⟩⟩
      · right; exact ⟨by decide, Or.inr (le_refl _)⟩
    · right
      refine ⟨?_, Or.inr hh.le⟩
      rw [decide_eq_true hh]
      simp
  · rcases Nat.eq_zero_or_pos l with hh | hh
    · rw [hh]
      cases o
      · left; exact ⟨by decide, Or.inr ⟨rfl, rfl⟩⟩
      · right; exact ⟨by decide, Or.inl rfl⟩
    · right
      refine ⟨?_, Or.inl rfl⟩
      rw [decide_eq_false hh.ne']
      simp

theorem fmaAdd_tail {sg e : ℤ} {T S D : U512} {X sh : ℕ} {r : Bool} (hD : UInt.add T S = some D)
    (hs : (if UInt.leadingZeros D = 0 then 1 else 0) = sh) (hsh : sh ≤ 1)
    (hr : (decide (D.hi.lo &&& BitVec.ofNat 128 sh = 1#128) && (!BigUInt.beq D.lo UInt.zero ||
      (BigUInt.beq D.lo UInt.zero && BigUInt.isOdd (UInt.shr D.hi sh))) ||
      (BigUInt.gt D.lo TIE || (BigUInt.beq D.lo TIE && BigUInt.isOdd (UInt.shr D.hi sh)))) = r)
    (h1 : 2 ^ 254 ≤ nat256 (UInt.shr D.hi sh)) (h2 : nat256 (UInt.shr D.hi sh) < 2 ^ 255)
    (he0 : sh = 0 → (nat256 (UInt.shr D.hi sh) + r.toNat) * 2 ^ (256 + sh) ≤ X + 2 ^ 255 ∧
      X ≤ (nat256 (UInt.shr D.hi sh) + r.toNat) * 2 ^ (256 + sh) + 2 ^ 255)
    (he : (nat256 (UInt.shr D.hi sh) + r.toNat) * 2 ^ (256 + sh) ≤ X + 3 * 2 ^ 255 ∧
      X ≤ (nat256 (UInt.shr D.hi sh) + r.toNat) * 2 ^ (256 + sh) + 3 * 2 ^ 255) :
    ∃ (c : ℕ) (s : U256), fmaAdd sg e T S = some ⟨sg, e + c, s⟩ ∧ 2 ^ 254 ≤ nat256 s ∧ nat256 s < 2 ^ 255 ∧ c ≤ 2 ∧
      (c = 0 → nat256 s * 2 ^ 256 ≤ X + 2 ^ 255 ∧ X ≤ nat256 s * 2 ^ 256 + 2 ^ 255) ∧
      nat256 s * 2 ^ (256 + c) ≤ X + 3 * 2 ^ 255 ∧ X ≤ nat256 s * 2 ^ (256 + c) + 3 * 2 ^ 255 := by
  have hb : r.toNat ≤ 1 := by cases r <;> decide
  have hv : nat256 (BigUInt.incrIf (UInt.shr D.hi sh) r) = nat256 (UInt.shr D.hi sh) + r.toNat := by
    rw [nat_incrIf256, Nat.mod_eq_of_lt]
    clear he he0 hr hs
    omega
  obtain ⟨a, ha, ha', h3, h4, h5⟩ := fmaAdd_shift hv (le_trans h1 (Nat.le_add_right _ _)) (by
    clear he he0 hr hs; omega)
  have hp : ∀ c, c = sh + a → nat256 (UInt.shr (BigUInt.incrIf (UInt.shr D.hi sh) r) a) * 2 ^ (256 + c) =
      (nat256 (UInt.shr D.hi sh) + r.toNat) * 2 ^ (256 + sh) := by
    intro c hc
    rw [← h3, hc, ← Nat.add_assoc, Nat.pow_add 2 (256 + sh) a, Nat.mul_assoc, Nat.mul_comm (2 ^ a)]
  refine ⟨sh + a, _, ?_, h4, h5, Nat.add_le_add hsh ha, ?_, ?_⟩
  · rw [fmaAdd_eq sg e hD hs hr ha', Nat.cast_add, add_assoc]
  · intro hc
    have e0 := hp 0 hc.symm
    rw [Nat.add_zero] at e0
    rw [e0]
    exact he0 (Nat.eq_zero_of_add_eq_zero hc).1
  · rw [hp _ rfl]
    exact he

theorem fmaAdd_spec {T S : U512} (sg e : ℤ) {X : ℕ} (hX : UInt.nat T + UInt.nat S = X) (hlt : X < 2 ^ 512)
    (hge : 2 ^ 510 ≤ X) :
    ∃ (c : ℕ) (s : U256), fmaAdd sg e T S = some ⟨sg, e + c, s⟩ ∧ 2 ^ 254 ≤ nat256 s ∧ nat256 s < 2 ^ 255 ∧ c ≤ 2 ∧
      (c = 0 → nat256 s * 2 ^ 256 ≤ X + 2 ^ 255 ∧ X ≤ nat256 s * 2 ^ 256 + 2 ^ 255) ∧
      nat256 s * 2 ^ (256 + c) ≤ X + 3 * 2 ^ 255 ∧ X ≤ nat256 s * 2 ^ (256 + c) + 3 * 2 ^ 255 := by
  obtain ⟨D, hD, hDn⟩ := UInt.add_some (x := T) (y := S) (by rw [hX]; exact hlt)
  have hDX : UInt.nat D = X := hDn.trans hX
  clear hX hDn
  have hcat := (nat512 D).symm.trans hDX
  have hlo := nat256_lt D.lo
  rcases fmaAdd_hi hDX hge with ⟨hl, g1, g2⟩ | ⟨hl, g1⟩
  · have hs : (if UInt.leadingZeros D = 0 then 1 else 0) = 0 := by rw [hl]; rfl
    have hn : nat256 (UInt.shr D.hi 0) = nat256 D.hi := by
      rw [nat_shr256 _ (by norm_num), pow_zero, Nat.div_one]
    have hr : (decide (D.hi.lo &&& BitVec.ofNat 128 0 = 1#128) && (!BigUInt.beq D.lo UInt.zero ||
      (BigUInt.beq D.lo UInt.zero && BigUInt.isOdd (UInt.shr D.hi 0))) ||
      (BigUInt.gt D.lo TIE || (BigUInt.beq D.lo TIE && BigUInt.isOdd (UInt.shr D.hi 0)))) =
      decide (2 ^ 255 < nat256 D.lo ∨ nat256 D.lo = 2 ^ 255 ∧ nat256 D.hi % 2 = 1) := by
      have : (D.hi.lo &&& BitVec.ofNat 128 0 = 1#128) = False := by
        rw [show BitVec.ofNat 128 0 = 0#128 from rfl, BitVec.and_zero, eq_iff_iff, iff_false]
        decide
      rw [gt256, beq256 D.lo TIE, isOdd256, hn, TIE_nat, decide_eq_false (of_eq_false this)]
      simp only [Bool.false_and, Bool.false_or, ← Bool.decide_and, ← Bool.decide_or]
    have hk : decide (2 ^ 255 < nat256 D.lo ∨ nat256 D.lo = 2 ^ 255 ∧ nat256 D.hi % 2 = 1) = true →
        2 ^ 255 ≤ nat256 D.lo := fun h => by
      rcases of_decide_eq_true h with h | ⟨h, -⟩
      · exact h.le
      · exact h.ge
    have hk' : decide (2 ^ 255 < nat256 D.lo ∨ nat256 D.lo = 2 ^ 255 ∧ nat256 D.hi % 2 = 1) = false →
        nat256 D.lo ≤ 2 ^ 255 := fun h => not_lt.mp fun hc => of_decide_eq_false h (Or.inl hc)
    generalize decide (2 ^ 255 < nat256 D.lo ∨ nat256 D.lo = 2 ^ 255 ∧ nat256 D.hi % 2 = 1) = r at *
    have hc := fmaAdd_core0 (r := r.toNat) hcat hlo (by
      cases r
      · exact Or.inl ⟨rfl, hk' rfl⟩
      · exact Or.inr ⟨rfl, hk rfl⟩)
    refine fmaAdd_tail hD hs (by norm_num) hr (by rw [hn]; exact g1) (by rw [hn]; exact g2) ?_ ?_
    · intro _
      rw [hn]
      exact hc
    · rw [hn]
      exact ⟨hc.1.trans (Nat.add_le_add_left (Nat.le_mul_of_pos_left _ (by norm_num)) _),
        hc.2.trans (Nat.add_le_add_left (Nat.le_mul_of_pos_left _ (by norm_num)) _)⟩
  · have hs : (if UInt.leadingZeros D = 0 then 1 else 0) = 1 := by rw [hl]; rfl
    have hn : nat256 (UInt.shr D.hi 1) = nat256 D.hi / 2 := by
      rw [nat_shr256 _ (by norm_num), pow_one]
    obtain ⟨r, hr⟩ : ∃ r, (decide (D.hi.lo &&& BitVec.ofNat 128 1 = 1#128) && (!BigUInt.beq D.lo UInt.zero ||
      (BigUInt.beq D.lo UInt.zero && BigUInt.isOdd (UInt.shr D.hi 1))) ||
      (BigUInt.gt D.lo TIE || (BigUInt.beq D.lo TIE && BigUInt.isOdd (UInt.shr D.hi 1)))) = r := ⟨_, rfl⟩
    have hb : (D.hi.lo &&& BitVec.ofNat 128 1 = 1#128) ↔ nat256 D.hi % 2 = 1 := by
      rw [← lo_and_1, BitVec.toNat_eq]
      rfl
    have hr' := hr
    rw [gt256, beq256 D.lo TIE, beq256 D.lo UInt.zero, zero256, isOdd256, TIE_nat, decide_eq_decide.mpr hb] at hr'
    have hc := fmaAdd_core1 (r := r.toNat) (h' := nat256 (UInt.shr D.hi 1)) hcat hn hlo (by
      rw [← hr']
      exact rnd_core _ _ _)
    have hhi := nat256_lt D.hi
    refine fmaAdd_tail hD hs (by norm_num) hr ?_ ?_ ?_ hc
    · rw [hn]
      clear hr' hr hn hs hl hcat hDX hD hlt hge hb hc hlo
      omega
    · rw [hn]
      clear hr' hr hn hs hl hcat hDX hD hlt hge hb hc hlo
      omega
    · intro h; exact absurd h (by norm_num)

end Verif.BigFloat
