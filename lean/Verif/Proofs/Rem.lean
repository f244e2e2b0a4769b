import Verif.Model.Rem
import Verif.Proofs.Div
import Verif.Proofs.Codec

/-!
# Remainder of finite non-zero numbers
-/

namespace Verif

open BigUInt LawfulBigUInt

namespace UInt

section
variable {α : Type} [BigUInt α] [LawfulBigUInt α]

/-- The full division also returns if the top bit of the dividend is set, provided the estimate
multiplied by the divisor does not overflow. -/
theorem divRem_total_top (hα : ∀ a b : α, toNat b ≠ 0 → DivExact a b) [LawfulDiv α]
    (x y : UInt α) (hy2 : 2 ≤ toNat y.hi) (hyt : nat y < 2 ^ (2 * BITS α - 1))
    (hx : 2 ^ (2 * BITS α - 1) ≤ nat x)
    (hov : nat x + toNat x.hi / toNat y.hi * 2 ^ BITS α < 2 ^ (2 * BITS α)) :
    ∃ q r, divRem x y = some (q, r) := by
  have hbge := bits_ge (α := α)
  have hxn : nat x = toNat x.hi * 2 ^ BITS α + toNat x.lo := rfl
  have hyn : nat y = toNat y.hi * 2 ^ BITS α + toNat y.lo := rfl
  have hxl := toNat_lt x.lo
  have hyl := toNat_lt y.lo
  have hN : 2 ^ (2 * BITS α) = 2 * 2 ^ (2 * BITS α - 1) := by
    rw [Nat.mul_comm 2 (2 ^ _), ← Nat.pow_succ]; congr 1; omega
  have hN2 : 2 ^ (2 * BITS α - 1) = 2 ^ (BITS α - 1) * 2 ^ BITS α := by
    rw [← Nat.pow_add]; congr 1; omega
  have hxhi : 2 ^ (BITS α - 1) ≤ toNat x.hi := by
    by_contra hlt
    have h1 := Nat.mul_le_mul_right (2 ^ BITS α) (Nat.succ_le_of_lt (Nat.lt_of_not_le hlt))
    rw [Nat.succ_mul] at h1
    omega
  have hpos : 0 < 2 ^ (BITS α - 1) := Nat.two_pow_pos _
  have hx0 : toNat x.hi ≠ 0 := by omega
  have hle : toNat y.hi ≤ toNat x.hi := by
    by_contra hlt
    have h1 := Nat.mul_le_mul_right (2 ^ BITS α) (Nat.succ_le_of_lt (Nat.lt_of_not_le hlt))
    rw [Nat.succ_mul] at h1
    omega
  have hy0 : nat y ≠ 0 := by
    have := Nat.mul_le_mul_right (2 ^ BITS α) hy2
    have := Nat.two_pow_pos (BITS α)
    omega
  obtain ⟨s, xh, yh, hsb, hs, hxh, hyh, -, heq⟩ :=
    divRemFuel_big (2 * BITS α + 1) x y (by omega) hle
  have hs0 : s = 0 := by
    rw [hs, LawfulBigUInt.leadingZeros_eq, if_neg hx0]
    have : BITS α - 1 ≤ (toNat x.hi).log2 := by
      rw [Nat.le_log2 hx0]; exact hxhi
    omega
  rw [hs0, Nat.pow_zero, Nat.mul_one] at hxh hyh
  have hxh' : toNat xh = toNat x.hi := by rw [hxh, nat, base_div hxl]
  have hyh' : toNat yh = toNat y.hi := by rw [hyh, nat, base_div hyl]
  show ∃ q r, divRemFuel (2 * BITS α + 1 + 1) x y = some (q, r)
  rw [heq, hα xh yh (by omega)]
  simp only [Option.bind_some]
  have hqe := nat_ofLo (LawfulBigUInt.ofNat (toNat xh / toNat yh) : α)
  rw [ofNat_div_le] at hqe
  have hest : nat x / nat y ≤ toNat xh / toNat yh := by
    have h := (estimate (X := nat x) (Y := nat y) (S := 1) (Nat.two_pow_pos (BITS α)) one_pos (by
      rw [Nat.mul_one, ← hyh]; omega)).1
    rwa [Nat.mul_one, Nat.mul_one, ← hxh, ← hyh] at h
  rw [← hxh', ← hyh'] at hov
  have hqb : toNat xh / toNat yh * toNat y.hi ≤ toNat x.hi := by
    rw [← hyh', ← hxh']; exact Nat.div_mul_le_self _ _
  have hq2 : 2 * (toNat xh / toNat yh) ≤ toNat x.hi := by
    have h2 := Nat.mul_le_mul_left (toNat xh / toNat yh) hy2
    omega
  generalize toNat xh / toNat yh = qeN at *
  generalize (⟨ZERO, LawfulBigUInt.ofNat qeN⟩ : UInt α) = qe at *
  have hover : nat y * nat qe ≤ nat x + qeN * 2 ^ BITS α := by
    rw [hqe, hyn, hxn]
    have h1 := Nat.mul_le_mul_right (2 ^ BITS α) hqb
    have h2 := Nat.mul_le_mul_left qeN hyl.le
    have h3 : (toNat y.hi * 2 ^ BITS α + toNat y.lo) * qeN =
      qeN * toNat y.hi * 2 ^ BITS α + qeN * toNat y.lo := by ring
    omega
  have hq3 : 2 * (qeN * 2 ^ BITS α) ≤ nat x := by
    have := Nat.mul_le_mul_right (2 ^ BITS α) hq2
    rw [Nat.mul_assoc] at this
    omega
  obtain ⟨t, ht, htN⟩ := mul_some (x := y) (y := qe) (by omega)
  rw [ht]
  rw [← htN] at hover
  have hxlt := nat_lt x
  have hge : nat x < nat t + nat y := by
    have h1 := Nat.lt_mul_div_succ (nat x) (Nat.pos_of_ne_zero hy0)
    have h2 : nat y * (nat x / nat y + 1) ≤ nat y * (nat qe + 1) :=
      Nat.mul_le_mul_left _ (by omega)
    rw [Nat.mul_add, Nat.mul_one, Nat.mul_add, Nat.mul_one] at h2
    rw [Nat.mul_add, Nat.mul_one] at h1
    omega
  simp only [Option.bind_some, cmp_eq]
  rcases lt_trichotomy (nat t) (nat x) with hc | hc | hc
  · rw [Nat.compare_eq_lt.2 hc]
    simp only
    obtain ⟨d, hd, hdN⟩ := sub_some (x := x) (y := t) hc.le
    rw [hd]
    split
    · have hdt : nat d < 2 ^ (2 * BITS α - 1) := by omega
      have hlt2 : (2 : ℕ) ^ (2 * BITS α - 1) ≤ 2 ^ (2 * BITS α) :=
        Nat.pow_le_pow_right (by norm_num) (by omega)
      obtain ⟨n, nr, hn⟩ := divRemFuel_total hα (2 * BITS α) d y hy0 (by omega) hdt
      obtain ⟨p1, p2, _⟩ := divRemFuel_partial hα _ _ _ _ _ hy0 hn
      have hn0 : nat n = 0 := by
        by_contra hne
        have := Nat.mul_le_mul_right (nat y) (Nat.one_le_iff_ne_zero.mpr hne)
        omega
      rw [Option.bind_some, hn]
      obtain ⟨q', hq, hqN⟩ := add_some (x := qe) (y := n) (by have := nat_lt qe; omega)
      obtain ⟨d2, hd2, hd2N⟩ := mul_some (x := y) (y := n) (by
        rw [hn0, Nat.mul_zero]; exact Nat.two_pow_pos _)
      rw [hn0, Nat.mul_zero] at hd2N
      obtain ⟨t2, ht2, ht2N⟩ := add_some (x := t) (y := d2) (by omega)
      obtain ⟨r2, hr2, hr2N⟩ := sub_some (x := x) (y := t2) (by omega)
      simp only [hq, hd2, ht2, hr2, Option.bind_some]
      exact ⟨_, _, rfl⟩
    · exact ⟨_, _, rfl⟩
  · rw [Nat.compare_eq_eq.2 hc]
    exact ⟨_, _, rfl⟩
  · rw [Nat.compare_eq_gt.2 hc]
    simp only
    obtain ⟨d, hd, hdN⟩ := sub_some (x := t) (y := x) hc.le
    have hdt : nat d < 2 ^ (2 * BITS α - 1) := by omega
    have hlt2 : (2 : ℕ) ^ (2 * BITS α - 1) ≤ 2 ^ (2 * BITS α) :=
      Nat.pow_le_pow_right (by norm_num) (by omega)
    obtain ⟨n, nr, hn⟩ := divRemFuel_total hα (2 * BITS α) d y hy0 (by omega) hdt
    rw [hd, Option.bind_some, hn, Option.bind_some]
    obtain ⟨p1, p2, _⟩ := divRemFuel_partial hα _ _ _ _ _ hy0 hn
    have hypos := Nat.pos_of_ne_zero hy0
    have hnq : nat n < nat qe := by
      have h2 : nat qe * nat y = nat t := by rw [htN, Nat.mul_comm]
      exact Nat.lt_of_mul_lt_mul_right (a := nat y) (by omega)
    have hinc : nat (incr n) = nat n + 1 := by
      rw [nat_incr, Nat.mod_eq_of_lt]
      have := nat_lt qe; omega
    have hm : nat y * (nat n + 1) = nat n * nat y + nat y := by ring
    have hm2 : nat y * (nat n + 1) ≤ nat t := by
      rw [htN]; exact Nat.mul_le_mul_left _ hnq
    obtain ⟨q', hq, hqN⟩ := sub_some (x := qe) (y := incr n) (by omega)
    obtain ⟨d2, hd2, hd2N⟩ := mul_some (x := y) (y := incr n) (by
      rw [hinc]; have := nat_lt t; omega)
    rw [hinc] at hd2N
    obtain ⟨t2, ht2, ht2N⟩ := sub_some (x := t) (y := d2) (by omega)
    obtain ⟨r2, hr2, hr2N⟩ := sub_some (x := x) (y := t2) (by omega)
    simp only [hq, hd2, ht2, hr2, Option.bind_some]
    exact ⟨_, _, rfl⟩

end
end UInt

theorem u128_exact (a b : U128) (h : LawfulBigUInt.toNat b ≠ 0) : DivExact a b :=
  U128.divRem_exact a b h

/-- Divisors for which the 256-bit division never leaves a remainder equal to the divisor. -/
def GoodDivisor (y : U256) : Prop := y.hi.toNat = 0 ∨ 2 ^ 64 ≤ y.hi.toNat

theorem GoodDivisor.sq {y : U256} (h : GoodDivisor y) :
    y.hi.toNat = 0 ∨ 2 ^ 128 ≤ y.hi.toNat * y.hi.toNat := by
  rcases h with h | h
  · exact Or.inl h
  · right
    calc 2 ^ 128 = 2 ^ 64 * 2 ^ 64 := by norm_num
      _ ≤ _ := Nat.mul_le_mul h h

theorem divExact256 {x y : U256} (hy : nat256 y ≠ 0) (hg : GoodDivisor y) {p : U256 × U256}
    (h : BigUInt.divRem x y = some p) : DivExact x y :=
  UInt.divRem_exact u128_exact (q := p.1) (r := p.2) h hy (Or.inr hg.sq)

theorem rem512 {t : U512} {y : U256} (hy : nat256 y ≠ 0) (hg : GoodDivisor y)
    (hhi : nat256 t.hi < 2 ^ 255) (hlo : nat256 t.hi = 0 → DivExact t.lo y) :
    ∃ q r, UInt.divRemSub t y = some (q, r) ∧ nat256 r = UInt.nat t % nat256 y := by
  refine ⟨_, _, UInt.divRemSub_spec t y hy hlo (fun _ => ?_), ?_⟩
  · obtain ⟨q, r, h⟩ := UInt.divRem_total u128_exact t.hi y hy hhi
    exact divExact256 hy hg h
  · show toNat (LawfulBigUInt.ofNat (α := U256) (UInt.nat t % nat256 y)) = _
    rw [toNat_ofNat]
    exact Nat.mod_eq_of_lt (lt_trans (Nat.mod_lt _ (Nat.pos_of_ne_zero hy)) (nat256_lt y))

/-- If the remainder is computed at all then the low-half division was exact. -/
theorem rem512_partial {t : U512} {y : U256} (hy : nat256 y ≠ 0) (hg : GoodDivisor y)
    (hhi : nat256 t.hi < 2 ^ 255) {p : U512 × U256} (h : UInt.divRemSub t y = some p) :
    nat256 p.2 = UInt.nat t % nat256 y := by
  have hlo : nat256 t.hi = 0 → DivExact t.lo y := by
    intro h0
    have hz : BigUInt.isZero t.hi = true := by
      rw [LawfulBigUInt.isZero_eq]; exact decide_eq_true h0
    rw [UInt.divRemSub, if_pos hz] at h
    cases hd : BigUInt.divRem t.lo y with
    | none => rw [hd] at h; simp at h
    | some q => exact divExact256 hy hg hd
  obtain ⟨q, r, h1, h2⟩ := rem512 hy hg hhi hlo
  rw [h1, Option.some.injEq] at h
  rw [← h]; exact h2

theorem nat_hi_lo (a b : U256) : UInt.nat (⟨a, b⟩ : U512) = nat256 a * 2 ^ 256 + nat256 b := rfl

theorem nat256_zero : nat256 UInt.zero = 0 := by decide

/-- The loop multiplies by `2^256` modulo the divisor. -/
theorem remLoop_spec {y : U256} (hy : nat256 y ≠ 0) (hg : GoodDivisor y) (hyl : nat256 y < 2 ^ 255)
    (n : ℕ) : ∀ z : U256, nat256 z < nat256 y → ∃ r, remLoop y n z = some r ∧
      nat256 r = nat256 z * 2 ^ (256 * n) % nat256 y := by
  induction n with
  | zero =>
    intro z hz
    exact ⟨z, rfl, by rw [Nat.mul_zero, Nat.pow_zero, Nat.mul_one, Nat.mod_eq_of_lt hz]⟩
  | succ n ih =>
    intro z hz
    have hn := nat_hi_lo z UInt.zero
    rw [nat256_zero, Nat.add_zero] at hn
    obtain ⟨q, r, h1, h2⟩ := rem512 (t := ⟨z, UInt.zero⟩) hy hg (by
      show nat256 z < _; omega) (fun _ => by
        obtain ⟨q, r, h⟩ := UInt.divRem_total u128_exact (UInt.zero : U256) y hy (by
          show nat256 UInt.zero < _; rw [nat256_zero]; exact Nat.two_pow_pos _)
        exact divExact256 hy hg h)
    rw [hn] at h2
    have e : nat256 z * 2 ^ (256 * (n + 1)) = nat256 z * 2 ^ 256 * 2 ^ (256 * n) := by
      have e0 : 256 * (n + 1) = 256 + 256 * n := by omega
      rw [e0, Nat.pow_add, Nat.mul_assoc]
    rw [remLoop, h1]
    simp only [Option.bind_some]
    rw [isZero256]
    by_cases h0 : nat256 r = 0
    · rw [if_pos (decide_eq_true h0)]
      refine ⟨r, rfl, ?_⟩
      rw [e, Nat.mul_mod, ← h2, h0, Nat.zero_mul, Nat.zero_mod]
    · rw [if_neg (by simpa using h0)]
      obtain ⟨r', h3, h4⟩ := ih r (by rw [h2]; exact Nat.mod_lt _ (Nat.pos_of_ne_zero hy))
      refine ⟨r', h3, ?_⟩
      rw [h4, e, h2, Nat.mod_mul_mod]

theorem remAssemble_spec (x : F256) {z : U256} {e : ℕ} (h0 : nat256 z ≠ 0) (hz : nat256 z < 2 ^ 237)
    (he : e ≤ 524286) : ∃ A, (remAssemble e z (signBitsHi x)).pat =
      Spec.signBit x.pat * 2 ^ 255 + A ∧ A < INF ∧ mag A = nat256 z * 2 ^ (e - 1) := by
  obtain ⟨l, hl⟩ : ∃ l, l = (nat256 z).log2 := ⟨_, rfl⟩
  have hl1 : 2 ^ l ≤ nat256 z := by rw [hl]; exact Nat.log2_self_le h0
  have hl2 : nat256 z < 2 ^ (l + 1) := by rw [hl]; exact Nat.lt_log2_self
  have hl3 : l < 237 := by rw [hl]; exact (Nat.log2_lt h0).2 hz
  obtain ⟨s, hs⟩ : ∃ s, s = Nat.min (236 - l) (e - 1) := ⟨_, rfl⟩
  have hs1 : s ≤ 236 - l := by rw [hs]; exact Nat.min_le_left _ _
  have hs2 : s ≤ e - 1 := by rw [hs]; exact Nat.min_le_right _ _
  have hs3 : s = 236 - l ∨ s = e - 1 := by
    rcases Nat.le_total (236 - l) (e - 1) with h | h
    · left; rw [hs]; exact Nat.min_eq_left h
    · right; rw [hs]; exact Nat.min_eq_right h
  have hb : nat256 z * 2 ^ s < 2 ^ 237 := by
    calc nat256 z * 2 ^ s < 2 ^ (l + 1) * 2 ^ s := Nat.mul_lt_mul_of_pos_right hl2 (Nat.two_pow_pos _)
      _ = 2 ^ (l + 1 + s) := (Nat.pow_add _ _ _).symm
      _ ≤ 2 ^ 237 := Nat.pow_le_pow_right (by norm_num) (by omega)
  have hsh := nat_shl256_of_lt z (n := s) (by omega) (lt_trans hb (by norm_num))
  have hp := pat_add_exp (UInt.shl z s) (e - s - 1) (by rw [hsh]; exact hb) (by omega)
  unfold remAssemble
  dsimp only
  rw [msb256 h0, ← hl, FRACTION_BITS, ← hs]
  have hin : (e - s - 1) * 2 ^ 236 + nat256 z * 2 ^ s < INF := by unfold INF; omega
  refine ⟨(e - s - 1) * 2 ^ 236 + nat256 z * 2 ^ s, ?_, hin, ?_⟩
  · rw [← hsh, ← hp]
    have hsg : (signBitsHi x).toNat = Spec.signBit x.pat * 2 ^ 127 := by
      rw [toNat_signBitsHi, Spec.signBit]
      have := pat_lt x
      congr 1; omega
    have := nat_or_sign (z := ⟨(UInt.shl z s).hi + BitVec.ofNat 128 (e - s - 1) <<< HI_FRACTION_BITS,
      (UInt.shl z s).lo⟩) (h := signBitsHi x) (s := Spec.signBit x.pat) (by
        have hp' : nat256 ⟨(UInt.shl z s).hi + BitVec.ofNat 128 (e - s - 1) <<< HI_FRACTION_BITS,
          (UInt.shl z s).lo⟩ = _ := hp
        rw [hp', hsh]; unfold INF at hin; omega) hsg
    rw [BitVec.or_comm]
    exact this
  · rw [mag_asm _ hb.le hin, Nat.mul_assoc, ← Nat.pow_add]
    · have e1 : s + (e - s - 1) = e - 1 := by omega
      rw [e1]
    · rcases hs3 with h | h
      · right
        calc 2 ^ 236 = 2 ^ l * 2 ^ s := by rw [← Nat.pow_add]; congr 1; omega
          _ ≤ _ := Nat.mul_le_mul_right _ hl1
      · left; omega

/-- The decoded significand and exponent of a finite absolute value, as naturals. -/
theorem decodedNat {A : U256} (h1 : nat256 A < INF) :
    nat256 (signif A) = Spec.significandOf (nat256 A) ∧ nat256 (signif A) < 2 ^ 237 ∧
    expBits A = Spec.expField (nat256 A) ∧ expBits A = expBits A - 1 + normBit A ∧
    expBits A ≤ 524286 ∧ (expBits A - 1 = 0 ∨ 2 ^ 236 ≤ nat256 (signif A)) ∧
    mag (nat256 A) = nat256 (signif A) * 2 ^ (expBits A - 1) := by
  have hs := nat_signif A
  rw [expBits_eq, normBit_eq]
  generalize signif A = S at *
  generalize nat256 A = a at *
  unfold INF at h1
  have fA : Spec.expField a = a / 2 ^ 236 := by unfold Spec.expField; omega
  have sA : Spec.significandOf a = nat256 S := by
    unfold Spec.significandOf Spec.fracField
    rw [fA, hs]; split_ifs <;> omega
  refine ⟨sA.symm, by rw [hs]; split_ifs <;> omega, fA.symm, by split_ifs <;> omega, by omega,
    by rw [hs]; split_ifs <;> omega, ?_⟩
  unfold mag
  rw [fA, sA]

/-- The conditions under which the first (possibly panicking) division returns; `gap` is the
difference of the exponents of the two significands. -/
def RemReturns (X Y gap : ℕ) : Prop :=
  gap % 256 ≠ 19 ∨ Y < 2 ^ 128 ∨ (2 ^ 236 ≤ Y ∧ X < 2 ^ 237 - 2 ^ 129)

theorem remFirst {X Y : U256} {gap : ℕ} (hX : nat256 X < 2 ^ 237) (hY : nat256 Y < 2 ^ 237)
    (hY0 : nat256 Y ≠ 0) (hg : GoodDivisor Y) (hsub : gap = 0 ∨ 2 ^ 236 ≤ nat256 X) :
    ∃ t : U512, UInt.shl (⟨UInt.zero, X⟩ : U512) (gap % 256) = t ∧
      UInt.nat t = nat256 X * 2 ^ (gap % 256) ∧ nat256 t.hi < 2 ^ 255 ∧
      (RemReturns (nat256 X) (nat256 Y) gap → nat256 t.hi = 0 → DivExact t.lo Y) := by
  obtain ⟨sh, hsh⟩ : ∃ sh, sh = gap % 256 := ⟨_, rfl⟩
  have hshl : sh < 256 := by omega
  have hR : RemReturns (nat256 X) (nat256 Y) gap → sh ≠ 19 ∨ nat256 Y < 2 ^ 128 ∨
    (2 ^ 236 ≤ nat256 Y ∧ nat256 X < 2 ^ 237 - 2 ^ 129) := by
      unfold RemReturns; rw [← hsh]; exact id
  have hsub' : sh = 0 ∨ 2 ^ 236 ≤ nat256 X := by
    rcases hsub with h | h
    · left; rw [hsh, h]
    · right; exact h
  rw [← hsh]
  have h493 : nat256 X * 2 ^ sh < 2 ^ 237 * 2 ^ 255 := by
    have : 2 ^ sh ≤ 2 ^ 255 := Nat.pow_le_pow_right (by norm_num) (by omega)
    exact Nat.mul_lt_mul_of_lt_of_le hX this (Nat.two_pow_pos _)
  obtain ⟨t, ht⟩ : ∃ t : U512, UInt.shl (⟨UInt.zero, X⟩ : U512) sh = t := ⟨_, rfl⟩
  have htn : UInt.nat t = nat256 X * 2 ^ sh := by
    rw [← ht]
    have h1 := UInt.nat_shl (⟨UInt.zero, X⟩ : U512) sh (by show sh < 2 * 256; omega)
    have h2 := nat_hi_lo UInt.zero X
    rw [nat256_zero, Nat.zero_mul, Nat.zero_add] at h2
    rw [h2, Nat.mod_eq_of_lt] at h1
    · exact h1
    · refine lt_trans h493 ?_
      rw [← Nat.pow_add]; exact Nat.pow_lt_pow_right (by norm_num) (by decide)
  have hts : UInt.nat t = nat256 t.hi * 2 ^ 256 + nat256 t.lo := rfl
  have htl := nat256_lt t.lo
  refine ⟨t, ht, htn, by omega, fun hret h0 => ?_⟩
  rw [h0, Nat.zero_mul, Nat.zero_add, htn] at hts
  rcases Nat.lt_or_ge (nat256 t.lo) (2 ^ 255) with h255 | h255
  · obtain ⟨q, r, h⟩ := UInt.divRem_total u128_exact t.lo Y hY0 h255
    exact divExact256 hY0 hg h
  have hge19 : 19 ≤ sh := by
    by_contra hlt
    have : 2 ^ sh ≤ 2 ^ 18 := Nat.pow_le_pow_right (by norm_num) (by omega)
    have : nat256 X * 2 ^ sh < 2 ^ 237 * 2 ^ 18 :=
      Nat.mul_lt_mul_of_lt_of_le hX this (Nat.two_pow_pos _)
    omega
  have hXn : 2 ^ 236 ≤ nat256 X := by omega
  have hsh19 : sh = 19 := by
    by_contra hne
    have h1 : 2 ^ 20 ≤ 2 ^ sh := Nat.pow_le_pow_right (by norm_num) (by omega)
    have := Nat.mul_le_mul hXn h1
    omega
  have hYs : nat256 Y = Y.hi.toNat * 2 ^ 128 + Y.lo.toNat := rfl
  have hYl := Y.lo.isLt
  rcases hR hret with h | h | ⟨h, h'⟩
  · exact absurd hsh19 h
  · have hy0 : Y.hi.toNat = 0 := by omega
    have hyl : Y.lo.toNat ≠ 0 := by omega
    exact UInt.divRem_lo t.lo Y hy0 hyl (fun _ => u128_exact _ _ hyl) (fun _ => u128_exact _ _ hyl)
  · have hyh : 2 ^ 108 ≤ Y.hi.toNat := by omega
    rw [hsh19] at hts
    have hq : t.lo.hi.toNat / Y.hi.toNat < 2 ^ 20 := by
      rw [Nat.div_lt_iff_lt_mul (by omega)]
      have := t.lo.hi.isLt
      have := Nat.mul_le_mul_left (2 ^ 20) hyh
      omega
    obtain ⟨q, r, hh⟩ := UInt.divRem_total_top u128_exact t.lo Y (by
        show 2 ≤ Y.hi.toNat; omega)
      (by show nat256 Y < 2 ^ 255; omega) (by show 2 ^ 255 ≤ nat256 t.lo; omega)
      (by
        show nat256 t.lo + t.lo.hi.toNat / Y.hi.toNat * 2 ^ 128 < 2 ^ 256
        generalize t.lo.hi.toNat / Y.hi.toNat = Q at *
        omega)
    exact divExact256 hY0 hg hh

/-- The remainder of finite non-zero operands: exact if it is returned, and returned under
`RemReturns`. -/
theorem remFinite_spec {x y : F256} (hx1 : x.pat % 2 ^ 255 < INF)
    (hy0 : y.pat % 2 ^ 255 ≠ 0) (hy1 : y.pat % 2 ^ 255 < INF)
    (hg : GoodDivisor (signif (absBits y))) :
    (∀ z, remFinite x (absBits x) (absBits y) = some z →
      ∃ A, A < INF ∧ mag A = mag x.pat % mag y.pat ∧
        (z.pat = Spec.signBit x.pat * 2 ^ 255 + A ∨ (A = 0 ∧ z.pat = 0))) ∧
    (RemReturns (Spec.significandOf x.pat) (Spec.significandOf y.pat)
        (Spec.expField x.pat - 1 - (Spec.expField y.pat - 1)) →
      ∃ z, remFinite x (absBits x) (absBits y) = some z) := by
  have ex : Spec.expField x.pat = Spec.expField (x.pat % 2 ^ 255) := (expField_abs _).symm
  have ey : Spec.expField y.pat = Spec.expField (y.pat % 2 ^ 255) := (expField_abs _).symm
  have sx : Spec.significandOf x.pat = Spec.significandOf (x.pat % 2 ^ 255) := by
    simp only [Spec.significandOf, expField_abs, fracField_abs]
  have sy : Spec.significandOf y.pat = Spec.significandOf (y.pat % 2 ^ 255) := by
    simp only [Spec.significandOf, expField_abs, fracField_abs]
  have mx := mag_abs x.pat
  have my := mag_abs y.pat
  have ax := nat_absBits x
  have ay := nat_absBits y
  have hpx := pat_split (pat_lt x)
  have hmpos := mag_pos (Nat.pos_of_ne_zero hy0) hy1
  have hmlt := mag_lt_iff hx1 hy1
  rw [ex, ey, sx, sy]
  rw [← mx, ← my]
  rw [← ax] at hx1 hpx hmlt ⊢
  rw [← ay] at hy0 hy1 hmpos hmlt ⊢
  obtain ⟨dx1, dx2, dx3, dx4, dx5, dx6, dx7⟩ := decodedNat hx1
  obtain ⟨dy1, dy2, dy3, dy4, dy5, dy6, dy7⟩ := decodedNat hy1
  unfold remFinite
  dsimp only
  rw [cmp256]
  rw [← dx1, ← dy1, ← dx3, ← dy3]
  by_cases hlt : nat256 (absBits x) < nat256 (absBits y)
  · rw [Nat.compare_eq_lt.2 hlt]
    simp only [beq_self_eq_true, if_true]
    refine ⟨fun z hz => ?_, fun _ => ⟨_, rfl⟩⟩
    rw [Option.some.injEq] at hz
    subst hz
    exact ⟨nat256 (absBits x), hx1, (Nat.mod_eq_of_lt (hmlt.mpr hlt)).symm, Or.inl hpx⟩
  have hc : (compare (nat256 (absBits x)) (nat256 (absBits y)) == Ordering.lt) = false := by
    rw [beq_eq_false_iff_ne, ne_eq, Nat.compare_eq_lt]; exact hlt
  rw [hc]
  simp only [Bool.false_eq_true, if_false]
  have hexp : expBits (absBits y) ≤ expBits (absBits x) := by
    rw [expBits_eq, expBits_eq]; exact Nat.div_le_div_right (not_lt.mp hlt)
  have hn : expBits (absBits x) + normBit (absBits y) - expBits (absBits y) - normBit (absBits x) =
      expBits (absBits x) - 1 - (expBits (absBits y) - 1) := by omega
  rw [hn, UInt.beq_eq, show UInt.nat (signif (absBits x)) = nat256 (signif (absBits x)) from rfl,
    show UInt.nat (signif (absBits y)) = nat256 (signif (absBits y)) from rfl]
  have hZ : F256.ZERO.pat = 0 := by decide
  have hY0 : nat256 (signif (absBits y)) ≠ 0 := by
    intro h; rw [h, Nat.zero_mul] at dy7; omega
  obtain ⟨gap, hgap⟩ : ∃ gap, gap = expBits (absBits x) - 1 - (expBits (absBits y) - 1) := ⟨_, rfl⟩
  have hsub : gap = 0 ∨ 2 ^ 236 ≤ nat256 (signif (absBits x)) := by omega
  have hT : 2 ^ (expBits (absBits x) - 1) = 2 ^ gap * 2 ^ (expBits (absBits y) - 1) := by
    have e : expBits (absBits x) - 1 = gap + (expBits (absBits y) - 1) := by omega
    rw [e, Nat.pow_add]
  rw [← hgap, dx7, dy7, hT, ← Nat.mul_assoc, Nat.mul_mod_mul_right]
  clear hgap hT hn hmlt dx7 dy7 dx1 dy1 dx3 dy3 dx4 dy4 hexp hc ex ey sx sy mx my hmpos
  by_cases hse : nat256 (signif (absBits x)) = nat256 (signif (absBits y))
  · simp only [decide_eq_true hse, if_true]
    refine ⟨fun z hz => ?_, fun _ => ⟨_, rfl⟩⟩
    rw [Option.some.injEq] at hz
    subst hz
    refine ⟨0, by decide, ?_, Or.inr ⟨rfl, hZ⟩⟩
    rw [mag_zero, hse, Nat.mul_mod_right, Nat.zero_mul]
  simp only [decide_eq_false hse, Bool.false_eq_true, if_false]
  generalize signif (absBits x) = X at *
  generalize signif (absBits y) = Y at *
  generalize expBits (absBits y) = ey at *
  obtain ⟨t, ht, htn, hth, htd⟩ := remFirst dx2 dy2 hY0 hg hsub
  have hpow : nat256 X * 2 ^ (gap % 256) % nat256 Y * 2 ^ (256 * (gap >>> 8)) % nat256 Y =
      nat256 X * 2 ^ gap % nat256 Y := by
    rw [Nat.mod_mul_mod, Nat.mul_assoc, ← Nat.pow_add, Nat.shiftRight_eq_div_pow]
    have e : gap % 256 + 256 * (gap / 2 ^ 8) = gap := by
      rw [show (2 : ℕ) ^ 8 = 256 by norm_num]; exact Nat.mod_add_div gap 256
    rw [e]
  have main : ∀ p : U512 × U256, nat256 p.2 = UInt.nat t % nat256 Y →
      ∃ z, (remLoop Y (gap >>> 8) p.2).bind (fun z =>
        if U256.isZero z then some F256.ZERO else some (remAssemble ey z (signBitsHi x))) = some z ∧
      ∃ A, A < INF ∧ mag A = nat256 X * 2 ^ gap % nat256 Y * 2 ^ (ey - 1) ∧
        (z.pat = Spec.signBit x.pat * 2 ^ 255 + A ∨ (A = 0 ∧ z.pat = 0)) := by
    intro p hp
    obtain ⟨r, h1, h2⟩ := remLoop_spec hY0 hg (lt_trans dy2 (by norm_num)) (gap >>> 8) p.2 (by
      rw [hp]; exact Nat.mod_lt _ (Nat.pos_of_ne_zero hY0))
    rw [hp, htn, hpow] at h2
    rw [h1, Option.bind_some, isZero256]
    by_cases h0 : nat256 r = 0
    · rw [if_pos (decide_eq_true h0)]
      refine ⟨_, rfl, 0, by decide, ?_, Or.inr ⟨rfl, hZ⟩⟩
      rw [mag_zero, ← h2, h0, Nat.zero_mul]
    · rw [if_neg (by simpa using h0)]
      have hrl : nat256 r < 2 ^ 237 := by
        rw [h2]; exact lt_trans (Nat.mod_lt _ (Nat.pos_of_ne_zero hY0)) dy2
      obtain ⟨A, a1, a2, a3⟩ := remAssemble_spec x h0 hrl dy5
      exact ⟨_, rfl, A, a2, by rw [a3, h2], Or.inl a1⟩
  rw [ht]
  constructor
  · intro z hz
    cases hd : UInt.divRemSub t Y with
    | none => rw [hd] at hz; simp at hz
    | some p =>
      rw [hd, Option.bind_some] at hz
      obtain ⟨z', h1, h2⟩ := main p (rem512_partial hY0 hg hth hd)
      have : some z' = some z := h1.symm.trans hz
      rw [Option.some.injEq] at this
      rw [← this]; exact h2
  · intro hret
    obtain ⟨q, r, h1, h2⟩ := rem512 hY0 hg hth (htd hret)
    rw [h1, Option.bind_some]
    obtain ⟨z', h3, -⟩ := main (q, r) h2
    exact ⟨z', h3⟩

end Verif
