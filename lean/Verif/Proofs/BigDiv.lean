import Verif.Model.Atan
import Verif.Proofs.BigTail
import Verif.Proofs.AtanApprox

/-!
# Division of `BigFloat`
-/

set_option exponentiation.threshold 2000

namespace Verif.BigFloat

open BigUInt LawfulBigUInt

theorem divRem256 {x y : U256} (hx : nat256 x < 2 ^ 255) (hy : 2 ^ 254 ≤ nat256 y) :
    ∃ q r : U256, BigUInt.divRem x y = some (q, r) ∧ nat256 r = nat256 x % nat256 y := by
  have hα : ∀ a b : U128, toNat b ≠ 0 → DivExact a b := fun a b h => U128.divRem_exact a b h
  have hy0 : UInt.nat y ≠ 0 := by
    have : UInt.nat y = nat256 y := rfl
    have := Nat.two_pow_pos 254
    omega
  obtain ⟨q, r, h⟩ := UInt.divRem_total hα x y hy0 hx
  have hhi : 2 ^ 126 ≤ y.hi.toNat := by
    have e : nat256 y = y.hi.toNat * 2 ^ 128 + y.lo.toNat := rfl
    have := y.lo.isLt
    omega
  have hd := UInt.divRem_exact hα h hy0 (Or.inr (Or.inr (by
    show 2 ^ 128 ≤ y.hi.toNat * y.hi.toNat
    calc 2 ^ 128 ≤ 2 ^ 126 * 2 ^ 126 := by norm_num
      _ ≤ _ := Nat.mul_le_mul hhi hhi)))
  refine ⟨_, _, hd, ?_⟩
  show toNat (LawfulBigUInt.ofNat _ : U256) = _
  rw [toNat_ofNat_of_lt]
  · rfl
  · exact lt_of_le_of_lt (Nat.mod_le _ _) (toNat_lt x)

/-- The quotient of the shifted remainder -/
theorem special256 {m y : U256} (hm : nat256 m < nat256 y) (hy : nat256 y < 2 ^ 255) :
    ∃ (q : U512) (r : U256), UInt.divRemSubuintSpecial (UInt.shl (UInt.ofSub m) 254) y = some (q, r) ∧
      nat256 q.lo = nat256 m * 2 ^ 254 / nat256 y ∧ nat256 r = nat256 m * 2 ^ 254 % nat256 y := by
  obtain ⟨n, hn⟩ : ∃ n : U512, n = UInt.shl (UInt.ofSub m) 254 := ⟨_, rfl⟩
  have hnv : UInt.nat n = nat256 m * 2 ^ 254 := by
    rw [hn, nat_shl512 _ (by norm_num)]
    have : UInt.nat (UInt.ofSub m : U512) = nat256 m := by
      rw [nat512]
      show nat256 (UInt.zero : U256) * 2 ^ 256 + nat256 m = _
      rw [zero256, Nat.zero_mul, Nat.zero_add]
    rw [this]
    refine Nat.mod_eq_of_lt ?_
    have : nat256 m * 2 ^ 254 < 2 ^ 255 * 2 ^ 254 := Nat.mul_lt_mul_of_pos_right (by omega) (Nat.two_pow_pos _)
    omega
  have hhi : nat256 n.hi < nat256 y := by
    rw [nat512_hi, hnv]
    omega
  have hs := UInt.divRemSubuintSpecial_spec n y hhi
  rw [← hn, hs]
  have hy' : toNat y = nat256 y := rfl
  have hy0 : 0 < nat256 y := by omega
  refine ⟨_, _, rfl, ?_, ?_⟩
  · show toNat (LawfulBigUInt.ofNat _ : U256) = _
    rw [toNat_ofNat_of_lt, hy', hnv]
    show _ < 2 ^ 256
    rw [hy', hnv, Nat.div_lt_iff_lt_mul hy0]
    calc nat256 m * 2 ^ 254 < nat256 y * 2 ^ 254 := Nat.mul_lt_mul_of_pos_right hm (Nat.two_pow_pos _)
      _ ≤ 2 ^ 256 * nat256 y := by rw [Nat.mul_comm]; exact Nat.mul_le_mul_right _ (by norm_num)
  · show toNat (LawfulBigUInt.ofNat _ : U256) = _
    rw [toNat_ofNat_of_lt, hy', hnv]
    show _ < 2 ^ 256
    rw [hy']
    exact lt_trans (Nat.mod_lt _ hy0) (nat256_lt y)

/-- The bounds of the rounded quotient -/
theorem quot_core {x y q r : ℕ} {up : Bool} (hx1 : 2 ^ 254 ≤ x) (hx2 : x < 2 ^ 255) (hy1 : 2 ^ 254 ≤ y) (hy2 : y < 2 ^ 255)
    (hq : q * y + r = x * 2 ^ 254) (hr : r < y) (hup : up = true → y / 2 < r) :
    (y ≤ x → 2 ^ 254 ≤ q + up.toNat ∧ q + up.toNat < 2 ^ 255) ∧
      (x < y → 2 ^ 253 ≤ q + up.toNat ∧ q + up.toNat < 2 ^ 254) := by
  have key : ∀ k, (k : ℕ) ≤ q → k * y ≤ q * y := fun k h => Nat.mul_le_mul_right _ h
  have key2 : ∀ k, q ≤ (k : ℕ) → q * y ≤ k * y := fun k h => Nat.mul_le_mul_right _ h
  constructor
  · intro hyx
    constructor
    · by_contra hc
      have := key2 (2 ^ 254 - 1) (by omega)
      omega
    · cases up with
      | false =>
        by_contra hc
        have := key (2 ^ 255) (by simpa using hc)
        omega
      | true =>
        have := hup rfl
        by_contra hc
        have := key (2 ^ 255 - 1) (by simp at hc; omega)
        omega
  · intro hyx
    constructor
    · by_contra hc
      have := key2 (2 ^ 253 - 1) (by omega)
      omega
    · cases up with
      | false =>
        by_contra hc
        have := key (2 ^ 254) (by simpa using hc)
        omega
      | true =>
        have := hup rfl
        by_contra hc
        have := key (2 ^ 254 - 1) (by simp at hc; omega)
        omega

theorem lz128 {z : U256} {k : ℕ} (h1 : 2 ^ (k + 128) ≤ nat256 z) (h2 : nat256 z < 2 ^ (k + 129)) :
    BigUInt.leadingZeros z.hi = 127 - k := by
  have hz : nat256 z = z.hi.toNat * 2 ^ 128 + z.lo.toNat := rfl
  have hlo := z.lo.isLt
  have hl := LawfulBigUInt.leadingZeros_eq (α := U128) z.hi
  have e : LawfulBigUInt.toNat z.hi = z.hi.toNat := rfl
  have hb : BITS U128 = 128 := rfl
  have a1 : 2 ^ k ≤ z.hi.toNat := by
    rw [Nat.pow_add] at h1
    by_contra hc
    have : (z.hi.toNat + 1) * 2 ^ 128 ≤ 2 ^ k * 2 ^ 128 := Nat.mul_le_mul_right _ (by omega)
    omega
  have a2 : z.hi.toNat < 2 ^ (k + 1) := by
    rw [show k + 129 = k + 1 + 128 by ring, Nat.pow_add] at h2
    by_contra hc
    have : 2 ^ (k + 1) * 2 ^ 128 ≤ z.hi.toNat * 2 ^ 128 := Nat.mul_le_mul_right _ (by omega)
    omega
  have hp := Nat.two_pow_pos k
  rw [e, if_neg (by omega), log2_of a1 a2, hb] at hl
  omega

theorem one_shl (b : Bool) : nat256 (⟨(if b = true then 1#128 else 0#128) <<< 126, 0#128⟩ : U256) = if b then 2 ^ 254 else 0 := by
  cases b <;> decide

theorem divSignifs_spec {x y : U256} (hx1 : 2 ^ 254 ≤ nat256 x) (hx2 : nat256 x < 2 ^ 255) (hy1 : 2 ^ 254 ≤ nat256 y)
    (hy2 : nat256 y < 2 ^ 255) : ∃ (s : U256) (j Q : ℕ), divSignifs x y = some (s, (j : ℤ)) ∧ nat256 s = Q * 2 ^ j ∧
      2 ^ 254 ≤ nat256 s ∧ nat256 s < 2 ^ 255 ∧ 2 ^ 253 ≤ Q ∧
      |(Q : ℝ) - (nat256 x : ℝ) * 2 ^ 254 / nat256 y| ≤ 1 := by
  obtain ⟨q0, m, hd, hm⟩ := divRem256 hx2 hy1
  have hy0 : 0 < nat256 y := lt_of_lt_of_le (Nat.two_pow_pos _) hy1
  have hml : nat256 m < nat256 y := by rw [hm]; exact Nat.mod_lt _ hy0
  obtain ⟨q, r, hsp, hq, hr⟩ := special256 hml hy2
  obtain ⟨a, ha⟩ : ∃ a : Bool, a = decide (nat256 y ≤ nat256 x) := ⟨_, rfl⟩
  obtain ⟨t, ht⟩ : ∃ t : U256, t = ⟨(if a = true then 1#128 else 0#128) <<< 126, 0#128⟩ := ⟨_, rfl⟩
  have htn : nat256 t = if a then 2 ^ 254 else 0 := by rw [ht]; exact one_shl a
  have hmod : nat256 x = (if a then nat256 y else 0) + nat256 m := by
    rw [hm]
    by_cases h : nat256 y ≤ nat256 x
    · rw [ha, decide_eq_true h, if_pos rfl, Nat.mod_eq_sub_mod h, Nat.mod_eq_of_lt (by omega)]; omega
    · rw [ha, decide_eq_false h, if_neg (by simp), Nat.mod_eq_of_lt (by omega)]; omega
  -- the quotient as a whole
  have hdm := Nat.div_add_mod (nat256 m * 2 ^ 254) (nat256 y)
  rw [← hq, ← hr] at hdm
  have hrl : nat256 r < nat256 y := by rw [hr]; exact Nat.mod_lt _ hy0
  have hqy : (nat256 t + nat256 q.lo) * nat256 y + nat256 r = nat256 x * 2 ^ 254 := by
    rw [hmod, htn, Nat.add_mul, Nat.add_mul, Nat.mul_comm (nat256 q.lo), Nat.add_assoc, hdm]
    cases a <;> simp [Nat.mul_comm]
  obtain ⟨up, hup⟩ : ∃ up, up = BigUInt.gt r (UInt.shr y 1) := ⟨_, rfl⟩
  have hupv : up = decide (nat256 y / 2 < nat256 r) := by
    rw [hup, gt256, nat_shr256 _ (by norm_num), pow_one]
  obtain ⟨c1, c2⟩ := quot_core (up := up) hx1 hx2 hy1 hy2 hqy hrl (by rw [hupv]; simp)
  have hsum : nat256 t + nat256 q.lo + up.toNat < 2 ^ 255 := by
    by_cases h : nat256 y ≤ nat256 x
    · exact (c1 h).2
    · exact (c2 (by omega)).2.trans (by norm_num)
  obtain ⟨z, hz, hzn⟩ := UInt.add_some (x := t) (y := q.lo) (by
    show nat256 t + nat256 q.lo < 2 ^ 256
    omega)
  have hzn' : nat256 z = nat256 t + nat256 q.lo := hzn
  obtain ⟨w, hw⟩ : ∃ w, w = BigUInt.incrIf z up := ⟨_, rfl⟩
  have hwn : nat256 w = nat256 t + nat256 q.lo + up.toNat := by
    rw [hw, nat_incrIf256, hzn']
    exact Nat.mod_eq_of_lt (by omega)
  have hds : divSignifs x y = some (UInt.shl w (u32Sub (BigUInt.leadingZeros w.hi) 1), ((if a then 0 else 1 : ℕ) : ℤ)) := by
    unfold divSignifs
    have hlt : BigUInt.lt x y = !a := by rw [lt256, ha]; by_cases h : nat256 y ≤ nat256 x <;> simp [h]; omega
    rw [hlt, hd]
    dsimp only
    rw [show (⟨(if (if (!a) = true then (1 : ℤ) else 0) = 0 then 1#128 else 0#128) <<< 126, 0#128⟩ : U256) = t by
      rw [ht]; cases a <;> rfl]
    rw [Option.bind_eq_bind, Option.bind_some]
    dsimp only
    rw [hsp, Option.bind_eq_bind, Option.bind_some]
    dsimp only
    rw [hz, Option.bind_eq_bind, Option.bind_some, ← hup, ← hw]
    cases a <;> rfl
  have hQ : |((nat256 w : ℕ) : ℝ) - (nat256 x : ℝ) * 2 ^ 254 / nat256 y| ≤ 1 := by
    have hdiv : nat256 x * 2 ^ 254 / nat256 y = nat256 t + nat256 q.lo := by
      rw [← hqy, Nat.add_comm, Nat.add_mul_div_right _ _ hy0, Nat.div_eq_of_lt hrl, Nat.zero_add]
    have hu := bool_toNat_le up
    have := FP492.quot_round (N := nat256 x * 2 ^ 254) (q := nat256 w) hy0 (by omega) (by omega)
    rwa [Nat.cast_mul, Nat.cast_pow, Nat.cast_ofNat] at this
  rw [hds]
  by_cases h : nat256 y ≤ nat256 x
  · have ha' : a = true := by rw [ha]; exact decide_eq_true h
    obtain ⟨d1, d2⟩ := c1 h
    rw [← hwn] at d1 d2
    have hlz := lz128 (z := w) (k := 126) d1 d2
    rw [hlz, ha', if_pos rfl]
    refine ⟨UInt.shl w 0, 0, nat256 w, rfl, ?_, ?_, ?_, le_trans (by norm_num) d1, hQ⟩ <;>
      rw [nat_shl256_of_lt _ (by norm_num) (by rw [pow_zero, Nat.mul_one]; exact nat256_lt w), pow_zero, Nat.mul_one] <;>
      assumption
  · have ha' : a = false := by rw [ha]; exact decide_eq_false h
    obtain ⟨d1, d2⟩ := c2 (by omega)
    rw [← hwn] at d1 d2
    have hlz := lz128 (z := w) (k := 125) d1 d2
    rw [hlz, ha', if_neg (by simp)]
    have hs : nat256 (UInt.shl w 1) = nat256 w * 2 ^ 1 := nat_shl256_of_lt _ (by norm_num) (by omega)
    refine ⟨UInt.shl w 1, 1, nat256 w, rfl, hs, ?_, ?_, d1, hQ⟩ <;> omega

theorem sgn_mul_div {a b : ℤ} (hb : Sgn b) : ((a * b : ℤ) : ℝ) = (a : ℝ) / b := by
  rcases hb with rfl | rfl <;> push_cast <;> ring

theorem div_spec {x y : BigFloat} (hx : Norm x) (hy : Norm y) :
    ∃ r, div x y = some r ∧ Norm r ∧ |bval r - bval x / bval y| ≤ |bval x / bval y| / 2 ^ 252 := by
  obtain ⟨s, j, Q, hd, hs, s1, s2, hQ0, hQ⟩ := divSignifs_spec hx.2.1 hx.2.2 hy.2.1 hy.2.2
  have hy0 : y.isZero = false := isZero_false hy.1
  have hx0 : x.signum ≠ 0 := by rcases hx.1 with h | h <;> omega
  have hdiv : div x y = some ⟨x.signum * y.signum, x.exp - (y.exp + j), s⟩ := by
    unfold div
    rw [hy0, if_neg (by simp), if_neg hx0, hd]
    rfl
  have hsg : Sgn (x.signum * y.signum) := by
    rcases hx.1 with h | h <;> rcases hy.1 with h' | h' <;> rw [h, h'] <;> unfold Sgn <;> decide
  refine ⟨_, hdiv, ⟨hsg, s1, s2⟩, ?_⟩
  have e1 : bval ⟨x.signum * y.signum, x.exp - (y.exp + j), s⟩ =
      ((x.signum * y.signum : ℤ) : ℝ) * Q * (2 : ℝ) ^ (x.exp - y.exp - 254) := by
    unfold bval
    dsimp only
    rw [hs, Nat.cast_mul, Nat.cast_pow, Nat.cast_ofNat,
      show x.exp - y.exp - 254 = x.exp - (y.exp + j) - 254 + (j : ℤ) by ring, zpow_add_nat]
    ring
  have hyp : (0 : ℝ) < nat256 y.signif := by
    have : 0 < nat256 y.signif := lt_of_lt_of_le (Nat.two_pow_pos _) hy.2.1
    exact_mod_cast this
  have e2 : bval x / bval y = ((x.signum * y.signum : ℤ) : ℝ) * ((nat256 x.signif : ℝ) * 2 ^ 254 / nat256 y.signif) *
      (2 : ℝ) ^ (x.exp - y.exp - 254) := by
    have hp : (2 : ℝ) ^ (x.exp - y.exp - 254) = (2 : ℝ) ^ (x.exp - 254) / (2 : ℝ) ^ (y.exp - 254) / 2 ^ 254 := by
      have e := zpow_natCast (2 : ℝ) 254
      rw [show x.exp - y.exp - 254 = (x.exp - 254) - (y.exp - 254) - ((254 : ℕ) : ℤ) by push_cast; ring,
        zpow_sub₀ (by norm_num) _ ((254 : ℕ) : ℤ), zpow_sub₀ (by norm_num) (x.exp - 254), e]
    unfold bval
    rw [sgn_mul_div hy.1, hp]
    have h1 := (two_zpow (y.exp - 254)).ne'
    have h2 : (y.signum : ℝ) ≠ 0 := by rcases hy.1 with h | h <;> rw [h] <;> norm_num
    have h3 : (2 : ℝ) ^ 254 ≠ 0 := by positivity
    generalize (2 : ℝ) ^ (y.exp - 254) = B at *
    generalize (2 : ℝ) ^ 254 = C at *
    field_simp
  rw [e1, e2, ← sub_mul, ← mul_sub, abs_mul, abs_mul, abs_mul, abs_mul, sgn_abs hsg, one_mul, one_mul,
    abs_of_pos (two_zpow _)]
  have hQR : (2 : ℝ) ^ 253 ≤ Q := by exact_mod_cast hQ0
  generalize (nat256 x.signif : ℝ) * 2 ^ 254 / nat256 y.signif = T at *
  have hT : (2 : ℝ) ^ 252 ≤ |T| := by
    have h1 := abs_le.mp hQ
    refine le_trans ?_ (le_abs_self T)
    have : (2 : ℝ) ^ 253 = 2 * 2 ^ 252 := by norm_num
    have h4 : (1 : ℝ) ≤ 2 ^ 252 := one_le_pow₀ (by norm_num)
    rw [this] at hQR
    generalize (2 : ℝ) ^ 252 = B at *
    linarith
  rw [mul_div_right_comm]
  refine mul_le_mul_of_nonneg_right ?_ (two_zpow _).le
  refine hQ.trans ?_
  rw [le_div_iff₀ (by positivity), one_mul]
  exact hT

end Verif.BigFloat
