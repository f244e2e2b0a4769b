import Verif.Model.Scientific
import Verif.Proofs.ToFixedReal
import Verif.Proofs.Degrees
import Verif.Props.Wide

/-!
# Proofs about scientific formatting with a precision: the two fast paths
-/

namespace Verif

open BigUInt LawfulBigUInt Spec

set_option exponentiation.threshold 2000

/-- `S` is an integer nearest to `y`, and even if there are two of them -/
def SciNear (S : ℕ) (y : ℝ) : Prop := |(S : ℝ) - y| ≤ 1 / 2 ∧ (|(S : ℝ) - y| = 1 / 2 → S % 2 = 0)

theorem near_self {S : ℕ} {y : ℝ} (h : (S : ℝ) = y) : SciNear S y := by
  unfold SciNear
  rw [h, sub_self, abs_zero]
  exact ⟨by norm_num, fun h => by norm_num at h⟩

theorem near_of_nearestEven {n d q : ℕ} (hd : 0 < d) (h : NearestEven n d q) {y : ℝ} (hy : y = (n : ℝ) / d) : SciNear q y := by
  have hd' : (0 : ℝ) < d := by exact_mod_cast hd
  have h1 : 2 * ((q : ℝ) * d) ≤ 2 * n + d := by exact_mod_cast h.lower
  have h2 : 2 * (n : ℝ) ≤ 2 * (q * d) + d := by exact_mod_cast h.upper
  have hn : (n : ℝ) = y * d := by rw [hy]; field_simp
  rw [hn] at h1 h2
  have e1 : (q : ℝ) - y ≤ 1 / 2 := by
    have : ((q : ℝ) - y) * d ≤ 1 / 2 * d := by linarith
    exact le_of_mul_le_mul_right this hd'
  have e2 : -(1 / 2) ≤ (q : ℝ) - y := by
    have : -(1 / 2) * (d : ℝ) ≤ ((q : ℝ) - y) * d := by linarith
    exact le_of_mul_le_mul_right this hd'
  refine ⟨abs_le.mpr ⟨e2, e1⟩, fun h3 => h.tie ?_⟩
  rcases abs_cases ((q : ℝ) - y) with ⟨h4, -⟩ | ⟨h4, -⟩
  · right
    have : 2 * (n : ℝ) + d = 2 * (q * d) := by
      rw [hn]
      have : (q : ℝ) = y + 1 / 2 := by linarith
      rw [this]; ring
    exact_mod_cast this
  · left
    have : 2 * (n : ℝ) = 2 * (q * d) + d := by
      rw [hn]
      have : (q : ℝ) = y - 1 / 2 := by linarith
      rw [this]; ring
    exact_mod_cast this

theorem u512Nat_eq (x : U512) : u512Nat x = UInt.nat x := by
  rw [show UInt.nat x = (x.hi.hi.toNat * 2 ^ 128 + x.hi.lo.toNat) * 2 ^ 256 + (x.lo.hi.toNat * 2 ^ 128 + x.lo.lo.toNat) from rfl]
  unfold u512Nat
  ring

/-- The estimate of the exponent is right, or wrong so little that it does not matter: the number is so near to a power of
ten that it is rounded to it. -/
def EstOk (x : ℝ) (p : ℕ) (e : ℤ) : Prop :=
  (10 : ℝ) ^ e - 10 ^ (e - 1 - p) / 2 ≤ x ∧ x < (10 : ℝ) ^ (e + 1) + 10 ^ (e + 1 - p) / 2

theorem estOk_exact {x : ℝ} (p : ℕ) {e : ℤ} (h1 : (10 : ℝ) ^ e ≤ x) (h2 : x < (10 : ℝ) ^ (e + 1)) : EstOk x p e := by
  have a : (0 : ℝ) < 10 ^ (e - 1 - p) := by positivity
  have b : (0 : ℝ) < 10 ^ (e + 1 - p) := by positivity
  exact ⟨by linarith, by linarith⟩

theorem estOk_lower {x : ℝ} {p : ℕ} {e : ℤ} (h : EstOk x p e) : (10 : ℝ) ^ e ≤ 2 * x := by
  have h1 := h.1
  have : (10 : ℝ) ^ (e - 1 - p) ≤ 10 ^ e := zpow_le_zpow_right₀ (by norm_num) (by omega)
  linarith

theorem estOk_upper {x : ℝ} {p : ℕ} {e : ℤ} (h : EstOk x p e) : x < 3 / 2 * (10 : ℝ) ^ (e + 1) := by
  have h1 := h.2
  have : (10 : ℝ) ^ (e + 1 - p) ≤ 10 ^ (e + 1) := zpow_le_zpow_right₀ (by norm_num) (by omega)
  linarith

theorem estOk_range {x : ℝ} {p : ℕ} {e : ℤ} (h : EstOk x p e) (h1 : 1 ≤ x) (h2 : x < 2 ^ 512) : -1 ≤ e ∧ e ≤ 154 := by
  constructor
  · by_contra hc
    have := estOk_upper h
    have : (10 : ℝ) ^ (e + 1) ≤ 10 ^ (-1 : ℤ) := zpow_le_zpow_right₀ (by norm_num) (by omega)
    norm_num at this
    linarith
  · by_contra hc
    have := estOk_lower h
    have : (10 : ℝ) ^ (155 : ℤ) ≤ 10 ^ e := zpow_le_zpow_right₀ (by norm_num) (by omega)
    have h3 : (10 : ℝ) ^ (155 : ℤ) ≤ 2 * x := le_trans this (by assumption)
    rw [show (155 : ℤ) = ((155 : ℕ) : ℤ) by norm_num, zpow_natCast] at h3
    have h4 : (2 : ℝ) * 2 ^ 512 < 10 ^ 155 := by
      have : 2 * 2 ^ 512 < 10 ^ 155 := by norm_num
      exact_mod_cast this
    generalize (2 : ℝ) ^ 512 = a at *
    generalize (10 : ℝ) ^ 155 = b at *
    linarith

theorem scaled_lt {x : ℝ} {p : ℕ} (hp : p ≤ 75) {e : ℤ} (h : EstOk x p e) : x * (10 : ℝ) ^ ((p : ℤ) - e) < 2 ^ 255 := by
  have h1 := estOk_upper h
  have h2 : (0 : ℝ) < 10 ^ ((p : ℤ) - e) := by positivity
  have h3 : x * (10 : ℝ) ^ ((p : ℤ) - e) < 3 / 2 * (10 : ℝ) ^ (e + 1) * 10 ^ ((p : ℤ) - e) := mul_lt_mul_of_pos_right h1 h2
  rw [mul_assoc, ← zpow_add₀ (by norm_num), show e + 1 + ((p : ℤ) - e) = ((p + 1 : ℕ) : ℤ) by push_cast; ring, zpow_natCast] at h3
  have h4 : (10 : ℝ) ^ (p + 1) ≤ 10 ^ 76 := pow_le_pow_right₀ (by norm_num) (by omega)
  refine lt_of_lt_of_le h3 (le_trans (mul_le_mul_of_nonneg_left h4 (by norm_num)) ?_)
  norm_num

theorem wideningMul512 (x y : U256) :
    UInt.nat (⟨(UInt.wideningMul x y).2, (UInt.wideningMul x y).1⟩ : U512) = nat256 x * nat256 y := by
  rw [← wideningMul256 x y, Nat.add_comm]
  rfl

theorem shl256 (x : U256) {k : ℕ} (hk : k < 256) (h : nat256 x * 2 ^ k < 2 ^ 256) : nat256 (UInt.shl x k) = nat256 x * 2 ^ k := by
  have := UInt.nat_shl (α := U128) x k hk
  rw [show nat256 (UInt.shl x k) = UInt.nat (UInt.shl x k) from rfl, this]
  exact Nat.mod_eq_of_lt h

theorem shl512' (x : U512) {k : ℕ} (hk : k < 512) (h : UInt.nat x * 2 ^ k < 2 ^ 512) : UInt.nat (UInt.shl x k) = UInt.nat x * 2 ^ k := by
  have := UInt.nat_shl (α := U256) x k hk
  rw [this]
  exact Nat.mod_eq_of_lt h

theorem small512 (x : U256) : UInt.nat (⟨ZERO, x⟩ : U512) = nat256 x := by
  rw [show UInt.nat (⟨ZERO, x⟩ : U512) = nat256 (ZERO : U256) * 2 ^ 256 + nat256 x from rfl,
    show nat256 (ZERO : U256) = 0 from by decide, Nat.zero_mul, Nat.zero_add]

/-- The significand of numbers from 1 to `2^236` -/
theorem smallFloat_spec {m : U256} {n p : ℕ} (hn0 : 1 ≤ n) (hn : n ≤ 236) (hm0 : 2 ^ 236 ≤ nat256 m) (hm : nat256 m < 2 ^ 237)
    (hp : p ≤ 75) {e : ℤ} (hE : EstOk ((nat256 m : ℝ) / 2 ^ n) p e) :
    ∃ t : U512, smallFloat2Scientific m (-(n : ℤ)) p e = some (signifText (natText (u512Nat t)) p e) ∧
      SciNear (u512Nat t) ((nat256 m : ℝ) / 2 ^ n * (10 : ℝ) ^ ((p : ℤ) - e)) := by
  have hmr : (nat256 m : ℝ) < 2 ^ 237 := by exact_mod_cast hm
  have hmr0 : (2 : ℝ) ^ 236 ≤ nat256 m := by exact_mod_cast hm0
  have h2n : (0 : ℝ) < 2 ^ n := by positivity
  have hx1 : 1 ≤ (nat256 m : ℝ) / 2 ^ n := by
    rw [le_div_iff₀ h2n, one_mul]
    exact le_trans (pow_le_pow_right₀ (by norm_num) hn) hmr0
  have hx2 : (nat256 m : ℝ) / 2 ^ n < 2 ^ 512 := by
    rw [div_lt_iff₀ h2n]
    have h1 : (1 : ℝ) ≤ 2 ^ n := one_le_pow₀ (by norm_num)
    have h2 : (2 : ℝ) ^ 237 ≤ 2 ^ 512 := pow_le_pow_right₀ (by norm_num) (by norm_num)
    have h3 : (2 : ℝ) ^ 512 * 1 ≤ 2 ^ 512 * 2 ^ n := mul_le_mul_of_nonneg_left h1 (by positivity)
    rw [mul_one] at h3
    exact lt_of_lt_of_le hmr (le_trans h2 h3)
  obtain ⟨he1, he2⟩ := estOk_range hE hx1 hx2
  have hS := scaled_lt hp hE
  unfold smallFloat2Scientific
  dsimp only
  rw [neg_neg]
  by_cases hk : (p : ℤ) - e ≥ 0
  · obtain ⟨k, hk'⟩ : ∃ k : ℕ, (p : ℤ) - e = k := ⟨((p : ℤ) - e).toNat, by omega⟩
    rw [hk'] at hS ⊢
    rw [zpow_natCast] at hS ⊢
    obtain ⟨q, hq1, hq2⟩ := pow5_get (n := k) (by omega)
    rw [if_pos (by omega), Int.toNat_natCast, hq1, Option.bind_eq_bind, Option.bind_eq_bind, Option.bind_some]
    have hw := wideningMul512 m q
    rw [hq2] at hw
    generalize hW : (⟨(UInt.wideningMul m q).2, (UInt.wideningMul m q).1⟩ : U512) = w at hw
    by_cases hkn : k < n
    · rw [if_pos (by omega), Option.bind_some]
      refine ⟨_, rfl, ?_⟩
      rw [show ((n : ℤ) - k).toNat = n - k by omega, u512Nat_eq]
      have hC := Props.C39_roundingDivPow2 (n := 2) w (k := n - k) (by unfold Props.width; omega)
      rw [← Props.nat_num2, hw] at hC
      have h2 : Props.num (n := 2) (roundingDivPow2 w (n - k)) = UInt.nat (UInt.roundingDivPow2 w (n - k)) := (Props.nat_num2 _).symm
      rw [h2] at hC
      refine near_of_nearestEven (Nat.two_pow_pos _) hC ?_
      obtain ⟨j, rfl⟩ : ∃ j, n = k + j := ⟨n - k, by omega⟩
      rw [show k + j - k = j by omega, show (10 : ℝ) = 5 * 2 by norm_num, mul_pow, pow_add]
      push_cast
      field_simp
    · rw [if_neg (by omega), Option.bind_some]
      refine ⟨_, rfl, ?_⟩
      rw [show ((k : ℤ) - n).toNat = k - n by omega, u512Nat_eq]
      obtain ⟨j, rfl⟩ : ∃ j, k = n + j := ⟨k - n, by omega⟩
      rw [show n + j - n = j by omega]
      have hreal : (nat256 m : ℝ) / 2 ^ n * 10 ^ (n + j) = ((nat256 m * 5 ^ (n + j) * 2 ^ j : ℕ) : ℝ) := by
        rw [show (10 : ℝ) = 5 * 2 by norm_num, mul_pow, pow_add (2 : ℝ)]
        push_cast
        field_simp
      rw [hreal] at hS
      have hS' : nat256 m * 5 ^ (n + j) * 2 ^ j < 2 ^ 255 := by exact_mod_cast hS
      rw [shl512' w (by omega) (by rw [hw]; exact lt_trans hS' (by norm_num)), hw]
      exact near_self hreal.symm
  · obtain ⟨j, hj⟩ : ∃ j : ℕ, (p : ℤ) - e = -(j : ℤ) := ⟨(e - (p : ℤ)).toNat, by omega⟩
    have hj0 : 0 < j := by omega
    have hj1 : j ≤ 154 := by omega
    -- the divisor is below 2^256
    have hlow := estOk_lower hE
    have hpe : (10 : ℝ) ^ j ≤ 10 ^ e := by
      rw [← zpow_natCast]
      exact zpow_le_zpow_right₀ (by norm_num) (by omega)
    have hd : (10 : ℝ) ^ j * 2 ^ n ≤ 2 * nat256 m := by
      have h := le_trans hpe hlow
      rw [mul_div_assoc', le_div_iff₀ h2n] at h
      exact h
    have hd' : 10 ^ j * 2 ^ n ≤ 2 * nat256 m := by exact_mod_cast hd
    have hj2 : j ≤ 102 := by
      by_contra hc
      have h1 : 10 ^ 103 ≤ 10 ^ j := Nat.pow_le_pow_right (by norm_num) (by omega)
      have h2 : 1 ≤ 2 ^ n := Nat.one_le_two_pow
      have : 10 ^ 103 * 1 ≤ 2 * 2 ^ 237 := le_trans (Nat.mul_le_mul h1 h2) (by omega)
      norm_num at this
    have e5 : 5 ^ j * 2 ^ (n + j) = 10 ^ j * 2 ^ n := by
      rw [show 10 = 5 * 2 by norm_num, mul_pow, pow_add]; ring
    obtain ⟨q, hq1, hq2⟩ := pow5_get hj2
    rw [if_neg hk, hj, neg_neg, Int.toNat_natCast, hq1, Option.bind_eq_bind, Option.bind_eq_bind, Option.bind_some,
      show ((n : ℤ) - -(j : ℤ)).toNat = n + j by omega]
    have hnj : n + j < 256 := by
      by_contra hc
      have h1 : 2 ^ 256 ≤ 2 ^ (n + j) := Nat.pow_le_pow_right (by norm_num) (by omega)
      have h2 : 1 ≤ 5 ^ j := Nat.one_le_pow _ _ (by norm_num)
      have := Nat.mul_le_mul h2 h1
      omega
    have hsh := shl256 q hnj (by rw [hq2]; omega)
    rw [hq2] at hsh
    generalize hD : UInt.shl q (n + j) = d at hsh
    have hdn : Props.num (n := 1) d = 5 ^ j * 2 ^ (n + j) := by rw [← Props.nat_num]; exact hsh
    have hmn : Props.num (n := 1) m = nat256 m := (Props.nat_num m).symm
    obtain ⟨t, ht1, ht2⟩ := Props.C40_roundingDiv_partial m d (by rw [hdn]; positivity)
      (by rw [hdn]; exact Nat.mod_eq_zero_of_dvd (Dvd.dvd.mul_left (dvd_pow_self 2 (by omega)) _)) (by rw [hmn]; omega)
    rw [hmn, hdn] at ht2
    rw [ht1]
    refine ⟨⟨ZERO, t⟩, rfl, ?_⟩
    rw [u512Nat_eq, small512]
    have ht3 : Props.num (n := 1) t = nat256 t := (Props.nat_num t).symm
    rw [ht3] at ht2
    refine near_of_nearestEven (by positivity) ht2 ?_
    rw [e5, zpow_neg, zpow_natCast]
    push_cast
    field_simp

/-- The significand of numbers from `2^236` to `2^512` -/
theorem smallInt_spec {m : U256} {E p : ℕ} (hE0 : E ≤ 275) (hm0 : 2 ^ 236 ≤ nat256 m) (hm : nat256 m < 2 ^ 237)
    (hp : p ≤ 75) {e : ℤ} (hE : EstOk ((nat256 m : ℝ) * 2 ^ E) p e) :
    ∃ t : U512, smallInt2Scientific m (E : ℤ) p e = some (signifText (natText (u512Nat t)) p e) ∧
      SciNear (u512Nat t) ((nat256 m : ℝ) * 2 ^ E * (10 : ℝ) ^ ((p : ℤ) - e)) := by
  have hx2' : nat256 m * 2 ^ E < 2 ^ 512 := by
    calc nat256 m * 2 ^ E < 2 ^ 237 * 2 ^ E := Nat.mul_lt_mul_of_pos_right hm (Nat.two_pow_pos _)
      _ ≤ 2 ^ 237 * 2 ^ 275 := Nat.mul_le_mul_left _ (Nat.pow_le_pow_right (by norm_num) hE0)
      _ = 2 ^ 512 := by norm_num
  have hx1 : 1 ≤ (nat256 m : ℝ) * 2 ^ E := by
    have : 1 ≤ nat256 m * 2 ^ E := Nat.mul_pos (by omega) (Nat.two_pow_pos _)
    exact_mod_cast this
  obtain ⟨he1, he2⟩ := estOk_range hE hx1 (by exact_mod_cast hx2')
  have hS := scaled_lt hp hE
  unfold smallInt2Scientific
  dsimp only
  by_cases hk : e - (p : ℤ) > 0
  · obtain ⟨k, hk'⟩ : ∃ k : ℕ, e - (p : ℤ) = k := ⟨(e - (p : ℤ)).toNat, by omega⟩
    have hk0 : 1 ≤ k := by omega
    rw [if_pos hk, hk', Int.toNat_natCast, Int.toNat_natCast, show (p : ℤ) - e = -(k : ℤ) by omega]
    have hsh := shl512' (⟨ZERO, m⟩ : U512) (k := E) (by omega) (by rw [small512]; exact hx2')
    rw [small512] at hsh
    generalize UInt.shl (⟨ZERO, m⟩ : U512) E = w at hsh
    obtain ⟨t, ht1, ht2⟩ := Props.C40_roundingDivPow10 w hk0
    rw [ht1]
    refine ⟨t, rfl, ?_⟩
    rw [← Props.nat_num2, ← Props.nat_num2, hsh] at ht2
    rw [u512Nat_eq]
    refine near_of_nearestEven (by positivity) ht2 ?_
    rw [zpow_neg, zpow_natCast]
    push_cast
    field_simp
  · obtain ⟨j, hj⟩ : ∃ j : ℕ, (p : ℤ) - e = j := ⟨((p : ℤ) - e).toNat, by omega⟩
    rw [hj, zpow_natCast] at hS
    rw [if_neg hk, show -(e - (p : ℤ)) = (j : ℤ) by omega, Int.toNat_natCast, show (E : ℤ) - (e - (p : ℤ)) = ((E + j : ℕ) : ℤ) by push_cast; omega,
      Int.toNat_natCast, hj, zpow_natCast]
    obtain ⟨q, hq1, hq2⟩ := pow5_get (n := j) (by omega)
    rw [hq1, Option.bind_eq_bind, Option.bind_eq_bind, Option.bind_some]
    have hreal : (nat256 m : ℝ) * 2 ^ E * 10 ^ j = ((nat256 m * (5 ^ j * 2 ^ (E + j)) : ℕ) : ℝ) := by
      rw [show (10 : ℝ) = 5 * 2 by norm_num, mul_pow]
      push_cast
      rw [pow_add]
      ring
    rw [hreal] at hS ⊢
    have hS' : nat256 m * (5 ^ j * 2 ^ (E + j)) < 2 ^ 255 := by exact_mod_cast hS
    have hsmall : 5 ^ j * 2 ^ (E + j) < 2 ^ 19 := by
      by_contra hc
      have := Nat.mul_le_mul hm0 (not_lt.mp hc)
      norm_num at this
      omega
    have hEj : E + j < 256 := by
      by_contra hc
      have h1 : 2 ^ 256 ≤ 2 ^ (E + j) := Nat.pow_le_pow_right (by norm_num) (by omega)
      have h2 : 1 ≤ 5 ^ j := Nat.one_le_pow _ _ (by norm_num)
      have := Nat.mul_le_mul h2 h1
      omega
    have hsh := shl256 q hEj (by rw [hq2]; omega)
    rw [hq2] at hsh
    generalize UInt.shl q (E + j) = d at hsh
    have hw := wideningMul512 m d
    rw [hsh] at hw
    refine ⟨_, rfl, ?_⟩
    rw [u512Nat_eq, hw]
    exact near_self rfl

end Verif
