import Verif.Proofs.ToStrShortest
import Verif.Props.Log

/-!
# Proofs about formatting, part 9: the numbers of very large and very small magnitude

There the entries of the tables are rounded, so that the three numbers are scaled by a factor which is not exactly a
power of ten. The relative error of the factor is below `2^-499`.
-/

namespace Verif

open BigUInt LawfulBigUInt

/-- The three numbers multiplied with an entry of a table, no flag set -/
def wideTrim (sig lo up : U256) (sh T : ℕ) : Trim where
  signif := u256TruncatingMulU512 (UInt.shl sig sh) (u512OfNat T)
  lower := u256TruncatingMulU512 (UInt.shl lo sh) (u512OfNat T)
  upper := u256TruncatingMulU512 (UInt.shl up sh) (u512OfNat T)
  remZero := false
  lowerRemZero := false

/-- The three numbers, all scaled by the same factor -/
theorem wide_scaled {sh T : ℕ} (hsh : sh ≤ 16) (hT : T < 2 ^ 512) {r : ℝ} (hr : ((2 ^ sh * T : ℕ) : ℝ) / ((2 ^ 512 : ℕ) : ℝ) = r)
    (h1 : 1 ≤ r) (h2 : r ≤ 128) {sig lo up : U256} {N k : ℕ} (hN : N < 2 ^ 237) (hN0 : 0 < N) (hs : nat256 sig = 4 * N)
    (hl : nat256 lo = 4 * N - k) (hk : 1 ≤ k) (hk' : k ≤ 2) (hu : nat256 up = 4 * N + 2) :
    Scaled (wideTrim sig lo up sh T)
      ((4 * N : ℕ) * r) ((4 * N - k : ℕ) * r) ((4 * N + 2 : ℕ) * r) r False := by
  have hQ : 0 < 2 ^ 512 := by positivity
  have sc : ∀ x : U256, nat256 x < 2 ^ 240 → nat256 (u256TruncatingMulU512 (UInt.shl x sh) (u512OfNat T)) = nat256 x * (2 ^ sh * T) / 2 ^ 512 := by
    intro x hx
    have hx' : nat256 x * 2 ^ sh < 2 ^ 256 := by
      calc nat256 x * 2 ^ sh ≤ nat256 x * 2 ^ 16 := Nat.mul_le_mul_left _ (Nat.pow_le_pow_right (by norm_num) hsh)
        _ < 2 ^ 240 * 2 ^ 16 := Nat.mul_lt_mul_of_pos_right hx (by norm_num)
        _ = 2 ^ 256 := by norm_num
    rw [scaled_spec x (by omega) hx' hT, Nat.mul_assoc]
  have l1 : nat256 sig < 2 ^ 240 := by rw [hs]; omega
  have l2 : nat256 lo < 2 ^ 240 := by rw [hl]; omega
  have l3 : nat256 up < 2 ^ 240 := by rw [hu]; omega
  have eS := sc sig l1
  have eL := sc lo l2
  have eU := sc up l3
  rw [hs] at eS
  rw [hl] at eL
  rw [hu] at eU
  clear sc
  unfold wideTrim
  generalize u256TruncatingMulU512 (UInt.shl sig sh) (u512OfNat T) = S at *
  generalize u256TruncatingMulU512 (UInt.shl lo sh) (u512OfNat T) = L at *
  generalize u256TruncatingMulU512 (UInt.shl up sh) (u512OfNat T) = U at *
  generalize 2 ^ sh * T = P at *
  have s1 := floor_le' (4 * N) P hQ
  have s2 := lt_floor' (4 * N) P hQ
  have s3 := floor_le' (4 * N - k) P hQ
  have s4 := lt_floor' (4 * N - k) P hQ
  have s5 := floor_le' (4 * N + 2) P hQ
  have s6 := lt_floor' (4 * N + 2) P hQ
  rw [hr, ← eS] at s1 s2
  rw [hr, ← eL] at s3 s4
  rw [hr, ← eU] at s5 s6
  have ls : nat256 L ≤ nat256 S := by
    rw [eS, eL]
    exact Nat.div_le_div_right (Nat.mul_le_mul_right _ (by omega))
  clear eS eL eU hr hT hsh hQ
  have hsub : ((4 * N - k : ℕ) : ℝ) = ((4 * N : ℕ) : ℝ) - k := by
    rw [Nat.cast_sub (by omega)]
  have hk1 : (1 : ℝ) ≤ k := by exact_mod_cast hk
  have hk2 : (k : ℝ) ≤ 2 := by exact_mod_cast hk'
  have bd : ∀ x y : ℕ, (y : ℝ) ≤ (x : ℝ) * r → x < 2 ^ 240 → y < 2 ^ 248 := by
    intro x y hxy hx
    have hx' : (x : ℝ) ≤ 2 ^ 240 := by exact_mod_cast hx.le
    have : (y : ℝ) ≤ 2 ^ 240 * 128 := hxy.trans (mul_le_mul hx' h2 (by linarith) (by positivity))
    have h3 : y ≤ 2 ^ 240 * 128 := by exact_mod_cast this
    omega
  have b1 := bd _ _ s1 (by omega)
  have b2 := bd _ _ s3 (by omega)
  have b3 := bd _ _ s5 (by omega)
  have w : (2 : ℕ) ^ 248 < 10 ^ 80 := by norm_num
  have hV : (0 : ℝ) < r := by linarith
  exact ⟨rfl, rfl, rfl, b2.trans w, b3.trans w, b1.trans (by norm_num), s1, s2.le, by rw [hsub]; nlinarith, by rw [hsub]; nlinarith,
    s3, s4, s5, s6.le, ls, h1, fun h => absurd h (by simp), fun h => h.elim⟩

/-- The factor for the large numbers -/
theorem wide_pos_factor {p l D sh : ℕ} (h1 : 2 ^ l ≤ p) (h2 : p < 2 ^ (l + 1)) (h3 : 10 * p ≤ 2 ^ D) (h4 : 2 ^ D < 100 * p)
    (hsh : sh + (l + 501) = D + 510) :
    sh ≤ 16 ∧ (2 ^ (l + 501) / p + 1) * 4 < 2 ^ 512 ∧
      ((2 ^ D : ℕ) : ℝ) / p ≤ ((2 ^ sh * ((2 ^ (l + 501) / p + 1) * 4) : ℕ) : ℝ) / ((2 ^ 512 : ℕ) : ℝ) ∧
      ((2 ^ sh * ((2 ^ (l + 501) / p + 1) * 4) : ℕ) : ℝ) / ((2 ^ 512 : ℕ) : ℝ) ≤ ((2 ^ D : ℕ) : ℝ) / p * (1 + 1 / 2 ^ 500) := by
  have hp : 0 < p := lt_of_lt_of_le (by positivity) h1
  have hl : p.log2 = l := (Nat.log2_eq_iff hp.ne').mpr ⟨h1, h2⟩
  have hT := table_lt hp
  rw [hl] at hT
  have hDl : D ≤ l + 7 := by
    by_contra hc
    have : 2 ^ (l + 8) ≤ 2 ^ D := Nat.pow_le_pow_right (by norm_num) (by omega)
    rw [pow_add] at this
    rw [pow_succ] at h2
    omega
  refine ⟨by omega, hT, ?_⟩
  have hpr : (0 : ℝ) < p := by exact_mod_cast hp
  have e0 : (2 : ℝ) ^ sh * 2 ^ (l + 501) = 2 ^ D * 2 ^ 510 := by rw [← pow_add, ← pow_add, hsh]
  have q1 : ((2 : ℝ) ^ (l + 501)) < p * (((2 ^ (l + 501) / p : ℕ) : ℝ) + 1) := by
    have := Nat.lt_mul_div_succ (2 ^ (l + 501)) hp
    exact_mod_cast this
  have q2 : (p : ℝ) * ((2 ^ (l + 501) / p : ℕ) : ℝ) ≤ 2 ^ (l + 501) := by
    have := Nat.mul_div_le (2 ^ (l + 501)) p
    exact_mod_cast this
  have q3 : (p : ℝ) * 2 ^ 500 ≤ 2 ^ (l + 501) := by
    have : (p : ℝ) ≤ 2 ^ (l + 1) := by exact_mod_cast h2.le
    calc (p : ℝ) * 2 ^ 500 ≤ 2 ^ (l + 1) * 2 ^ 500 := mul_le_mul_of_nonneg_right this (by positivity)
      _ = 2 ^ (l + 501) := by rw [← pow_add]
  push_cast
  generalize ((2 ^ (l + 501) / p : ℕ) : ℝ) = F at *
  generalize (2 : ℝ) ^ (l + 501) = H at *
  have hK : (0 : ℝ) < 2 ^ 500 := by positivity
  rw [show (2 : ℝ) ^ 510 = 2 ^ 500 * 1024 by rw [show (1024 : ℝ) = 2 ^ 10 by norm_num, ← pow_add]] at e0
  rw [show (2 : ℝ) ^ 512 = 2 ^ 500 * 4096 by rw [show (4096 : ℝ) = 2 ^ 12 by norm_num, ← pow_add]]
  generalize (2 : ℝ) ^ 500 = K at *
  have hs0 : (0 : ℝ) < 2 ^ sh := by positivity
  generalize (2 : ℝ) ^ sh = s at *
  generalize (2 : ℝ) ^ D = d at *
  clear hT h1 h2 h3 h4 hsh hDl hl hp
  constructor
  · rw [div_le_div_iff₀ hpr (by positivity)]
    nlinarith [mul_lt_mul_of_pos_left q1 hs0]
  · rw [show d / p * (1 + 1 / K) = (d * (K + 1)) / (p * K) by field_simp, div_le_div_iff₀ (by positivity) (by positivity)]
    have a1 : s * (p * F) ≤ s * H := mul_le_mul_of_nonneg_left q2 hs0.le
    have a2 : s * (p * K) ≤ s * H := mul_le_mul_of_nonneg_left q3 hs0.le
    have a3 : s * (p * F) * K ≤ s * H * K := mul_le_mul_of_nonneg_right a1 hK.le
    have a4 : s * H * (K + 1) = d * (K * 1024) * (K + 1) := by rw [e0]
    nlinarith

/-- The factor for the small numbers -/
theorem wide_neg_factor {p l g sh : ℕ} (h1 : 2 ^ l ≤ p) (h2 : p < 2 ^ (l + 1)) (h4 : p < 100 * 2 ^ g)
    (hsh : sh + g = l + 10) :
    sh ≤ 16 ∧ p * 2 ^ (502 - l) / 2 ^ (l - 502) < 2 ^ 512 ∧
      ((2 ^ sh * (p * 2 ^ (502 - l) / 2 ^ (l - 502)) : ℕ) : ℝ) / ((2 ^ 512 : ℕ) : ℝ) ≤ (p : ℝ) / ((2 ^ g : ℕ) : ℝ) ∧
      (p : ℝ) / ((2 ^ g : ℕ) : ℝ) * (1 - 1 / 2 ^ 500) ≤ ((2 ^ sh * (p * 2 ^ (502 - l) / 2 ^ (l - 502)) : ℕ) : ℝ) / ((2 ^ 512 : ℕ) : ℝ) := by
  have hp : 0 < p := lt_of_lt_of_le (by positivity) h1
  have hl6 : l ≤ g + 6 := by
    by_contra hc
    have : 2 ^ (g + 7) ≤ 2 ^ l := Nat.pow_le_pow_right (by norm_num) (by omega)
    rw [pow_add] at this
    omega
  obtain ⟨a, b, hab⟩ : ∃ a b, 502 - l = a ∧ l - 502 = b := ⟨_, _, rfl, rfl⟩
  have hl : l + a = b + 502 := by omega
  rw [hab.1, hab.2]
  have hb : 0 < 2 ^ b := by positivity
  have q1 : (p : ℝ) * 2 ^ a < 2 ^ b * (((p * 2 ^ a / 2 ^ b : ℕ) : ℝ) + 1) := by
    have := Nat.lt_mul_div_succ (p * 2 ^ a) hb
    exact_mod_cast this
  have q2 : (2 : ℝ) ^ b * ((p * 2 ^ a / 2 ^ b : ℕ) : ℝ) ≤ p * 2 ^ a := by
    have := Nat.mul_div_le (p * 2 ^ a) (2 ^ b)
    exact_mod_cast this
  have q3 : p * 2 ^ a / 2 ^ b < 2 ^ 512 := by
    rw [Nat.div_lt_iff_lt_mul hb]
    calc p * 2 ^ a < 2 ^ (l + 1) * 2 ^ a := Nat.mul_lt_mul_of_pos_right h2 (by positivity)
      _ = 2 ^ (b + 503) := by rw [← pow_add]; congr 1; omega
      _ ≤ 2 ^ 512 * 2 ^ b := by rw [← pow_add]; exact Nat.pow_le_pow_right (by norm_num) (by omega)
  refine ⟨by omega, q3, ?_⟩
  clear q3
  have e1 : (2 : ℝ) ^ sh * 2 ^ a * 2 ^ g = 2 ^ b * 2 ^ 512 := by
    rw [← pow_add, ← pow_add, ← pow_add]; congr 1; omega
  have q4 : (2 : ℝ) ^ b * 2 ^ 500 ≤ p * 2 ^ a := by
    calc (2 : ℝ) ^ b * 2 ^ 500 ≤ 2 ^ l * 2 ^ a := by
          rw [← pow_add, ← pow_add]; exact pow_le_pow_right₀ (by norm_num) (by omega)
      _ ≤ p * 2 ^ a := mul_le_mul_of_nonneg_right (by exact_mod_cast h1) (by positivity)
  push_cast
  generalize ((p * 2 ^ a / 2 ^ b : ℕ) : ℝ) = F at *
  have hb' : (0 : ℝ) < 2 ^ b := by positivity
  have ha' : (0 : ℝ) < 2 ^ a := by positivity
  have hg' : (0 : ℝ) < 2 ^ g := by positivity
  have hs' : (0 : ℝ) < 2 ^ sh := by positivity
  have hK : (0 : ℝ) < 2 ^ 500 := by positivity
  rw [show (2 : ℝ) ^ 512 = 2 ^ 500 * 4096 by rw [show (4096 : ℝ) = 2 ^ 12 by norm_num, ← pow_add]] at *
  generalize (2 : ℝ) ^ 500 = K at *
  generalize (2 : ℝ) ^ b = B at *
  generalize (2 : ℝ) ^ a = A at *
  generalize (2 : ℝ) ^ g = G at *
  generalize (2 : ℝ) ^ sh = s at *
  clear h1 h2 h4 hsh hl hl6 hab hb
  have hp' : (0 : ℝ) < p := by exact_mod_cast hp
  have k0 : K * 4096 = s * A * G / B := by rw [e1]; field_simp
  rw [k0]
  constructor
  · rw [div_le_div_iff₀ (by positivity) hg']
    rw [show (p : ℝ) * (s * A * G / B) = s * G / B * (p * A) by field_simp,
      show s * F * G = s * G / B * (B * F) by field_simp]
    exact mul_le_mul_of_nonneg_left q2 (by positivity)
  · rw [le_div_iff₀ (by positivity)]
    rw [show (p : ℝ) / G * (1 - 1 / K) * (s * A * G / B) = s / (B * K) * (p * A * (K - 1)) by field_simp,
      show s * F = s / (B * K) * (B * F * K) by field_simp]
    refine mul_le_mul_of_nonneg_left ?_ (by positivity)
    nlinarith

theorem ofInt32_toInt {z : ℤ} (h : -2 ^ 31 ≤ z) (h' : z < 2 ^ 31) : (BitVec.ofInt 32 z).toInt = z := by
  rw [BitVec.toInt_ofInt]
  apply Int.bmod_eq_of_le <;> omega

theorem ofInt32_toNat {n : ℕ} (h' : n < 2 ^ 31) : (BitVec.ofInt 32 (n : ℤ)).toNat = n := by
  rw [BitVec.ofInt_natCast, BitVec.toNat_ofNat]
  exact Nat.mod_eq_of_lt (by omega)

/-- The decimal exponent for the large numbers -/
theorem wide_pos_exp {e : ℕ} (he : 366 ≤ e) (he' : e ≤ 261905) :
    ∃ g : ℕ, (floorLog10Pow2 (BitVec.ofInt 32 (e : ℤ))).toInt = (g : ℤ) + 1 ∧ g ≤ e ∧ 102 < g ∧ g ≤ 225798 ∧
      10 * 5 ^ g ≤ 2 ^ (e - g) ∧ 2 ^ (e - g) < 100 * 5 ^ g := by
  have ht : (BitVec.ofInt 32 (e : ℤ)).toInt = e := ofInt32_toInt (by omega) (by omega)
  have hf := Props.floorLog10Pow2_toInt (BitVec.ofInt 32 (e : ℤ))
  obtain ⟨a, b⟩ := Props.C46_log10_pow2 (BitVec.ofInt 32 (e : ℤ)) (by rw [ht, abs_le]; omega)
  rw [ht] at hf a b
  obtain ⟨g, hg⟩ : ∃ g : ℕ, (floorLog10Pow2 (BitVec.ofInt 32 (e : ℤ))).toInt = (g : ℤ) + 1 :=
    ⟨((floorLog10Pow2 (BitVec.ofInt 32 (e : ℤ))).toInt - 1).toNat, by omega⟩
  have h1 : g ≤ e := by omega
  rw [hg] at a b
  have a' : 10 ^ (g + 1) ≤ 2 ^ e := by exact_mod_cast a
  have b' : 2 ^ e < 10 ^ (g + 2) := by exact_mod_cast b
  obtain ⟨d, rfl⟩ := Nat.exists_eq_add_of_le h1
  refine ⟨g, hg, h1, by omega, by omega, ?_, ?_⟩
  · rw [Nat.add_sub_cancel_left]
    rw [show (10 : ℕ) ^ (g + 1) = 2 ^ g * (10 * 5 ^ g) by rw [pow_succ, show (10 : ℕ) = 2 * 5 by norm_num, mul_pow]; ring, pow_add] at a'
    exact Nat.le_of_mul_le_mul_left a' (by positivity)
  · rw [Nat.add_sub_cancel_left]
    rw [show (10 : ℕ) ^ (g + 2) = 2 ^ g * (100 * 5 ^ g) by rw [pow_add, show (10 : ℕ) = 2 * 5 by norm_num, mul_pow]; ring, pow_add] at b'
    exact Nat.lt_of_mul_lt_mul_left b'

/-- The decimal exponent for the small numbers -/
theorem wide_neg_exp {n : ℕ} (hn : 710 ≤ n) (hn' : n ≤ 262380) :
    ∃ g : ℕ, (floorLog10Pow5 (BitVec.ofInt 32 (n : ℤ))).toInt = (g : ℤ) + 1 ∧ g < n ∧ 238 < g ∧ n - g ≤ 225798 ∧
      10 * 2 ^ g ≤ 5 ^ (n - g) ∧ 5 ^ (n - g) < 100 * 2 ^ g := by
  have ht : (BitVec.ofInt 32 (n : ℤ)).toInt = n := ofInt32_toInt (by omega) (by omega)
  obtain ⟨G, hG, a, b⟩ := Props.C46_log10_pow5 (BitVec.ofInt 32 (n : ℤ)) (by omega) (by omega)
  rw [ht, Int.toNat_natCast] at a b
  have c1 : n / 2 ≤ G := by
    have h : 10 ^ (n / 2) ≤ 5 ^ n := by
      calc 10 ^ (n / 2) ≤ 25 ^ (n / 2) := Nat.pow_le_pow_left (by norm_num) _
        _ = 5 ^ (2 * (n / 2)) := by rw [pow_mul]; rfl
        _ ≤ 5 ^ n := Nat.pow_le_pow_right (by norm_num) (by omega)
    have := (Nat.pow_lt_pow_iff_right (by norm_num : 1 < 10)).mp (lt_of_le_of_lt h b)
    omega
  have c2 : G ≤ n := by
    have h : 5 ^ n ≤ 10 ^ n := Nat.pow_le_pow_left (by norm_num) _
    exact (Nat.pow_le_pow_iff_right (by norm_num : 1 < 10)).mp (le_trans a h)
  obtain ⟨g, rfl⟩ : ∃ g, G = g + 1 := ⟨G - 1, by omega⟩
  have h1 : g < n := by omega
  obtain ⟨d, rfl⟩ := Nat.exists_eq_add_of_le h1.le
  refine ⟨g, by rw [hG]; push_cast; rfl, h1, by omega, by omega, ?_, ?_⟩
  · rw [Nat.add_sub_cancel_left]
    rw [show (10 : ℕ) ^ (g + 1) = 5 ^ g * (10 * 2 ^ g) by rw [pow_succ, show (10 : ℕ) = 2 * 5 by norm_num, mul_pow]; ring, pow_add] at a
    exact Nat.le_of_mul_le_mul_left a (by positivity)
  · rw [Nat.add_sub_cancel_left]
    rw [show (10 : ℕ) ^ (g + 1 + 1) = 5 ^ g * (100 * 2 ^ g) by rw [Nat.add_assoc, pow_add, show (10 : ℕ) = 2 * 5 by norm_num, mul_pow]; ring, pow_add] at b
    exact Nat.lt_of_mul_lt_mul_left b

/-- The code for the large numbers -/
theorem wide_pos {ab : Bool} {e : ℕ} (he : 366 ≤ e) (he' : e ≤ 261905) {sig lo up : U256} {N k : ℕ} (hN : N < 2 ^ 237) (hN0 : 0 < N)
    (hs : nat256 sig = 4 * N) (hl : nat256 lo = 4 * N - k) (hk : 1 ≤ k) (hk' : k ≤ 2) (hu : nat256 up = 4 * N + 2) :
    ∃ (g : ℕ) (t : Trim) (r : ℝ), g ≤ e ∧ toDec10Nonneg ab e sig lo up = some ((g : ℤ), t) ∧
      |r - ((2 ^ (e - g) : ℕ) : ℝ) / ((5 ^ g : ℕ) : ℝ)| ≤ ((2 ^ (e - g) : ℕ) : ℝ) / ((5 ^ g : ℕ) : ℝ) / 2 ^ 500 ∧
      Scaled t ((4 * N : ℕ) * r) ((4 * N - k : ℕ) * r) ((4 * N + 2 : ℕ) * r) r False := by
  obtain ⟨g, g1, g2, g3, g4, g5, g6⟩ := wide_pos_exp he he'
  have hti : (BitVec.ofInt 32 (g : ℤ)).toInt = g := ofInt32_toInt (by omega) (by omega)
  obtain ⟨l, l1, l2, l3⟩ := Props.C46_log2_pow5 (BitVec.ofInt 32 (g : ℤ)) (by omega) (by omega)
  rw [hti, Int.toNat_natCast] at l2 l3
  have hlg : l ≤ e - g := by
    by_contra hc
    have : 2 ^ (e - g) ≤ 2 ^ l := Nat.pow_le_pow_right (by norm_num) (by omega)
    omega
  have hshi : (e : ℤ) - g - ((l : ℤ) + 501) + 510 = ((e - g - l + 9 : ℕ) : ℤ) := by omega
  have hlog : Nat.log2 (5 ^ g) = l := (Nat.log2_eq_iff (by positivity)).mpr ⟨l2, l3⟩
  obtain ⟨f1, f2, f3, f4⟩ := wide_pos_factor (sh := e - g - l + 9) l2 l3 g5 g6 (by omega)
  refine ⟨g, wideTrim sig lo up (e - g - l + 9) ((2 ^ (l + 501) / 5 ^ g + 1) * 4), _, g2, ?_, ?_, wide_scaled f1 f2 rfl ?_ ?_ hN hN0 hs hl hk hk' hu⟩
  · unfold toDec10Nonneg
    rw [g1, if_pos (show (e : ℤ) > 3 by omega), show (g : ℤ) + 1 - 1 = g by ring]
    dsimp only
    rw [l1, hshi, ofInt32_toNat (by omega), if_neg (by omega), Int.toNat_natCast, lookupPow2DivPow5, hlog]
    rfl
  · rw [abs_of_nonneg (by linarith)]
    have e : ((2 ^ (e - g) : ℕ) : ℝ) / ((5 ^ g : ℕ) : ℝ) * (1 + 1 / 2 ^ 500) =
      ((2 ^ (e - g) : ℕ) : ℝ) / ((5 ^ g : ℕ) : ℝ) + ((2 ^ (e - g) : ℕ) : ℝ) / ((5 ^ g : ℕ) : ℝ) / 2 ^ 500 := by ring
    linarith
  · refine le_trans ?_ f3
    rw [le_div_iff₀ (by positivity), one_mul]
    exact Nat.cast_le.mpr (by omega)
  · refine le_trans f4 ?_
    have h100 : ((2 ^ (e - g) : ℕ) : ℝ) / ((5 ^ g : ℕ) : ℝ) ≤ 100 := by
      rw [div_le_iff₀ (by positivity)]
      have : ((2 ^ (e - g) : ℕ) : ℝ) ≤ ((100 * 5 ^ g : ℕ) : ℝ) := Nat.cast_le.mpr g6.le
      rwa [Nat.cast_mul] at this
    have hd : (1 : ℝ) / 2 ^ 500 ≤ 1 / 4 := by
      apply one_div_le_one_div_of_le (by norm_num)
      calc (4 : ℝ) = 2 ^ 2 := by norm_num
        _ ≤ 2 ^ 500 := pow_le_pow_right₀ (by norm_num) (by norm_num)
    have h0 : 0 ≤ ((2 ^ (e - g) : ℕ) : ℝ) / ((5 ^ g : ℕ) : ℝ) := by positivity
    generalize ((2 ^ (e - g) : ℕ) : ℝ) / ((5 ^ g : ℕ) : ℝ) = x at *
    generalize (1 : ℝ) / 2 ^ 500 = y at *
    clear f2 f3 f4
    nlinarith

/-- The code for the small numbers -/
theorem wide_neg {ab ni : Bool} {n : ℕ} (hn : 710 ≤ n) (hn' : n ≤ 262380) {sig lo up : U256} {N k : ℕ} (hN : N < 2 ^ 237) (hN0 : 0 < N)
    (hs : nat256 sig = 4 * N) (hl : nat256 lo = 4 * N - k) (hk : 1 ≤ k) (hk' : k ≤ 2) (hu : nat256 up = 4 * N + 2) :
    ∃ (g : ℕ) (t : Trim) (r : ℝ), g ≤ n ∧ toDec10Neg ab ni (-(n : ℤ)) sig lo up = (-(n : ℤ) + g, t) ∧
      |r - ((5 ^ (n - g) : ℕ) : ℝ) / ((2 ^ g : ℕ) : ℝ)| ≤ ((5 ^ (n - g) : ℕ) : ℝ) / ((2 ^ g : ℕ) : ℝ) / 2 ^ 500 ∧
      Scaled t ((4 * N : ℕ) * r) ((4 * N - k : ℕ) * r) ((4 * N + 2 : ℕ) * r) r False := by
  obtain ⟨g, g1, g2, g3, g4, g5, g6⟩ := wide_neg_exp hn hn'
  have hti : (BitVec.ofInt 32 ((n - g : ℕ) : ℤ)).toInt = ((n - g : ℕ) : ℤ) := ofInt32_toInt (by omega) (by omega)
  obtain ⟨l', k1, k2, k3⟩ := Props.C46_log2_pow5 (BitVec.ofInt 32 ((n - g : ℕ) : ℤ)) (by omega) (by omega)
  obtain ⟨l, l1, l2, l3⟩ := Props.C46_ceil_log2_pow5_partial (BitVec.ofInt 32 ((n - g : ℕ) : ℤ)) (by omega) (by omega)
  rw [hti, Int.toNat_natCast] at l2 l3 k2 k3
  clear k1
  have hll : l' = l := by
    have a1 := (Nat.pow_lt_pow_iff_right (by norm_num : 1 < 2)).mp (lt_of_lt_of_le l2 k3.le)
    have a2 := (Nat.pow_le_pow_iff_right (by norm_num : 1 < 2)).mp (le_trans k2 l3)
    rcases Nat.lt_or_ge l l' with h | h
    · have h' : l' = l + 1 := by omega
      rw [h'] at k2
      have h5 : 2 ^ (l + 1) = 5 ^ (n - g) := le_antisymm k2 l3
      have : 2 ∣ 5 ^ (n - g) := by rw [← h5, pow_succ]; exact Dvd.intro_left _ rfl
      have h6 : 5 ^ (n - g) % 2 = 1 := by rw [Nat.pow_mod]; simp
      omega
    · omega
  subst hll
  generalize hC : (ceilLog2Pow5 (BitVec.ofInt 32 ((n - g : ℕ) : ℤ))).toInt = C at l1
  have hlg : g ≤ l' + 10 := by
    by_contra hc
    have : 2 ^ (l' + 1) ≤ 2 ^ g := Nat.pow_le_pow_right (by norm_num) (by omega)
    omega
  have hlog : Nat.log2 (5 ^ (n - g)) = l' := (Nat.log2_eq_iff (by positivity)).mpr ⟨k2, k3⟩
  obtain ⟨f1, f2, f3, f4⟩ := wide_neg_factor (sh := l' + 10 - g) k2 k3 g6 (by omega)
  have hsub : (n : ℤ) - g = ((n - g : ℕ) : ℤ) := by omega
  have hshi : 510 - (g : ℤ) + ((l' : ℤ) + 1 - 501) = ((l' + 10 - g : ℕ) : ℤ) := by omega
  have hx10 : 10 ≤ ((5 ^ (n - g) : ℕ) : ℝ) / ((2 ^ g : ℕ) : ℝ) := by
    rw [le_div_iff₀ (by positivity)]
    have : ((10 * 2 ^ g : ℕ) : ℝ) ≤ ((5 ^ (n - g) : ℕ) : ℝ) := Nat.cast_le.mpr g5
    rwa [Nat.cast_mul] at this
  have hx100 : ((5 ^ (n - g) : ℕ) : ℝ) / ((2 ^ g : ℕ) : ℝ) ≤ 100 := by
    rw [div_le_iff₀ (by positivity)]
    have : ((5 ^ (n - g) : ℕ) : ℝ) ≤ ((100 * 2 ^ g : ℕ) : ℝ) := Nat.cast_le.mpr g6.le
    rwa [Nat.cast_mul] at this
  refine ⟨g, wideTrim sig lo up (l' + 10 - g) (5 ^ (n - g) * 2 ^ (502 - l') / 2 ^ (l' - 502)), _, g2.le, ?_, ?_,
    wide_scaled f1 f2 rfl ?_ ?_ hN hN0 hs hl hk hk' hu⟩
  · unfold toDec10Neg
    rw [neg_neg, g1, if_neg (show ¬-(n : ℤ) = -1 by omega), show (g : ℤ) + 1 - 1 = g by ring]
    dsimp only
    rw [hsub, hC, l1, hshi, ofInt32_toNat (by omega), if_neg (by omega), if_neg (by omega), Int.toNat_natCast, lookupPow5DivPow2, hlog]
    rfl
  · rw [abs_of_nonpos (by linarith)]
    have e : ((5 ^ (n - g) : ℕ) : ℝ) / ((2 ^ g : ℕ) : ℝ) * (1 - 1 / 2 ^ 500) =
      ((5 ^ (n - g) : ℕ) : ℝ) / ((2 ^ g : ℕ) : ℝ) - ((5 ^ (n - g) : ℕ) : ℝ) / ((2 ^ g : ℕ) : ℝ) / 2 ^ 500 := by ring
    linarith
  · refine le_trans ?_ f4
    have hd : (1 : ℝ) / 2 ^ 500 ≤ 1 / 4 := by
      apply one_div_le_one_div_of_le (by norm_num)
      calc (4 : ℝ) = 2 ^ 2 := by norm_num
        _ ≤ 2 ^ 500 := pow_le_pow_right₀ (by norm_num) (by norm_num)
    generalize ((5 ^ (n - g) : ℕ) : ℝ) / ((2 ^ g : ℕ) : ℝ) = x at *
    generalize (1 : ℝ) / 2 ^ 500 = y at *
    clear f2 f3 f4
    nlinarith
  · linarith

/-- What comes before the scaling -/
theorem shortest_pre {sig : U256} {N : ℕ} (q : ℤ) (h : nat256 sig = N) (hN0 : 0 < N) (hN : N < 2 ^ 237) :
    ∃ (ab ni : Bool) (sig2 lo up : U256) (k : ℕ), nat256 sig2 = 4 * N ∧ nat256 lo = 4 * N - k ∧ 1 ≤ k ∧ k ≤ 2 ∧ nat256 up = 4 * N + 2 ∧
      ∀ (E : ℤ) (t : Trim) (n : ℕ) (w : U256),
        (if q - 2 ≥ 0 then toDec10Nonneg ab (q - 2) sig2 lo up else some (toDec10Neg ab ni (q - 2) sig2 lo up)) = some (E, t) →
        trim t = some (w, (n : ℤ)) → shortestFromBinRepr sig q = some (w, E + n) := by
  have hsig : nat256 (UInt.shl sig 2) = 4 * N := by
    rw [nat_shl256_of_lt sig (by norm_num) (by rw [h]; omega), h]; ring
  generalize hab : UInt.isEven sig = ab
  generalize hs : UInt.shl sig 2 = sig2 at hsig
  generalize hni : decide (q - 2 < -(UInt.trailingZeros sig2 : Int)) = ni
  obtain ⟨k, hk, hk', hkb⟩ : ∃ k : ℕ, 1 ≤ k ∧ k ≤ 2 ∧ nat256 (U256.new 0 (1 + boolU128 ni)) = k := by
    cases ni
    · exact ⟨1, by norm_num, by norm_num, by decide⟩
    · exact ⟨2, by norm_num, by norm_num, by decide⟩
  obtain ⟨lo, hlo, hlo'⟩ := sub256 (x := sig2) (y := U256.new 0 (1 + boolU128 ni)) (by rw [hkb, hsig]; omega)
  obtain ⟨up, hup, hup'⟩ := add256 (x := sig2) (y := UInt.two) (by
    rw [hsig, show nat256 UInt.two = 2 by decide]; omega)
  rw [hsig, hkb] at hlo'
  rw [hsig, show nat256 UInt.two = 2 by decide] at hup'
  refine ⟨ab, ni, sig2, lo, up, k, hsig, hlo', hk, hk', hup', ?_⟩
  intro E t n w h1 h2
  unfold shortestFromBinRepr
  dsimp only
  rw [hs, hni, hab, hlo, Option.bind_eq_bind, Option.bind_some, hup, Option.bind_some]
  split at h1
  · rw [if_pos ‹_›, h1, Option.bind_eq_bind, Option.bind_some]
    dsimp only
    rw [h2]
    rfl
  · rw [if_neg ‹_›, h1, Option.bind_eq_bind, Option.bind_some]
    dsimp only
    rw [h2]
    rfl

/-- From the scaled number back to the number -/
theorem wide_back {N : ℕ} (hN : N < 2 ^ 237) {q E : ℤ} {n w : ℕ} {r ρ : ℝ} (hρ0 : 0 < ρ) (hρ : ρ * 10 ^ E = 2 ^ (q - 2))
    (hr : |r - ρ| ≤ ρ / 2 ^ 500) (h : |(w : ℝ) * 10 ^ n - (4 * N : ℕ) * r| ≤ 2 * r) :
    |(w : ℝ) * 10 ^ (E + n) - N * 2 ^ q| ≤ (1 / 2 + 1 / 2 ^ 260) * 2 ^ q := by
  have hX : (0 : ℝ) < 10 ^ E := zpow_pos (by norm_num) _
  have e1 : (w : ℝ) * 10 ^ (E + n) = w * 10 ^ n * 10 ^ E := by
    rw [zpow_add₀ (by norm_num), zpow_natCast]; ring
  have e2 : (2 : ℝ) ^ q = 4 * ρ * 10 ^ E := by
    rw [mul_assoc, hρ, show q = q - 2 + 2 by ring, zpow_add₀ (by norm_num), show q - 2 + 2 - 2 = q - 2 by ring]
    norm_num
    ring
  have hNr : (N : ℝ) ≤ 2 ^ 237 := by exact_mod_cast hN.le
  have main : |(w : ℝ) * 10 ^ n - N * (4 * ρ)| ≤ (1 / 2 + 1 / 2 ^ 260) * (4 * ρ) := by
    have hK : (2 : ℝ) ^ 500 = 2 ^ 237 * (2 ^ 260 * 8) := by
      rw [show (8 : ℝ) = 2 ^ 3 by norm_num, ← pow_add, ← pow_add]
    have hNe : (N : ℝ) * |r - ρ| ≤ 2 ^ 237 * (ρ / 2 ^ 500) := mul_le_mul hNr hr (abs_nonneg _) (by positivity)
    have e3 : (2 : ℝ) ^ 237 * (ρ / 2 ^ 500) = ρ / (2 ^ 260 * 8) := by
      rw [hK]; field_simp
    have e4 : |r - ρ| ≤ ρ / (2 ^ 260 * 8) := by
      refine hr.trans ?_
      rw [hK]
      apply div_le_div_of_nonneg_left hρ0.le (by positivity)
      have : (1 : ℝ) ≤ 2 ^ 237 := one_le_pow₀ (by norm_num)
      exact le_mul_of_one_le_left (by positivity) this
    have e5 : ρ / (2 ^ 260 * 8) = 1 / 2 ^ 260 * ρ / 8 := by field_simp
    rw [e3, e5] at hNe
    rw [e5] at e4
    have hy : 0 ≤ (1 : ℝ) / 2 ^ 260 * ρ := by positivity
    have tri : |(w : ℝ) * 10 ^ n - N * (4 * ρ)| ≤ |(w : ℝ) * 10 ^ n - (4 * N : ℕ) * r| + 4 * (N * |r - ρ|) := by
      have : (w : ℝ) * 10 ^ n - N * (4 * ρ) = ((w : ℝ) * 10 ^ n - (4 * N : ℕ) * r) + 4 * (N * (r - ρ)) := by push_cast; ring
      rw [this]
      refine (abs_add_le _ _).trans ?_
      rw [abs_mul 4, abs_mul (N : ℝ), abs_of_pos (by norm_num : (0 : ℝ) < 4), abs_of_nonneg (show (0 : ℝ) ≤ N from Nat.cast_nonneg N)]
    have h5 := (abs_le.mp e4).2
    have e6 : (1 / 2 + 1 / 2 ^ 260) * (4 * ρ) = 2 * ρ + 4 * (1 / 2 ^ 260 * ρ) := by ring
    rw [e6]
    linarith
  rw [e1, e2, show (w : ℝ) * 10 ^ n * 10 ^ E - N * (4 * ρ * 10 ^ E) = ((w : ℝ) * 10 ^ n - N * (4 * ρ)) * 10 ^ E by ring, abs_mul,
    abs_of_pos hX, show (1 / 2 + 1 / 2 ^ 260) * (4 * ρ * (10 : ℝ) ^ E) = (1 / 2 + 1 / 2 ^ 260) * (4 * ρ) * 10 ^ E by ring]
  exact mul_le_mul_of_nonneg_right main hX.le

/-- For every finite number other than zero, the decimal number is within half a unit in the last place, up to the error of
the tables. -/
theorem shortest_wide {sig : U256} {N : ℕ} {q : ℤ} (h : nat256 sig = N) (hN0 : 0 < N) (hN : N < 2 ^ 237) (hq : -262378 ≤ q)
    (hq' : q ≤ 261907) :
    ∃ (w : U256) (j : ℤ), shortestFromBinRepr sig q = some (w, j) ∧ nat256 w ≤ 2 ^ 250 ∧
      |(nat256 w : ℝ) * 10 ^ j - N * 2 ^ q| ≤ (1 / 2 + 1 / 2 ^ 260) * 2 ^ q := by
  by_cases hmid : -707 ≤ q ∧ q ≤ 367
  · obtain ⟨w, j, h1, h2, h3, -⟩ := shortest_spec h hN0 hN hmid.1 hmid.2
    refine ⟨w, j, h1, h2, h3.trans ?_⟩
    rw [zpow_sub_one₀ (by norm_num)]
    have hp : (0 : ℝ) < 2 ^ q := zpow_pos (by norm_num) _
    have : (0 : ℝ) ≤ 1 / 2 ^ 260 * 2 ^ q := by positivity
    linarith
  obtain ⟨ab, ni, sig2, lo, up, k, hsig, hlo, hk, hk', hup, code⟩ := shortest_pre q h hN0 hN
  have hB : ∀ ρ : ℝ, ((4 * N + 2 : ℕ) : ℝ) * ρ = ((4 * N : ℕ) : ℝ) * ρ + 2 * ρ := by intro ρ; push_cast; ring
  rcases le_or_gt 0 (q - 2) with h0 | h0
  · obtain ⟨e, he⟩ := Int.eq_ofNat_of_zero_le h0
    obtain ⟨g, t, r, hle, h1, h2, h3⟩ := wide_pos (ab := ab) (e := e) (by omega) (by omega) hN hN0 hsig hlo hk hk' hup
    obtain ⟨n, w, k1, k2, -, k3, -⟩ := h3.trim (hB _)
    have h1' : toDec10Nonneg ab (q - 2) sig2 lo up = some ((g : ℤ), t) := by rw [he]; exact h1
    refine ⟨w, _, code _ t n w (by rw [if_pos h0]; exact h1') k1, k2, wide_back hN (by positivity) ?_ h2 k3⟩
    rw [he, zpow_natCast, zpow_natCast]
    obtain ⟨d, hd⟩ := Nat.exists_eq_add_of_le hle
    rw [hd, Nat.add_sub_cancel_left, show (10 : ℝ) = 2 * 5 by norm_num, mul_pow]
    push_cast
    field_simp
    rw [pow_add]; ring
  · obtain ⟨m, hm⟩ : ∃ m : ℕ, q - 2 = -(m : ℤ) := ⟨(2 - q).toNat, by omega⟩
    obtain ⟨g, t, r, hle, h1, h2, h3⟩ := wide_neg (ab := ab) (ni := ni) (n := m) (by omega) (by omega) hN hN0 hsig hlo hk hk' hup
    obtain ⟨n, w, k1, k2, -, k3, -⟩ := h3.trim (hB _)
    have h1' : toDec10Neg ab ni (q - 2) sig2 lo up = (-(m : ℤ) + g, t) := by rw [hm]; exact h1
    refine ⟨w, _, code _ t n w (by rw [if_neg (not_le.mpr h0)]; rw [h1']) k1, k2, wide_back hN (by positivity) ?_ h2 k3⟩
    rw [hm]
    obtain ⟨d, hd⟩ := Nat.exists_eq_add_of_le hle
    rw [hd, Nat.add_sub_cancel_left, show -((g + d : ℕ) : ℤ) + g = -(d : ℤ) by push_cast; ring, zpow_neg, zpow_neg, zpow_natCast,
      zpow_natCast, show (10 : ℝ) = 2 * 5 by norm_num, mul_pow]
    push_cast
    field_simp
    rw [pow_add]

end Verif
