import Verif.Proofs.Near
import Verif.Proofs.Exact

/-!
# A number very close to a binary256 number is rounded to it
-/

namespace Verif

open Spec

set_option exponentiation.threshold 1000

/-- The significands `a * 2^t` and `b * 2^s` are equal if their relative difference is small. -/
theorem mag_sep {a b t s : ℕ} (ha : a < 2 ^ 237) (hb : b < 2 ^ 237) (hat : t = 0 ∨ 2 ^ 236 ≤ a)
    (h1 : a * 2 ^ t * 2 ^ 243 ≤ b * 2 ^ s * 2 ^ 243 + a * 2 ^ t)
    (h2 : b * 2 ^ s * 2 ^ 243 ≤ a * 2 ^ t * 2 ^ 243 + a * 2 ^ t) : a * 2 ^ t = b * 2 ^ s := by
  rcases Nat.le_total t s with h | h
  · obtain ⟨d, rfl⟩ := Nat.exists_eq_add_of_le h
    have e : b * 2 ^ (t + d) = b * 2 ^ d * 2 ^ t := by rw [pow_add]; ring
    rw [e] at h1 h2 ⊢
    have hp : 0 < 2 ^ t := Nat.two_pow_pos t
    generalize b * 2 ^ d = c at *
    have g1 : a * 2 ^ 243 ≤ c * 2 ^ 243 + a := by
      refine Nat.le_of_mul_le_mul_right ?_ hp
      calc _ = a * 2 ^ t * 2 ^ 243 := by ring
        _ ≤ _ := h1
        _ = _ := by ring
    have g2 : c * 2 ^ 243 ≤ a * 2 ^ 243 + a := by
      refine Nat.le_of_mul_le_mul_right ?_ hp
      calc _ = c * 2 ^ t * 2 ^ 243 := by ring
        _ ≤ _ := h2
        _ = _ := by ring
    have : a = c := by omega
    rw [this]
  · rcases Nat.eq_or_lt_of_le h with h | h
    · subst h
      have hp : 0 < 2 ^ s := Nat.two_pow_pos s
      have g1 : a * 2 ^ 243 ≤ b * 2 ^ 243 + a := by
        refine Nat.le_of_mul_le_mul_right ?_ hp
        calc _ = a * 2 ^ s * 2 ^ 243 := by ring
          _ ≤ _ := h1
          _ = _ := by ring
      have g2 : b * 2 ^ 243 ≤ a * 2 ^ 243 + a := by
        refine Nat.le_of_mul_le_mul_right ?_ hp
        calc _ = b * 2 ^ s * 2 ^ 243 := by ring
          _ ≤ _ := h2
          _ = _ := by ring
      have : a = b := by omega
      rw [this]
    · exfalso
      obtain ⟨d, rfl⟩ := Nat.exists_eq_add_of_lt h
      have ha2 : 2 ^ 236 ≤ a := by omega
      have e : a * 2 ^ (s + d + 1) = a * (2 ^ d * 2) * 2 ^ s := by rw [pow_add, pow_add]; ring
      rw [e] at h1
      have hp : 0 < 2 ^ s := Nat.two_pow_pos s
      have hc : 2 ^ 237 ≤ a * (2 ^ d * 2) := by
        calc 2 ^ 237 = 2 ^ 236 * (1 * 2) := by norm_num
          _ ≤ a * (2 ^ d * 2) := Nat.mul_le_mul ha2 (Nat.mul_le_mul_right 2 (Nat.two_pow_pos d))
      generalize a * (2 ^ d * 2) = c at *
      have g1 : c * 2 ^ 243 ≤ b * 2 ^ 243 + c := by
        refine Nat.le_of_mul_le_mul_right ?_ hp
        calc _ = c * 2 ^ s * 2 ^ 243 := by ring
          _ ≤ _ := h1
          _ = _ := by ring
      omega

/-- Two finite patterns whose values have a small relative difference have the same value. -/
theorem val_sep {N M : ℕ} (hN : IsFin N) (hM : IsFin M) (h : |val N - val M| ≤ |val M| / 2 ^ 243) :
    val N = val M := by
  have hK : (0 : ℝ) < 2 ^ 262378 := by positivity
  rcases eq_or_ne (val M) 0 with h0 | h0
  · rw [h0, abs_zero, zero_div] at h
    rw [h0, ← sub_eq_zero]
    exact abs_eq_zero.mp (le_antisymm h (abs_nonneg _))
  have hpos : 0 < |val M| := abs_pos.mpr h0
  have hlt : |val N - val M| < |val M| := lt_of_le_of_lt h (div_lt_self hpos (by norm_num))
  have hab : |(|val N| - |val M|)| ≤ |val M| / 2 ^ 243 := (abs_abs_sub_abs_le_abs_sub _ _).trans h
  obtain ⟨t, a, a1, a2, -, -, a3, -⟩ := fin_asm hM
  obtain ⟨s, b, b1, b2, -, -, b3, -⟩ := fin_asm hN
  have eM := abs_val M
  have eN := abs_val N
  have key : mag M = mag N := by
    rw [abs_le] at hab
    have u1 : (mag M : ℝ) * 2 ^ 243 ≤ mag N * 2 ^ 243 + mag M := by
      rw [← eM, ← eN]
      generalize (2 : ℝ) ^ 262378 = K at *
      have := hab.1
      have e : |val M| / 2 ^ 243 * 2 ^ 243 = |val M| := div_mul_cancel₀ _ (by positivity)
      have g : |val M| * 2 ^ 243 ≤ |val N| * 2 ^ 243 + |val M| := by nlinarith
      nlinarith
    have u2 : (mag N : ℝ) * 2 ^ 243 ≤ mag M * 2 ^ 243 + mag M := by
      rw [← eM, ← eN]
      generalize (2 : ℝ) ^ 262378 = K at *
      have := hab.2
      have e : |val M| / 2 ^ 243 * 2 ^ 243 = |val M| := div_mul_cancel₀ _ (by positivity)
      have g : |val N| * 2 ^ 243 ≤ |val M| * 2 ^ 243 + |val M| := by nlinarith
      nlinarith
    have v1 : mag M * 2 ^ 243 ≤ mag N * 2 ^ 243 + mag M := by exact_mod_cast u1
    have v2 : mag N * 2 ^ 243 ≤ mag M * 2 ^ 243 + mag M := by exact_mod_cast u2
    rw [a3, b3] at v1 v2 ⊢
    exact mag_sep a2 b2 a1 v1 v2
  have habs : |val N| = |val M| := by
    refine mul_right_cancel₀ hK.ne' ?_
    rw [eN, eM, key]
  rcases abs_eq_abs.mp habs with e | e
  · exact e
  · exfalso
    rw [e] at hlt
    have : |(-val M - val M)| = 2 * |val M| := by
      rw [show -val M - val M = -(2 * val M) by ring, abs_neg, abs_mul, abs_of_pos (by norm_num : (0 : ℝ) < 2)]
    linarith

/-- Rounding a number with a small relative distance from a representable number gives that number. -/
theorem IsRNE.exact_close {q : ℝ} {N M : ℕ} (h : IsRNE q N) (hM : M < 2 ^ 256) (fM : IsFin M)
    (hq : |q| < overflowThreshold) (hc : |q - val M| ≤ |val M| / 2 ^ 244) : IsFin N ∧ val N = val M := by
  refine ⟨h.fin hq, val_sep (h.fin hq) fM ?_⟩
  have h1 := h.nearest hq M hM fM
  rw [abs_sub_comm (val M)] at h1
  have h2 := abs_add_le (val N - q) (q - val M)
  rw [sub_add_sub_cancel] at h2
  have e : |val M| / 2 ^ 243 = |val M| / 2 ^ 244 + |val M| / 2 ^ 244 := by ring
  linarith

/-- Integers of at most 237 bits are representable. -/
theorem exists_int_pat {k : ℤ} (hk : k.natAbs < 2 ^ 237) : ∃ M, M < 2 ^ 256 ∧ IsFin M ∧ val M = k := by
  rcases Nat.eq_zero_or_pos k.natAbs with h0 | h0
  · obtain rfl : k = 0 := by omega
    refine ⟨0, by norm_num, by decide, ?_⟩
    rw [val_zero (by decide), Int.cast_zero]
  obtain ⟨n, hn⟩ : ∃ n, k.natAbs = n := ⟨_, rfl⟩
  rw [hn] at hk h0
  have hL : n.log2 ≤ 236 := by
    have := (Nat.log2_lt h0.ne').mpr hk
    omega
  have l1 : 2 ^ n.log2 ≤ n := Nat.log2_self_le h0.ne'
  have l2 : n < 2 ^ (n.log2 + 1) := Nat.lt_log2_self
  obtain ⟨d, hd⟩ := Nat.exists_eq_add_of_le hL
  have a1 : 2 ^ 236 ≤ n * 2 ^ d := by
    rw [hd, pow_add]; exact Nat.mul_le_mul_right _ l1
  have a2 : n * 2 ^ d < 2 ^ 237 := by
    calc n * 2 ^ d < 2 ^ (n.log2 + 1) * 2 ^ d := Nat.mul_lt_mul_of_pos_right l2 (Nat.two_pow_pos d)
      _ = 2 ^ 237 := by rw [← pow_add]; congr 1; omega
  have ht : 262378 - d ≤ 524285 := by omega
  have hN : (262378 - d) * 2 ^ 236 + n * 2 ^ d < INF := by
    unfold INF
    have : (262378 - d) * 2 ^ 236 ≤ 262378 * 2 ^ 236 := Nat.mul_le_mul_right _ (by omega)
    omega
  have hmag := mag_asm (Or.inr a1) a2.le hN
  obtain ⟨A, hA⟩ : ∃ A, (262378 - d) * 2 ^ 236 + n * 2 ^ d = A := ⟨_, rfl⟩
  rw [hA] at hN hmag
  have hAl : A < 2 ^ 255 := by unfold INF at hN; omega
  obtain ⟨s, hs, hk'⟩ : ∃ s : ℕ, s ≤ 1 ∧ (k : ℝ) = (-1) ^ s * n := by
    rcases Int.natAbs_eq k with e | e
    · refine ⟨0, by norm_num, ?_⟩
      rw [e, hn]; simp
    · refine ⟨1, le_rfl, ?_⟩
      rw [e, hn]; simp
  have hmod : (s * 2 ^ 255 + A) % 2 ^ 255 = A := by omega
  have hsb : signBit (s * 2 ^ 255 + A) = s := by unfold signBit; omega
  refine ⟨s * 2 ^ 255 + A, by omega, ?_, ?_⟩
  · rw [fin_iff, hmod]; exact hN
  · have e2 : n * 2 ^ d * 2 ^ (262378 - d) = n * 2 ^ 262378 := by
      rw [mul_assoc, ← pow_add]; congr 2; omega
    rw [val_eq, hsb, ← mag_abs, hmod, hmag, e2, hk', Nat.cast_mul, Nat.cast_pow, Nat.cast_ofNat,
      mul_div_cancel_right₀ _ (pow_pos (by norm_num) _).ne']

end Verif
