import Verif.Proofs.BigConv
import Verif.Proofs.TrigFinal

/-!
# The operands of the inverse functions: conversions of numbers of either sign
-/

set_option exponentiation.threshold 2000

namespace Verif.Trig

open FP492 Spec BigFloat

theorem absBits_abs (x : F256) : absBits x.abs = absBits x := by
  refine nat256_inj ?_
  rw [nat_absBits, nat_absBits, pat_abs]
  omega

theorem sign01 (x : F256) : x.sign = 0 ∨ x.sign = 1 := by
  have := pat_lt x
  rw [(Props.C18_sign_predicates x).2.2]
  unfold signBit
  omega

theorem sign_abs (x : F256) : x.abs.sign = 0 := by
  have := (Props.C18_abs x).1
  rwa [← (Props.C18_sign_predicates x.abs).2.2] at this

theorem abs_fin {x : F256} (hf : IsFin x.pat) : IsFin x.abs.pat := by
  have hlt := pat_lt x
  rw [fin_iff] at *
  rw [pat_abs]
  omega

theorem abs_not_zero {x : F256} (h0 : ¬ IsZero x.pat) : ¬ IsZero x.abs.pat := by
  have hlt := pat_lt x
  rw [isZero_iff] at *
  rw [pat_abs]
  omega

/-- `x` has the sign of its sign bit. -/
theorem val_abs_sign (x : F256) : val x.pat = (if x.sign = 0 then 1 else -1) * val x.abs.pat := by
  have h := (Props.C18_abs x).1
  have hs := (Props.C18_sign_predicates x).2.2
  have hm : mag x.abs.pat = mag x.pat := by rw [← mag_abs x.abs.pat, (Props.C18_abs x).2, mag_abs]
  rw [val_eq, val_eq, h, hm, hs, pow_zero, one_mul]
  rcases sign01 x with g | g
  · rw [hs] at g; rw [g, if_pos rfl, pow_zero]
  · rw [hs] at g; rw [g, if_neg (by norm_num), pow_one]

/-- The conversion to a fixed point number commutes with the sign. -/
theorem fpFrom_sign {x : F256} (hf : IsFin x.pat) (h0 : ¬ IsZero x.pat) :
    FP492.fromF256 x = if x.sign = 0 then FP492.fromF256 x.abs else ineg (FP492.fromF256 x.abs) := by
  obtain ⟨c, hc, hm⟩ := splitEnc_parts x hf h0
  obtain ⟨d, hd, hn⟩ := splitEnc_parts x.abs (abs_fin hf) (abs_not_zero h0)
  have hlt := pat_lt x
  have e1 : significandOf x.abs.pat = significandOf x.pat := by
    rw [pat_abs]; unfold significandOf expField fracField; split <;> split <;> omega
  have e2 : quantumExp x.abs.pat = quantumExp x.pat := by
    rw [pat_abs]; unfold quantumExp expField; split <;> split <;> omega
  have hcd : c = d := nat256_inj (by rw [hm, hn, e1])
  obtain ⟨p1, p2, p3⟩ := Props.C18_sign_predicates x
  have q : x.abs.isSignNegative = false := not_signNegative (Props.C18_abs x).1
  unfold FP492.fromF256
  rw [hc, hd, e2, hcd]
  dsimp only
  rw [q, if_neg Bool.false_ne_true]
  rcases sign01 x with g | g
  · rw [if_neg (by rw [p2, ← p3, g]; norm_num), if_pos g]
  · rw [if_pos (by rw [p2, ← p3, g]), if_neg (by rw [g]; norm_num)]

/-- The fixed point number is exact for normal exponents from -256 to 18. -/
theorem fpFrom_exact {x : F256} {m : ℕ} {E : ℤ} (hf : IsFin x.pat) (h0 : ¬ IsZero x.pat) (h : Arg x.abs m E) (hE : E ≤ 17)
    (hE2 : -256 ≤ E) : (sval (FP492.fromF256 x) : ℝ) / 2 ^ 492 = val x.pat := by
  have h1 := sval_from_exact h (by omega) hE2
  rw [fpFrom_sign hf h0, val_abs_sign x, ← h1]
  by_cases g : x.sign = 0
  · rw [if_pos g, if_pos g, one_mul]
  · rw [if_neg g, if_neg g, sval_ineg, Int.cast_neg]
    · ring
    · rw [sval_from h (by omega)]
      intro hc
      have := Int.natCast_nonneg (m * 2 ^ (Max.max 0 (Min.min E 19)).toNat * 2 ^ 256 /
        2 ^ (Max.max (-492) (Min.min E 0)).natAbs)
      rw [hc] at this
      exact absurd this (by norm_num)

theorem exp_arith {Q a b c : ℤ} {k : ℕ} (hk : k < 237) (h : a + 1 - b - c = Q + 236) :
    a + 1 - b - c - ((254 - k : ℕ) : ℤ) + 18 = Q + k := by omega

theorem exp_split (Q : ℤ) {k : ℕ} (hk : k < 237) : Q + k - 254 + ((254 - k : ℕ) : ℤ) = Q := by omega

/-- The conversion to the larger format is exact for all finite numbers. -/
theorem bigFrom_spec {x : F256} (h0 : ¬ IsZero x.pat) :
    Norm (BigFloat.fromF256 x) ∧ bval (BigFloat.fromF256 x) = val x.pat := by
  have hz : x.eqZero = false := by
    rw [Bool.eq_false_iff, ne_eq, eqZero_iff, ← isZero_iff]; exact h0
  have hsg := signif_abs x
  obtain ⟨m, hm⟩ : ∃ m, m = significandOf x.pat := ⟨_, rfl⟩
  rw [← hm] at hsg
  have hm0 : m ≠ 0 := by
    rw [hm, significandOf]
    unfold IsZero at h0
    split <;> omega
  have hm1 : m < 2 ^ 237 := by
    rw [hm, significandOf]
    unfold fracField
    split <;> omega
  obtain ⟨k, hk, k1, k2⟩ := exists_log hm0 hm1
  have hl := lz256_of (z := signif (absBits x)) (k := k) (by rw [hsg]; exact k1) (by rw [hsg]; exact k2)
  have hsh : u32Sub (UInt.leadingZeros (signif (absBits x))) 1 = 254 - k := by
    rw [hl, u32Sub_eq (by omega) (by omega)]
    omega
  have hlt : m * 2 ^ (254 - k) < 2 ^ 255 := by
    have := Nat.mul_lt_mul_of_pos_right k2 (Nat.two_pow_pos (254 - k))
    rwa [← Nat.pow_add, show k + 1 + (254 - k) = 255 by omega] at this
  have hge : 2 ^ 254 ≤ m * 2 ^ (254 - k) := by
    have := Nat.mul_le_mul_right (2 ^ (254 - k)) k1
    rwa [← Nat.pow_add, show k + (254 - k) = 254 by omega] at this
  have hns : nat256 (U256.shiftLeft (signif (absBits x)) (254 - k)) = m * 2 ^ (254 - k) := by
    rw [← hsg]
    exact nat_shiftLeft (by omega) (by rw [hsg]; exact hlt.trans (by norm_num))
  have hexp : (expBits (absBits x) : ℤ) + 1 - normBit (absBits x) - EXP_BIAS = quantumExp x.pat + 236 := by
    have hA := nat_absBits x
    have hlt := pat_lt x
    rw [expBits_abs, normBit_eq, hA, show ((EXP_BIAS : ℕ) : ℤ) = 262143 by decide, quantumExp]
    by_cases hc : expField x.pat = 0
    · rw [if_pos hc, hc, if_neg (by unfold expField at hc; omega)]
      norm_num
    · rw [if_neg hc, if_pos (by unfold expField at hc; omega)]
      push_cast
      omega
  have hexp2 : (expBits (absBits x) : ℤ) + 1 - normBit (absBits x) - EXP_BIAS - ((254 - k : ℕ) : ℤ) + 18 =
      quantumExp x.pat + k := by
    exact exp_arith hk hexp
  clear hexp
  have hfrom : BigFloat.fromF256 x = ⟨if x.sign = 0 then 1 else -1, quantumExp x.pat + k,
      U256.shiftLeft (signif (absBits x)) (254 - k)⟩ := by
    unfold BigFloat.fromF256
    dsimp only
    rw [hz, if_neg (by decide), hsh, hexp2]
  rw [hfrom]
  refine ⟨⟨?_, ?_, ?_⟩, ?_⟩
  · show Sgn (if x.sign = 0 then 1 else -1)
    split
    · exact Or.inl rfl
    · exact Or.inr rfl
  · show 2 ^ 254 ≤ nat256 (U256.shiftLeft (signif (absBits x)) (254 - k))
    rw [hns]; exact hge
  · show nat256 (U256.shiftLeft (signif (absBits x)) (254 - k)) < 2 ^ 255
    rw [hns]; exact hlt
  · unfold bval
    dsimp only
    have hq := exp_split (quantumExp x.pat) hk
    generalize quantumExp x.pat + k - 254 = P at *
    rw [hns, val, ← (Props.C18_sign_predicates x).2.2, ← hm, ← hq, zpow_add_nat]
    rcases sign01 x with g | g
    · rw [g, if_pos rfl, pow_zero]
      push_cast
      ring
    · rw [g, if_neg (by norm_num), pow_one]
      push_cast
      ring

end Verif.Trig
