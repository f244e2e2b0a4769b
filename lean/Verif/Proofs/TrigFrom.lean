import Verif.Proofs.TrigApprox
import Verif.Proofs.Codec

/-!
# The conversion of `f256` numbers to fixed point numbers
-/

set_option exponentiation.threshold 2000

namespace Verif.Trig

open FP492 Spec

/-- The parts of a finite nonzero number -/
theorem splitEnc_parts (x : F256) (hf : IsFin x.pat) (h0 : ¬ IsZero x.pat) : ∃ c : U256,
    F256.splitEnc x = (signBit x.pat, quantumExp x.pat, c) ∧ nat256 c = significandOf x.pat := by
  have hlt := pat_lt x
  have hA := nat_absBits x
  rw [isZero_iff] at h0
  have hfr := nat_fraction (absBits x)
  rw [hA] at hfr
  have hfr' : nat256 (fraction (absBits x)) = fracField x.pat := by
    rw [hfr]; unfold fracField; omega
  have hfz : fraction (absBits x) = U256.new 0 0 ↔ nat256 (fraction (absBits x)) = 0 :=
    ⟨fun h => by rw [h]; decide, fun h => nat256_inj (by rw [h]; decide)⟩
  unfold F256.splitEnc
  dsimp only
  rw [expField_pat, sign_eq, ← signBit_eq hlt]
  have hb : ((EXP_BIAS : ℤ) + FRACTION_BITS) = 262379 := by decide
  by_cases c1 : expField x.pat = 0
  · have hz : ¬ (fraction (absBits x) = U256.new 0 0) := by
      rw [hfz, hfr]
      unfold expField at c1; omega
    rw [if_neg (fun h => hz h.2), if_pos c1]
    refine ⟨_, ?_, by rw [hfr', significandOf, if_pos c1]⟩
    rw [quantumExp, if_pos c1, hb]
    rfl
  · have hne : expField x.pat ≠ EXP_MAX := hf
    rw [if_neg (fun h => c1 h.1), if_neg c1, if_neg hne]
    refine ⟨U256.new ((fraction (absBits x)).hi ||| HI_FRACTION_BIAS) (fraction (absBits x)).lo, ?_, ?_⟩
    · rw [quantumExp, if_neg c1, hb]
      have : (expField x.pat : ℤ) - 262379 = expField x.pat - 262143 - 236 := by ring
      rw [this]
    · have hl := (fraction (absBits x)).lo.isLt
      have hfl : (fraction (absBits x)).hi.toNat < 2 ^ 108 := by
        have : nat256 (fraction (absBits x)) < 2 ^ 236 := by rw [hfr]; omega
        unfold nat256 at this; omega
      rw [nat256_new, BitVec.toNat_or, show HI_FRACTION_BIAS.toNat = 1 * 2 ^ 108 by decide,
        or_disjoint' hfl, significandOf, if_neg c1, ← hfr']
      unfold nat256
      ring

/-- A positive finite number: significand `m`, exponent `E` -/
def Arg (x : F256) (m : ℕ) (E : ℤ) : Prop :=
  IsFin x.pat ∧ ¬ IsZero x.pat ∧ signBit x.pat = 0 ∧ significandOf x.pat = m ∧ quantumExp x.pat = E - 236

theorem Arg.val_eq {x : F256} {m : ℕ} {E : ℤ} (h : Arg x m E) : val x.pat = m * (2 : ℝ) ^ (E - 236) := by
  obtain ⟨-, -, h1, h2, h3⟩ := h
  rw [val, h1, h2, h3, pow_zero, one_mul]

theorem Arg.m_lt {x : F256} {m : ℕ} {E : ℤ} (h : Arg x m E) : m < 2 ^ 237 := by
  obtain ⟨-, -, -, h2, -⟩ := h
  rw [← h2, significandOf]
  unfold fracField
  split <;> omega

theorem Arg.m_pos {x : F256} {m : ℕ} {E : ℤ} (h : Arg x m E) : 0 < m := by
  obtain ⟨-, h0, -, h2, -⟩ := h
  unfold IsZero at h0
  rw [← h2, significandOf]
  split <;> omega

theorem Arg.m_ge {x : F256} {m : ℕ} {E : ℤ} (h : Arg x m E) (hE : -262142 < E) : 2 ^ 236 ≤ m := by
  obtain ⟨-, -, -, h2, h3⟩ := h
  rw [quantumExp] at h3
  rw [← h2, significandOf]
  split
  · rename_i hc
    rw [if_pos hc] at h3
    omega
  · omega

theorem Arg.E_range {x : F256} {m : ℕ} {E : ℤ} (h : Arg x m E) : -262142 ≤ E ∧ E ≤ 262143 := by
  obtain ⟨h1, -, -, -, h3⟩ := h
  rw [quantumExp] at h3
  unfold IsFin at h1
  have : expField x.pat < 2 ^ 19 := by unfold expField; omega
  split at h3 <;> omega

theorem exists_arg (x : F256) (hf : IsFin x.pat) (h0 : ¬ IsZero x.pat) (hs : signBit x.pat = 0) :
    ∃ m E, Arg x m E := ⟨_, quantumExp x.pat + 236, hf, h0, hs, rfl, by ring⟩

theorem Arg.exponent_eq {x : F256} {m : ℕ} {E : ℤ} (h : Arg x m E) : x.exponent = E := by
  obtain ⟨-, h0, -, -, h3⟩ := h
  have hz : x.eqZero = false := by
    rw [Bool.eq_false_iff, ne_eq, eqZero_iff, ← isZero_iff]; exact h0
  have hsub : ((x.biasedExponent : ℤ) + ((decide ((x.biasedExponent : ℤ) = 0)).toNat : ℤ)) =
      ((expField x.pat - 1 : ℕ) : ℤ) + 1 := by
    rw [biasedExponent_eq]
    by_cases h : expField x.pat = 0
    · rw [h]; rfl
    · rw [decide_eq_false (by omega)]
      simp only [Bool.toNat_false]
      omega
  have : x.exponent = quantumExp x.pat + 236 := by
    unfold F256.exponent
    dsimp only
    rw [hz, hsub, quantumExp_eq]
    rw [show ((EXP_BIAS : ℕ) : ℤ) = 262143 by decide]
    simp only [Bool.not_false, Bool.toNat_true]
    ring
  rw [this, h3]
  ring

theorem not_signNegative {x : F256} (hs : signBit x.pat = 0) : x.isSignNegative = false := by
  have h := sign_eq x
  have h2 := signBit_eq (pat_lt x)
  have hl := x.bits.lo.isLt
  rw [F256.isSignNegative, decide_eq_false_iff_not, BitVec.le_def, show HI_SIGN_MASK.toNat = 2 ^ 127 by decide]
  rw [h2] at hs
  unfold F256.pat at hs
  omega

/-- The bits of a converted number -/
theorem sval_from {x : F256} {m : ℕ} {E : ℤ} (h : Arg x m E) (hE : E ≤ 18) :
    sval (FP492.fromF256 x) = ((m * 2 ^ (Max.max 0 (Min.min E 19)).toNat * 2 ^ 256 /
      2 ^ (Max.max (-492) (Min.min E 0)).natAbs : ℕ) : ℤ) := by
  obtain ⟨c, hc, hm⟩ := splitEnc_parts x h.1 h.2.1
  have hml := h.m_lt
  rw [h.2.2.2.2] at hc
  rw [h.2.2.2.1] at hm
  have hneg : ¬ x.isSignNegative = true := by rw [not_signNegative h.2.2.1]; decide
  unfold FP492.fromF256
  rw [hc]
  dsimp only
  rw [if_neg hneg, sub_add_cancel]
  obtain ⟨a, ha⟩ : ∃ a, (Max.max 0 (Min.min E 19)).toNat = a := ⟨_, rfl⟩
  obtain ⟨b, hb⟩ : ∃ b, (Max.max (-492) (Min.min E 0)).natAbs = b := ⟨_, rfl⟩
  have ha1 : a ≤ 18 := by omega
  have hb1 : b ≤ 492 := by omega
  rw [ha, hb]
  have hlt : m * 2 ^ a < 2 ^ 255 := by
    calc m * 2 ^ a ≤ m * 2 ^ 18 := Nat.mul_le_mul_left _ (Nat.pow_le_pow_right (by norm_num) ha1)
      _ < 2 ^ 237 * 2 ^ 18 := Nat.mul_lt_mul_of_pos_right hml (by norm_num)
      _ = 2 ^ 255 := by norm_num
  have h1 : nat256 (UInt.shl c a) = m * 2 ^ a := by
    rw [nat_shl256_of_lt c (by omega) (by rw [hm]; omega), hm]
  have h2 : UInt.nat (⟨UInt.shl c a, UInt.zero⟩ : U512) = m * 2 ^ a * 2 ^ 256 := by
    have : UInt.nat (⟨UInt.shl c a, UInt.zero⟩ : U512) = nat256 (UInt.shl c a) * 2 ^ 256 + nat256 UInt.zero := rfl
    rw [this, h1, show nat256 UInt.zero = 0 by decide, Nat.add_zero]
  have h3 : UInt.nat (UInt.shr (⟨UInt.shl c a, UInt.zero⟩ : U512) b) = m * 2 ^ a * 2 ^ 256 / 2 ^ b := by
    have := UInt.nat_shr (⟨UInt.shl c a, UInt.zero⟩ : U512) b (by show b < 512; omega)
    rw [this, h2]
  rw [sval_of_lt, h3]
  rw [h3]
  refine (Nat.div_le_self _ _).trans_lt ?_
  calc m * 2 ^ a * 2 ^ 256 < 2 ^ 255 * 2 ^ 256 := Nat.mul_lt_mul_of_pos_right hlt (by norm_num)
    _ = 2 ^ 511 := by norm_num

/-- The conversion is exact for exponents from -256 to 18. -/
theorem sval_from_exact {x : F256} {m : ℕ} {E : ℤ} (h : Arg x m E) (hE : E ≤ 18) (hE2 : -256 ≤ E) :
    (sval (FP492.fromF256 x) : ℝ) / 2 ^ 492 = val x.pat := by
  rw [sval_from h hE, h.val_eq, Int.cast_natCast, div_eq_iff (by positivity)]
  rcases le_or_gt 0 E with hc | hc
  · obtain ⟨n, rfl⟩ := Int.eq_ofNat_of_zero_le hc
    have e1 : (Max.max 0 (Min.min (n : ℤ) 19)).toNat = n := by omega
    have e2 : (Max.max (-492) (Min.min (n : ℤ) 0)).natAbs = 0 := by omega
    rw [e1, e2, pow_zero, Nat.div_one, Nat.cast_mul, Nat.cast_mul, Nat.cast_pow, Nat.cast_pow, Nat.cast_ofNat,
      zpow_sub₀ (by norm_num), zpow_natCast]
    have e3 : ((2 : ℝ) ^ (236 : ℤ)) = 2 ^ 236 := rfl
    rw [e3]
    field_simp
  · obtain ⟨n, rfl⟩ : ∃ n : ℕ, E = -(n : ℤ) := ⟨E.natAbs, by omega⟩
    have e1 : (Max.max 0 (Min.min (-n : ℤ) 19)).toNat = 0 := by omega
    have e2 : (Max.max (-492) (Min.min (-n : ℤ) 0)).natAbs = n := by omega
    have hn : n ≤ 256 := by omega
    have e4 : m * 2 ^ 0 * 2 ^ 256 / 2 ^ n = m * 2 ^ (256 - n) := by
      rw [pow_zero, mul_one, show 2 ^ 256 = 2 ^ (256 - n) * 2 ^ n by rw [← pow_add]; congr 1; omega, ← mul_assoc,
        Nat.mul_div_cancel _ (by positivity)]
    rw [e1, e2, e4, Nat.cast_mul, Nat.cast_pow, Nat.cast_ofNat, mul_assoc]
    congr 1
    rw [← zpow_natCast, ← zpow_natCast, ← zpow_add₀ (by norm_num)]
    congr 1
    omega

/-- The conversion of smaller numbers is off by less than two units in the last place. -/
theorem sval_from_small {x : F256} {m : ℕ} {E : ℤ} (h : Arg x m E) (hE : E < -256) :
    |(sval (FP492.fromF256 x) : ℝ) / 2 ^ 492 - val x.pat| ≤ 2 / 2 ^ 492 ∧
      |(sval (FP492.fromF256 x) : ℝ) / 2 ^ 492| ≤ 4 / 5 := by
  obtain ⟨n, rfl⟩ : ∃ n : ℕ, E = -(n : ℤ) := ⟨E.natAbs, by omega⟩
  have hml := h.m_lt
  have e1 : (Max.max 0 (Min.min (-n : ℤ) 19)).toNat = 0 := by omega
  have hv : val x.pat * 2 ^ 492 = m * 2 ^ 256 / 2 ^ n := by
    rw [h.val_eq, zpow_sub₀ (by norm_num), zpow_neg, zpow_natCast]
    have e3 : ((2 : ℝ) ^ (236 : ℤ)) = 2 ^ 236 := rfl
    rw [e3]
    field_simp
  have key : |(sval (FP492.fromF256 x) : ℝ) - val x.pat * 2 ^ 492| ≤ 2 ∧ |(sval (FP492.fromF256 x) : ℝ)| ≤ 2 ^ 300 := by
    rw [sval_from h (by omega), hv, e1, pow_zero, mul_one, Int.cast_natCast]
    by_cases hn : n ≤ 492
    · have e2 : (Max.max (-492) (Min.min (-n : ℤ) 0)).natAbs = n := by omega
      rw [e2]
      have d1 := Nat.div_mul_le_self (m * 2 ^ 256) (2 ^ n)
      have d2 := Nat.lt_div_mul_add (a := m * 2 ^ 256) (b := 2 ^ n) (by positivity)
      have d3 : m * 2 ^ 256 / 2 ^ n ≤ 2 ^ 300 := by
        refine Nat.div_le_of_le_mul ?_
        calc m * 2 ^ 256 ≤ 2 ^ 237 * 2 ^ 256 := Nat.mul_le_mul_right _ hml.le
          _ ≤ 2 ^ 256 * 2 ^ 300 := by norm_num
          _ ≤ 2 ^ n * 2 ^ 300 := Nat.mul_le_mul_right _ (Nat.pow_le_pow_right (by norm_num) (by omega))
      generalize m * 2 ^ 256 / 2 ^ n = Q at *
      have d1' : (Q : ℝ) * 2 ^ n ≤ m * 2 ^ 256 := by exact_mod_cast d1
      have d2' : (m : ℝ) * 2 ^ 256 < Q * 2 ^ n + 2 ^ n := by exact_mod_cast d2
      have d3' : (Q : ℝ) ≤ 2 ^ 300 := by exact_mod_cast d3
      have hp : (0 : ℝ) < 2 ^ n := by positivity
      have u1 : (Q : ℝ) ≤ m * 2 ^ 256 / 2 ^ n := by rw [le_div_iff₀ hp]; exact d1'
      have u2 : (m : ℝ) * 2 ^ 256 / 2 ^ n ≤ Q + 1 := by
        rw [div_le_iff₀ hp, add_mul, one_mul]; exact d2'.le
      constructor
      · rw [abs_le]; constructor <;> linarith
      · rw [Nat.abs_cast]; exact d3'
    · have e2 : (Max.max (-492) (Min.min (-n : ℤ) 0)).natAbs = 492 := by omega
      rw [e2]
      have d3 : m * 2 ^ 256 / 2 ^ 492 ≤ 2 := by omega
      generalize m * 2 ^ 256 / 2 ^ 492 = Q at *
      have d3' : (Q : ℝ) ≤ 2 := by exact_mod_cast d3
      have u2 : (m : ℝ) * 2 ^ 256 / 2 ^ n ≤ 2 := by
        rw [div_le_iff₀ (by positivity)]
        have : m * 2 ^ 256 ≤ 2 * 2 ^ n := by
          calc m * 2 ^ 256 ≤ 2 ^ 237 * 2 ^ 256 := Nat.mul_le_mul_right _ hml.le
            _ = 2 * 2 ^ 492 := by norm_num
            _ ≤ 2 * 2 ^ n := Nat.mul_le_mul_left _ (Nat.pow_le_pow_right (by norm_num) (by omega))
        exact_mod_cast this
      have u1 : (0 : ℝ) ≤ m * 2 ^ 256 / 2 ^ n := by positivity
      have u3 : (0 : ℝ) ≤ Q := by positivity
      constructor
      · rw [abs_le]; constructor <;> linarith
      · rw [Nat.abs_cast]
        refine d3'.trans (by norm_num)
  obtain ⟨k1, k2⟩ := key
  constructor
  · have : (sval (FP492.fromF256 x) : ℝ) / 2 ^ 492 - val x.pat =
        ((sval (FP492.fromF256 x) : ℝ) - val x.pat * 2 ^ 492) / 2 ^ 492 := by field_simp
    rw [this, abs_div, abs_of_pos (by positivity : (0 : ℝ) < 2 ^ 492)]
    gcongr
  · rw [abs_div, abs_of_pos (by positivity : (0 : ℝ) < 2 ^ 492), div_le_iff₀ (by positivity)]
    refine k2.trans (by norm_num)

end Verif.Trig
