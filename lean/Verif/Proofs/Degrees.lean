import Verif.Model.Degrees
import Verif.Proofs.Scale
import Verif.Proofs.Mul
import Verif.Proofs.Codec

/-!
# Multiplication by a scaled integral constant (`to_degrees`, `to_radians`)
-/

namespace Verif

open BigUInt Spec

theorem quantumExponent_eq {x : F256} (h0 : ¬ IsZero x.pat) :
    x.quantumExponent = ((expField x.pat - 1 : ℕ) : ℤ) - 262378 := by
  have hz : x.eqZero = false := by
    rw [Bool.eq_false_iff, ne_eq, eqZero_iff, ← isZero_iff]; exact h0
  have hsub : ((x.biasedExponent : ℤ) + ((decide ((x.biasedExponent : ℤ) = 0)).toNat : ℤ)) =
      ((expField x.pat - 1 : ℕ) : ℤ) + 1 := by
    rw [biasedExponent_eq]
    by_cases h : expField x.pat = 0
    · rw [h]; rfl
    · rw [decide_eq_false (by omega)]
      simp only [Bool.toNat_false]
      omega
  unfold F256.quantumExponent
  dsimp only
  rw [hz, hsub]
  rw [show ((EXP_BIAS + FRACTION_BITS : ℕ) : ℤ) = 262379 by decide]
  simp only [Bool.not_false, Bool.toNat_true]
  ring

/-- The significand handed over to `encode`. -/
theorem angle_signif {m s : U256} {L : ℕ} (hL : L ≤ 236) (hs2 : nat256 s < 2 ^ (L + 1)) :
    nat256 (UInt.roundingDivPow2 (⟨(UInt.wideningMul m s).2, (UInt.wideningMul m s).1⟩ : U512) (L + 19)).lo =
      Spec.rne (nat256 m * nat256 s) (2 ^ (L + 19)) := by
  have hm := nat256_lt m
  obtain ⟨w, hw⟩ : ∃ w : U512, w = ⟨(UInt.wideningMul m s).2, (UInt.wideningMul m s).1⟩ := ⟨_, rfl⟩
  have hwn : UInt.nat w = nat256 m * nat256 s := by
    rw [← wideningMul256 m s, hw, Nat.add_comm]
    rfl
  rw [← hw]
  have h1 := UInt.nat_roundingDivPow2 w (L + 19) (by show L + 19 < 512; omega)
  rw [hwn] at h1
  obtain ⟨z, hz⟩ : ∃ z, UInt.roundingDivPow2 w (L + 19) = z := ⟨_, rfl⟩
  rw [hz] at h1 ⊢
  have h2 : UInt.nat z = nat256 z.hi * 2 ^ 256 + nat256 z.lo := rfl
  have h3 : Spec.rne (nat256 m * nat256 s) (2 ^ (L + 19)) < 2 ^ 256 := by
    have : nat256 m * nat256 s / 2 ^ (L + 19) < 2 ^ 238 := by
      rw [Nat.div_lt_iff_lt_mul (Nat.two_pow_pos _), ← pow_add, show 238 + (L + 19) = 256 + (L + 1) by omega, pow_add]
      exact Nat.mul_lt_mul'' hm hs2
    unfold Spec.rne
    split <;> omega
  omega

/-- Both conversions: multiplication by an integer `m`, which is `μ * 2^k` up to an error of `δ`, rounding to 237 or
238 bits, and encoding. The result is the correctly rounded value of a number with relative error at most `ε`. -/
theorem scaleAngle_spec {m : U256} {k : ℕ} {μ δ ε : ℝ} (x : F256) (h0 : ¬ IsZero x.pat)
    (hμ : 0 < μ) (hm : |(nat256 m : ℝ) - μ * 2 ^ k| ≤ δ) (hδ : δ ≤ 2 ^ 19) (hm2 : 2 ^ 255 ≤ nat256 m)
    (hε : 1 / 2 + δ / 2 ^ 18 ≤ ε * ((nat256 m - δ) / 2 ^ 19))
    (hT : k ≤ expField x.pat - 1 + (significandOf x.pat).log2 + 19)
    (hub : |val x.pat * μ| * 2 ^ 262378 ≤ (1 - 1 / 2 ^ 200) * 2 ^ (237 + 524285)) :
    ∃ q', IsRNE q' (F256.scaleAngle m k x).pat ∧ |q' - val x.pat * μ| ≤ ε * |val x.pat * μ| ∧
      signBit (F256.scaleAngle m k x).pat = signBit x.pat := by
  have hsig := integralSignificand_eq x
  have hs0 : significandOf x.pat ≠ 0 := by
    unfold significandOf
    unfold IsZero at h0
    split
    · intro h; apply h0; constructor <;> assumption
    · positivity
  have hslt : significandOf x.pat < 2 ^ 237 := by
    have : fracField x.pat < 2 ^ 236 := Nat.mod_lt _ (by norm_num)
    unfold significandOf; split <;> omega
  obtain ⟨L, hL⟩ : ∃ L, L = (significandOf x.pat).log2 := ⟨_, rfl⟩
  have hlo : 2 ^ L ≤ significandOf x.pat := hL ▸ Nat.log2_self_le hs0
  have hhi : significandOf x.pat < 2 ^ (L + 1) := hL ▸ Nat.lt_log2_self
  have hL236 : L ≤ 236 := by
    by_contra hc
    have : 2 ^ 237 ≤ 2 ^ L := Nat.pow_le_pow_right (by norm_num) (by omega)
    omega
  rw [← hL] at hT
  have hlz : leadingZeros x.integralSignificand = 255 - L := by
    rw [leadingZeros256 (by rw [hsig]; exact hs0), hsig, hL]
  have hsh : (256 + 4294967296 - leadingZeros x.integralSignificand - 1 + 256 - SIGNIFICAND_BITS) % 4294967296
      = L + 19 := by
    rw [hlz, show SIGNIFICAND_BITS = 237 from rfl]
    omega
  have hC := angle_signif (m := m) (s := x.integralSignificand) hL236 (by rw [hsig]; exact hhi)
  have hsgn : x.sign = signBit x.pat := by rw [sign_eq, ← signBit_eq (pat_lt x)]
  have hmag := abs_val x.pat
  unfold mag at hmag
  unfold F256.scaleAngle
  dsimp only
  rw [hsh, hsgn, quantumExponent_eq h0]
  rw [hsig] at hC
  obtain ⟨c, hc⟩ : ∃ c, (UInt.roundingDivPow2 (⟨(UInt.wideningMul m x.integralSignificand).2,
    (UInt.wideningMul m x.integralSignificand).1⟩ : U512) (L + 19)).lo = c := ⟨_, rfl⟩
  rw [hc] at hC ⊢
  obtain ⟨T, hT⟩ : ∃ T, T + k = expField x.pat - 1 + L + 19 := ⟨expField x.pat - 1 + L + 19 - k, by omega⟩
  have hr := (RNE.of_rne (nat256 m * significandOf x.pat) (Nat.two_pow_pos (L + 19))).1
  rw [← hC, Nat.cast_mul, Nat.cast_pow, Nat.cast_ofNat] at hr
  obtain ⟨e, he⟩ : ∃ e, expField x.pat - 1 = e := ⟨_, rfl⟩
  rw [he] at hT hmag ⊢
  have hloR : (2 : ℝ) ^ L ≤ significandOf x.pat := by exact_mod_cast hlo
  have hhiR : (significandOf x.pat : ℝ) ≤ 2 ^ (L + 1) := by exact_mod_cast hhi.le
  have hm2R : (2 : ℝ) ^ 255 ≤ nat256 m := by exact_mod_cast hm2
  obtain ⟨S, hS⟩ : ∃ S : ℝ, (significandOf x.pat : ℝ) = S := ⟨_, rfl⟩
  obtain ⟨m', hm'⟩ : ∃ m' : ℝ, (nat256 m : ℝ) = m' := ⟨_, rfl⟩
  rw [Nat.cast_mul, Nat.cast_pow, Nat.cast_ofNat] at hmag
  rw [hS] at hr hloR hhiR hmag
  rw [hm'] at hr hm hε hm2R
  obtain ⟨a, ha⟩ : ∃ a, a = μ * 2 ^ k * S / 2 ^ (L + 19) := ⟨_, rfl⟩
  have hP : (0 : ℝ) < 2 ^ L := by positivity
  have h2T : (0 : ℝ) < 2 ^ T := by positivity
  have hK : (0 : ℝ) < 2 ^ 262378 := by positivity
  -- the exact product
  have hq : |val x.pat * μ| * 2 ^ 262378 = a * 2 ^ T := by
    rw [abs_mul, abs_of_pos hμ, mul_right_comm, hmag, ha]
    rw [div_mul_eq_mul_div, eq_div_iff (by positivity)]
    have : (2 : ℝ) ^ k * 2 ^ T = 2 ^ e * 2 ^ (L + 19) := by
      rw [← pow_add, ← pow_add, show k + T = e + (L + 19) by omega]
    linear_combination (-(μ * S)) * this
  have hr1 : 1 / 2 ^ 19 ≤ S / 2 ^ (L + 19) := by
    rw [pow_add, div_le_div_iff₀ (by positivity) (by positivity), one_mul]
    exact mul_le_mul_of_nonneg_right hloR (by positivity)
  have hr2 : S / 2 ^ (L + 19) ≤ 1 / 2 ^ 18 := by
    rw [div_le_div_iff₀ (by positivity) (by positivity)]
    calc S * 2 ^ 18 ≤ 2 ^ (L + 1) * 2 ^ 18 := mul_le_mul_of_nonneg_right hhiR (by positivity)
      _ = 1 * 2 ^ (L + 19) := by rw [← pow_add, one_mul, show L + 1 + 18 = L + 19 by omega]
  obtain ⟨r, hrr⟩ : ∃ r, r = S / 2 ^ (L + 19) := ⟨_, rfl⟩
  rw [mul_div_assoc, ← hrr] at hr
  rw [mul_div_assoc, ← hrr] at ha
  rw [← hrr] at hr1 hr2
  have hδ0 : 0 ≤ δ := (abs_nonneg _).trans hm
  have hmm := abs_le.mp hm
  have hr0 : 0 < r := lt_of_lt_of_le (by positivity) hr1
  have hma : |m' * r - a| ≤ δ / 2 ^ 18 := by
    rw [ha, ← sub_mul, abs_mul, abs_of_pos hr0]
    calc _ ≤ δ * (1 / 2 ^ 18) := mul_le_mul hm hr2 hr0.le hδ0
      _ = _ := by ring
  have hCa : |(nat256 c : ℝ) - a| ≤ 1 / 2 + δ / 2 ^ 18 := by
    have h1 := abs_le.mp hr
    have h2 := abs_le.mp hma
    rw [abs_le]; constructor <;> linarith [h1.1, h1.2, h2.1, h2.2]
  have hage : (m' - δ) / 2 ^ 19 ≤ a := by
    rw [ha]
    have : m' - δ ≤ μ * 2 ^ k := by linarith [hmm.2]
    have h3 : 0 ≤ m' - δ := by
      have : (2 : ℝ) ^ 19 ≤ 2 ^ 255 := by norm_num
      linarith
    calc (m' - δ) / 2 ^ 19 = (m' - δ) * (1 / 2 ^ 19) := by ring
      _ ≤ (μ * 2 ^ k) * r := mul_le_mul this hr1 (by positivity) (by linarith)
  have ha235 : (2 : ℝ) ^ 235 ≤ a := by
    refine le_trans ?_ hage
    rw [le_div_iff₀ (by positivity)]
    have : (2 : ℝ) ^ 235 * 2 ^ 19 + 2 ^ 19 ≤ 2 ^ 255 := by norm_num
    linarith
  have ha0 : 0 < a := lt_of_lt_of_le (by positivity) ha235
  have hε0 : 0 ≤ ε := by
    by_contra hc
    have h3 : 0 ≤ (m' - δ) / 2 ^ 19 := by
      have : (2 : ℝ) ^ 19 ≤ 2 ^ 255 := by norm_num
      apply div_nonneg <;> [linarith; positivity]
    have : ε * ((m' - δ) / 2 ^ 19) ≤ 0 := mul_nonpos_of_nonpos_of_nonneg (not_le.mp hc).le h3
    have : 0 ≤ δ / 2 ^ 18 := by positivity
    linarith
  have hrel : |(nat256 c : ℝ) - a| ≤ ε * a :=
    hCa.trans (hε.trans (mul_le_mul_of_nonneg_left hage hε0))
  have hδ2 : 1 / 2 + δ / 2 ^ 18 ≤ 3 := by
    have : δ / 2 ^ 18 ≤ 2 ^ 19 / 2 ^ 18 := div_le_div_of_nonneg_right hδ (by positivity)
    have e : (2 : ℝ) ^ 19 / 2 ^ 18 = 2 := by norm_num
    linarith
  have hc0 : nat256 c ≠ 0 := by
    intro h
    rw [h, Nat.cast_zero, zero_sub, abs_neg, abs_of_pos ha0] at hCa
    have : (4 : ℝ) ≤ 2 ^ 235 := by norm_num
    linarith
  have hbound : nat256 c * 2 ^ T < 2 ^ (237 + 524285) := by
    have h1 : (nat256 c : ℝ) ≤ a * (1 + 1 / 2 ^ 230) := by
      have := (abs_le.mp hCa).2
      have h3 : (3 : ℝ) ≤ 2 ^ 235 * (1 / 2 ^ 230) := by norm_num
      have h4 : (2 : ℝ) ^ 235 * (1 / 2 ^ 230) ≤ a * (1 / 2 ^ 230) := mul_le_mul_of_nonneg_right ha235 (by positivity)
      linarith
    have h2 : (nat256 c : ℝ) * 2 ^ T ≤ (1 - 1 / 2 ^ 200) * (1 + 1 / 2 ^ 230) * 2 ^ (237 + 524285) := by
      calc (nat256 c : ℝ) * 2 ^ T ≤ a * (1 + 1 / 2 ^ 230) * 2 ^ T := mul_le_mul_of_nonneg_right h1 h2T.le
        _ = (a * 2 ^ T) * (1 + 1 / 2 ^ 230) := by ring
        _ ≤ ((1 - 1 / 2 ^ 200) * 2 ^ (237 + 524285)) * (1 + 1 / 2 ^ 230) :=
          mul_le_mul_of_nonneg_right (hq ▸ hub) (by positivity)
        _ = _ := by ring
    have h3 : (1 - 1 / 2 ^ 200) * (1 + 1 / 2 ^ 230) < (1 : ℝ) := by norm_num
    have h4 : (0 : ℝ) < 2 ^ (237 + 524285) := by positivity
    have h5 : (nat256 c : ℝ) * 2 ^ T < 2 ^ (237 + 524285) :=
      lt_of_le_of_lt h2 (by
        calc _ < 1 * (2 : ℝ) ^ (237 + 524285) := mul_lt_mul_of_pos_right h3 h4
          _ = _ := one_mul _)
    clear hub h2 h4
    have h6 : ((nat256 c * 2 ^ T : ℕ) : ℝ) < ((2 ^ (237 + 524285) : ℕ) : ℝ) := by
      rw [Nat.cast_mul, Nat.cast_pow, Nat.cast_pow, Nat.cast_ofNat]; exact h5
    exact Nat.cast_lt.mp h6
  have hsb : signBit x.pat ≤ 1 := by unfold signBit; omega
  obtain ⟨A, hA1, hA2, hA3⟩ := encode_spec (s := signBit x.pat) (T := T)
    (t := (e : ℤ) - 262378 - (k : ℤ) + ((L + 19 : ℕ) : ℤ)) (c := c) hsb (by omega) hc0 hbound
  rw [hA1]
  rw [Nat.cast_mul, Nat.cast_pow, Nat.cast_ofNat] at hA3
  have hCpos : (0 : ℝ) < nat256 c := by exact_mod_cast Nat.pos_of_ne_zero hc0
  obtain ⟨w, hw⟩ : ∃ w : ℝ, w = (nat256 c : ℝ) * 2 ^ T / 2 ^ 262378 := ⟨_, rfl⟩
  have hw0 : 0 < w := by rw [hw]; exact div_pos (mul_pos hCpos h2T) hK
  have hwK : w * 2 ^ 262378 = (nat256 c : ℝ) * 2 ^ T := by rw [hw]; exact div_mul_cancel₀ _ hK.ne'
  have hv : val x.pat * μ = (-1) ^ signBit x.pat * |val x.pat * μ| := by
    have h1 : val x.pat = (-1) ^ signBit x.pat * |val x.pat| := by
      have h2 : (0 : ℝ) ≤ mag x.pat / 2 ^ 262378 := div_nonneg (Nat.cast_nonneg _) hK.le
      have h3 := val_eq x.pat
      obtain ⟨y, hy⟩ : ∃ y : ℝ, (mag x.pat : ℝ) / 2 ^ 262378 = y := ⟨_, rfl⟩
      rw [hy] at h2 h3
      rw [h3, abs_mul, abs_pow, abs_neg, abs_one, one_pow, one_mul, abs_of_nonneg h2]
    rw [abs_mul, abs_of_pos hμ, ← mul_assoc, ← h1]
  have hsb2 : signBit x.pat = 0 ∨ signBit x.pat = 1 := by omega
  refine ⟨(-1) ^ signBit x.pat * w, ?_, ?_, ?_⟩
  · refine RoundsTo.isRNE ?_ hsb ?_ ?_
    · rw [abs_mul, abs_pow, abs_neg, abs_one, one_pow, one_mul, abs_of_pos hw0, hwK]
      exact hA3
    · intro h
      rcases hsb2 with h2 | h2
      · exact h2
      · rw [h2, pow_one] at h; linarith
    · intro h
      rcases hsb2 with h2 | h2
      · rw [h2, pow_zero] at h; linarith
      · exact h2
  · rw [hv]
    rw [← mul_sub, abs_mul, abs_mul ((-1) ^ signBit x.pat), abs_pow, abs_neg, abs_one, one_pow, one_mul, one_mul, abs_abs]
    refine le_of_mul_le_mul_right ?_ hK
    rw [mul_assoc, hq, ← abs_of_pos hK, ← abs_mul, sub_mul, hwK, hq, ← sub_mul, abs_mul, abs_of_pos h2T,
      ← mul_assoc]
    exact mul_le_mul_of_nonneg_right hrel h2T.le
  · generalize signBit x.pat = s at hsb
    unfold signBit
    omega

end Verif
