import Verif.Proofs.BigTail
import Verif.Proofs.TrigRed
import Verif.Proofs.TrigPi

/-!
# The reduction of arguments from 8 up to 2^241
-/

set_option exponentiation.threshold 2000

namespace Verif.Trig

open FP492 Spec BigFloat

/-! ## The constants -/

def rs : ℕ := nat256 R.signif
def c1 : ℕ := nat256 C1.signif
def c2 : ℕ := nat256 C2.signif
def c3 : ℕ := nat256 C3.signif

theorem fma_consts :
    (let S := TWO_OVER_PI >>> 261872
    decide (rs * 2 ^ 745 ≤ S + 2 ^ 745) && decide (S + 1 ≤ rs * 2 ^ 745 + 2 ^ 745) &&
    decide ((c1 * 2 ^ 254 + c2 - 2) * (S + 1) ≤ 2 ^ 1508) && decide (2 ^ 1508 ≤ (c1 * 2 ^ 254 + c2 + 2) * S) &&
    decide ((c1 * 2 ^ 509 + c2 * 2 ^ 255 + c3 - 2) * (S + 1) ≤ 2 ^ 1763) &&
    decide (2 ^ 1763 ≤ (c1 * 2 ^ 509 + c2 * 2 ^ 255 + c3 + 2) * S)) = true := by
  decide +kernel

theorem carry_c2 : noCarry c2 = true := by decide +kernel
theorem carry_c3 : noCarry c3 = true := by decide +kernel

theorem norm_R : Norm R := ⟨Or.inl rfl, by decide +kernel, by decide +kernel⟩
theorem norm_C1 : Norm C1 := ⟨Or.inl rfl, by decide +kernel, by decide +kernel⟩
theorem norm_C2 : Norm C2 := ⟨Or.inl rfl, by decide +kernel, by decide +kernel⟩
theorem norm_C3 : Norm C3 := ⟨Or.inl rfl, by decide +kernel, by decide +kernel⟩
theorem norm_D : Norm D := ⟨Or.inl rfl, by decide +kernel, by decide +kernel⟩

theorem bval_D : bval D = 3 * 2 ^ 253 := by
  have h : nat256 D.signif = 3 * 2 ^ 253 := by decide +kernel
  unfold bval
  rw [h]
  show ((1 : ℤ) : ℝ) * ((3 * 2 ^ 253 : ℕ) : ℝ) * (2 : ℝ) ^ ((254 : ℤ) - 254) = _
  norm_num

theorem bval_R : bval R = rs / 2 ^ 255 := by
  unfold bval
  show ((1 : ℤ) : ℝ) * (rs : ℝ) * (2 : ℝ) ^ ((-1 : ℤ) - 254) = _
  rw [show ((-1 : ℤ) - 254) = -((255 : ℕ) : ℤ) by norm_num, zpow_neg, zpow_natCast, Int.cast_one, one_mul, div_eq_mul_inv]

theorem bval_C1 : bval C1 = c1 / 2 ^ 254 := by
  unfold bval
  show ((1 : ℤ) : ℝ) * (c1 : ℝ) * (2 : ℝ) ^ ((0 : ℤ) - 254) = _
  rw [show ((0 : ℤ) - 254) = -((254 : ℕ) : ℤ) by norm_num, zpow_neg, zpow_natCast, Int.cast_one, one_mul, div_eq_mul_inv]

theorem bval_C2 : bval C2 = c2 / 2 ^ 508 := by
  unfold bval
  show ((1 : ℤ) : ℝ) * (c2 : ℝ) * (2 : ℝ) ^ ((-254 : ℤ) - 254) = _
  rw [show ((-254 : ℤ) - 254) = -((508 : ℕ) : ℤ) by norm_num, zpow_neg, zpow_natCast, Int.cast_one, one_mul, div_eq_mul_inv]

theorem bval_C3 : bval C3 = c3 / 2 ^ 763 := by
  unfold bval
  show ((1 : ℤ) : ℝ) * (c3 : ℝ) * (2 : ℝ) ^ ((-509 : ℤ) - 254) = _
  rw [show ((-509 : ℤ) - 254) = -((763 : ℕ) : ℤ) by norm_num, zpow_neg, zpow_natCast, Int.cast_one, one_mul, div_eq_mul_inv]

/-- An integer close to a multiple of pi/2 -/
theorem half_pi_near {S N k : ℕ} (h1 : (S : ℝ) ≤ 2 ^ 1000 * (2 / Real.pi)) (h2 : 2 ^ 1000 * (2 / Real.pi) < (S : ℝ) + 1)
    (h3 : (N - 2) * (S + 1) ≤ 2 ^ (1000 + k)) (h4 : 2 ^ (1000 + k) ≤ (N + 2) * S) (hN : 2 ≤ N) :
    |Real.pi / 2 - (N : ℝ) / 2 ^ k| ≤ 2 / 2 ^ k := by
  have hp := Real.pi_pos
  obtain ⟨n, rfl⟩ : ∃ n, N = n + 2 := ⟨N - 2, by omega⟩
  rw [Nat.add_sub_cancel] at h3
  have a3 : (n : ℝ) * (S + 1) ≤ 2 ^ 1000 * 2 ^ k := by
    rw [← pow_add]; exact_mod_cast h3
  have a4 : 2 ^ 1000 * 2 ^ k ≤ ((n : ℝ) + 2 + 2) * S := by
    rw [← pow_add]; exact_mod_cast h4
  have hk : (0 : ℝ) < 2 ^ k := by positivity
  have hT : (0 : ℝ) < 2 ^ 1000 := by positivity
  generalize (2 : ℝ) ^ 1000 = T at *
  generalize (2 : ℝ) ^ k = K at *
  have h1' : (S : ℝ) * Real.pi ≤ T * 2 := by
    have := mul_le_mul_of_nonneg_right h1 hp.le
    rwa [mul_assoc, div_mul_cancel₀ _ hp.ne'] at this
  have h2' : T * 2 ≤ ((S : ℝ) + 1) * Real.pi := by
    have := mul_le_mul_of_nonneg_right h2.le hp.le
    rwa [mul_assoc, div_mul_cancel₀ _ hp.ne'] at this
  have hS1 : (0 : ℝ) < S + 1 := by positivity
  have b1 : (n : ℝ) ≤ K * (Real.pi / 2) := by
    have : (n : ℝ) * (S + 1) ≤ K * (Real.pi / 2) * (S + 1) := by nlinarith
    exact le_of_mul_le_mul_right this hS1
  have b2 : K * (Real.pi / 2) ≤ (n : ℝ) + 2 + 2 := by
    have hS : (0 : ℝ) < S := by
      rcases (Nat.cast_nonneg S : (0 : ℝ) ≤ S).lt_or_eq with h | h
      · exact h
      · rw [← h, mul_zero] at a4
        exact absurd a4 (not_le.mpr (mul_pos hT hk))
    have : K * (Real.pi / 2) * S ≤ ((n : ℝ) + 2 + 2) * S := by nlinarith
    exact le_of_mul_le_mul_right this hS
  have e : Real.pi / 2 - ((n + 2 : ℕ) : ℝ) / K = (K * (Real.pi / 2) - (n + 2)) / K := by
    push_cast
    field_simp
  rw [e, abs_div, abs_of_pos hk]
  refine div_le_div_of_nonneg_right ?_ hk.le
  rw [abs_le]
  constructor <;> linarith

theorem consts_fma : |bval R - 2 / Real.pi| ≤ 1 / 2 ^ 255 ∧ |Real.pi / 2 - bval C1 - bval C2| ≤ 2 / 2 ^ 508 ∧
    |Real.pi / 2 - bval C1 - bval C2 - bval C3| ≤ 2 / 2 ^ 763 := by
  have h := fma_consts
  obtain ⟨w1, w2⟩ := window1000
  generalize TWO_OVER_PI >>> 261872 = S at *
  simp only [Bool.and_eq_true, decide_eq_true_iff] at h
  obtain ⟨⟨⟨⟨⟨h1, h2⟩, h3⟩, h4⟩, h5⟩, h6⟩ := h
  refine ⟨?_, ?_, ?_⟩
  · rw [bval_R]
    have a1 : (rs : ℝ) * 2 ^ 745 ≤ S + 2 ^ 745 := by exact_mod_cast h1
    have a2 : (S : ℝ) + 1 ≤ rs * 2 ^ 745 + 2 ^ 745 := by exact_mod_cast h2
    have e : (rs : ℝ) / 2 ^ 255 - 2 / Real.pi = (rs * 2 ^ 745 - 2 ^ 1000 * (2 / Real.pi)) / 2 ^ 1000 := by
      have : (2 : ℝ) ^ 1000 = 2 ^ 255 * 2 ^ 745 := by rw [← pow_add]
      rw [this]
      field_simp
    have e2 : (1 : ℝ) / 2 ^ 255 = 2 ^ 745 / 2 ^ 1000 := by
      have : (2 : ℝ) ^ 1000 = 2 ^ 255 * 2 ^ 745 := by rw [← pow_add]
      rw [this]
      field_simp
    rw [e, e2, abs_div, abs_of_pos (by positivity : (0 : ℝ) < 2 ^ 1000)]
    refine div_le_div_of_nonneg_right ?_ (by positivity)
    rw [abs_le]
    constructor <;> linarith
  · have hh := half_pi_near (k := 508) w1 w2 h3 h4 (by decide +kernel)
    rw [bval_C1, bval_C2]
    have e : Real.pi / 2 - (c1 : ℝ) / 2 ^ 254 - c2 / 2 ^ 508 = Real.pi / 2 - ((c1 * 2 ^ 254 + c2 : ℕ) : ℝ) / 2 ^ 508 := by
      push_cast
      have : (2 : ℝ) ^ 508 = 2 ^ 254 * 2 ^ 254 := by rw [← pow_add]
      rw [this]
      field_simp
      ring
    rw [e]
    exact hh
  · have hh := half_pi_near (k := 763) w1 w2 h5 h6 (by decide +kernel)
    rw [bval_C1, bval_C2, bval_C3]
    have e : Real.pi / 2 - (c1 : ℝ) / 2 ^ 254 - c2 / 2 ^ 508 - c3 / 2 ^ 763 =
        Real.pi / 2 - ((c1 * 2 ^ 509 + c2 * 2 ^ 255 + c3 : ℕ) : ℝ) / 2 ^ 763 := by
      push_cast
      have e1 : (2 : ℝ) ^ 763 = 2 ^ 254 * 2 ^ 509 := by rw [← pow_add]
      have e2 : (2 : ℝ) ^ 763 = 2 ^ 508 * 2 ^ 255 := by rw [← pow_add]
      have e3 : (c1 : ℝ) / 2 ^ 254 = c1 * 2 ^ 509 / 2 ^ 763 := by rw [e1]; field_simp
      have e4 : (c2 : ℝ) / 2 ^ 508 = c2 * 2 ^ 255 / 2 ^ 763 := by rw [e2]; field_simp
      rw [e3, e4]
      ring
    rw [e]
    exact hh

/-! ## Conversions -/

theorem fromF256_spec {x : F256} {m : ℕ} {E : ℤ} (h : Arg x m E) (hE : -262142 < E) :
    Norm (BigFloat.fromF256 x) ∧ (BigFloat.fromF256 x).exp = E ∧ bval (BigFloat.fromF256 x) = val x.pat := by
  have hm1 := h.m_ge hE
  have hm2 := h.m_lt
  have hv := h.val_eq
  obtain ⟨hf, h0, hs, hm, hq⟩ := h
  have hz : x.eqZero = false := by
    rw [Bool.eq_false_iff, ne_eq, eqZero_iff, ← isZero_iff]; exact h0
  have hsg := signif_abs x
  rw [hm] at hsg
  have hl := lz256_of (z := signif (absBits x)) (k := 236) (by rw [hsg]; exact hm1) (by rw [hsg]; exact hm2)
  have hsh : u32Sub (UInt.leadingZeros (signif (absBits x))) 1 = 18 := by
    rw [hl, u32Sub_eq (by norm_num) (by norm_num)]
  have hns : nat256 (U256.shiftLeft (signif (absBits x)) 18) = m * 2 ^ 18 := by
    rw [← hsg]
    exact nat_shiftLeft (by norm_num) (by rw [hsg]; omega)
  have hexp : (expBits (absBits x) : ℤ) + 1 - normBit (absBits x) - EXP_BIAS = E := by
    have hA := nat_absBits x
    have hlt := pat_lt x
    rw [expBits_abs, normBit_eq, hA, show ((EXP_BIAS : ℕ) : ℤ) = 262143 by decide]
    rw [quantumExp] at hq
    by_cases hc : expField x.pat = 0
    · exfalso
      rw [if_pos hc] at hq
      omega
    · rw [if_neg hc] at hq
      rw [if_pos (by unfold expField at hc; omega)]
      push_cast
      omega
  have hexp2 : (expBits (absBits x) : ℤ) + 1 - normBit (absBits x) - EXP_BIAS - ((18 : ℕ) : ℤ) + 18 = E := by
    rw [hexp]; push_cast; ring
  clear hexp
  have hfrom : BigFloat.fromF256 x = ⟨1, E, U256.shiftLeft (signif (absBits x)) 18⟩ := by
    unfold BigFloat.fromF256
    dsimp only
    rw [hz, if_neg (by decide), hsh, sign_eq, ← signBit_eq (pat_lt x), hs, if_pos rfl, hexp2]
  rw [hfrom]
  refine ⟨⟨Or.inl rfl, ?_, ?_⟩, rfl, ?_⟩
  · show 2 ^ 254 ≤ nat256 (U256.shiftLeft (signif (absBits x)) 18)
    rw [hns]; omega
  · show nat256 (U256.shiftLeft (signif (absBits x)) 18) < 2 ^ 255
    rw [hns]; omega
  · unfold bval
    dsimp only
    rw [hns, hv, show E - 236 = E - 254 + ((18 : ℕ) : ℤ) by push_cast; ring, zpow_add_nat]
    push_cast
    ring

/-- The conversion to a fixed point number truncates. -/
theorem fromBigFloat_spec {b : BigFloat} (h : b = BigFloat.ZERO ∨ Norm' b) (he : |bval b| ≤ 4) :
    |(sval (FP492.fromBigFloat b) : ℝ) - bval b * 2 ^ 492| ≤ 1 := by
  rcases h with rfl | h
  · have : sval (FP492.fromBigFloat BigFloat.ZERO) = 0 := by decide +kernel
    rw [this, bval_zero]
    norm_num
  · have he2 : b.exp ≤ 2 := by
      have h1 := h.lower.trans he
      by_contra hc
      have h2 : (2 : ℝ) ^ (3 : ℤ) ≤ 2 ^ b.exp := pow_mono2 (by omega)
      have h3 : (2 : ℝ) ^ (3 : ℤ) = 8 := by norm_num
      linarith
    unfold FP492.fromBigFloat
    dsimp only
    by_cases hb : 512 ≤ 18 - b.exp
    · rw [if_pos (Or.inr hb)]
      have hz : sval FP492.ZERO = 0 := by decide +kernel
      rw [hz, Int.cast_zero, zero_sub, abs_neg, abs_mul, abs_of_pos (by positivity : (0 : ℝ) < 2 ^ 492)]
      have h1 := h.upper
      have h2 : (2 : ℝ) ^ (b.exp + 1) ≤ 2 ^ (-492 : ℤ) := pow_mono2 (by omega)
      have h3 : (2 : ℝ) ^ (-492 : ℤ) = 1 / 2 ^ 492 := by
        rw [show (-492 : ℤ) = -((492 : ℕ) : ℤ) by norm_num, zpow_neg, zpow_natCast, one_div]
      rw [h3] at h2
      have := mul_le_mul_of_nonneg_right (h1.trans h2) (by positivity : (0 : ℝ) ≤ 2 ^ 492)
      rwa [one_div, inv_mul_cancel₀ (by positivity)] at this
    · rw [if_neg (by omega)]
      obtain ⟨g, hg⟩ : ∃ g : ℕ, 18 - b.exp = g := ⟨(18 - b.exp).toNat, by omega⟩
      rw [hg, Int.toNat_natCast]
      have hn : UInt.nat (UInt.shr (⟨b.signif, UInt.zero⟩ : U512) g) = nat256 b.signif * 2 ^ 256 / 2 ^ g := by
        rw [nat_shr512 _ (by omega), nat512]
        show (nat256 b.signif * 2 ^ 256 + nat256 UInt.zero) / 2 ^ g = _
        rw [zero256, Nat.add_zero]
      have hlt : nat256 b.signif * 2 ^ 256 / 2 ^ g < 2 ^ 511 := by
        have h1 : 2 ^ 16 ≤ 2 ^ g := Nat.pow_le_pow_right (by norm_num) (by omega)
        have h2 := h.2.2
        refine Nat.div_lt_of_lt_mul ?_
        have h3 : 2 ^ 16 * 2 ^ 511 ≤ 2 ^ g * 2 ^ 511 := Nat.mul_le_mul_right _ h1
        refine lt_of_lt_of_le ?_ h3
        clear * - h2
        omega
      have hs : sval (UInt.shr (⟨b.signif, UInt.zero⟩ : U512) g) = ((nat256 b.signif * 2 ^ 256 / 2 ^ g : ℕ) : ℤ) := by
        rw [sval_of_lt (by rw [hn]; exact hlt), hn]
      have hsv : (sval (if b.signum < 0 then ineg (UInt.shr (⟨b.signif, UInt.zero⟩ : U512) g)
          else UInt.shr (⟨b.signif, UInt.zero⟩ : U512) g) : ℝ) = b.signum * ((nat256 b.signif * 2 ^ 256 / 2 ^ g : ℕ) : ℝ) := by
        generalize nat256 b.signif * 2 ^ 256 / 2 ^ g = Q at *
        rcases h.1 with h | h
        · rw [h, if_neg (by norm_num), hs, Int.cast_natCast, Int.cast_one, one_mul]
        · rw [h, if_pos (by norm_num), sval_ineg (by rw [hs]; omega), hs, Int.cast_neg, Int.cast_natCast, Int.cast_neg,
            Int.cast_one, neg_one_mul]
      rw [hsv]
      have hp : (0 : ℝ) < 2 ^ g := by positivity
      have hb2 : bval b * 2 ^ 492 = b.signum * (((nat256 b.signif * 2 ^ 256 : ℕ) : ℝ) / 2 ^ g) := by
        unfold bval
        rw [show b.exp - 254 = -((g + 236 : ℕ) : ℤ) by push_cast; omega, zpow_neg, zpow_natCast, pow_add]
        push_cast
        have : (2 : ℝ) ^ 492 = 2 ^ 236 * 2 ^ 256 := by rw [← pow_add]
        rw [this]
        field_simp
        ring
      rw [hb2, ← mul_sub, abs_mul, sgn_abs h.1, one_mul]
      generalize nat256 b.signif * 2 ^ 256 = N
      have h1 := Nat.div_add_mod N (2 ^ g)
      have h2 := Nat.mod_lt N (Nat.two_pow_pos g)
      have e : (N : ℝ) / 2 ^ g = ((N / 2 ^ g : ℕ) : ℝ) + ((N % 2 ^ g : ℕ) : ℝ) / 2 ^ g := by
        rw [eq_comm, ← eq_sub_iff_add_eq', ← sub_eq_zero]
        have h1' : (2 : ℝ) ^ g * ((N / 2 ^ g : ℕ) : ℝ) + ((N % 2 ^ g : ℕ) : ℝ) = N := by exact_mod_cast h1
        rw [← h1']
        field_simp
        ring
      rw [e, sub_add_cancel_left, abs_neg, abs_of_nonneg (by positivity), div_le_one hp]
      exact_mod_cast h2.le

end Verif.Trig
