import Verif.Proofs.Scale

/-!
# Decoding, accessors, ulp
-/

namespace Verif

open BigUInt LawfulBigUInt Spec

theorem ctz_spec (fuel : ℕ) : ∀ n, n ≠ 0 → n < 2 ^ fuel →
    ∃ m, n = m * 2 ^ U128.ctz fuel n ∧ m % 2 = 1 ∧ U128.ctz fuel n < fuel := by
  induction fuel with
  | zero => intro n h0 h; rw [pow_zero] at h; omega
  | succ f ih =>
    intro n h0 h
    rw [U128.ctz]
    by_cases hn : n % 2 = 1
    · rw [if_pos hn]; exact ⟨n, by rw [pow_zero, Nat.mul_one], hn, by omega⟩
    · rw [if_neg hn]
      rw [pow_succ] at h
      obtain ⟨m, h1, h2, h3⟩ := ih (n / 2) (by omega) (by omega)
      refine ⟨m, ?_, h2, by omega⟩
      rw [Nat.add_comm, pow_succ, ← Nat.mul_assoc, ← h1]
      omega

theorem trailingZeros256 (z : U256) : BigUInt.trailingZeros z = U128.ctz 256 (nat256 z) :=
  UInt.trailingZeros_eq z

theorem splitEnc_fin (x : F256) (hf : IsFin x.pat) (h0 : ¬ IsZero x.pat) : ∃ (c : U256) (T : ℕ),
    F256.splitEnc x = (signBit x.pat, (T : ℤ) - 262378, c) ∧ nat256 c ≠ 0 ∧ nat256 c < 2 ^ 237 ∧
    T ≤ 524285 ∧ mag x.pat = nat256 c * 2 ^ T := by
  have hlt := pat_lt x
  have hA := nat_absBits x
  have hf' := (fin_iff _).mp hf
  rw [isZero_iff] at h0
  have hfr := nat_fraction (absBits x)
  rw [hA] at hfr
  have hef : expField x.pat = x.pat % 2 ^ 255 / 2 ^ 236 := by
    rw [expField]; omega
  have hfz : fraction (absBits x) = U256.new 0 0 ↔ nat256 (fraction (absBits x)) = 0 :=
    ⟨fun h => by rw [h]; decide, fun h => nat256_inj (by rw [h]; decide)⟩
  unfold F256.splitEnc
  dsimp only
  rw [expField_pat, sign_eq, ← signBit_eq hlt]
  by_cases c1 : expField x.pat = 0
  · have hz : ¬ (fraction (absBits x) = U256.new 0 0) := by
      rw [hfz, hfr]; omega
    rw [if_neg (fun h => hz h.2), if_pos c1]
    refine ⟨_, 0, rfl, by rw [hfr]; omega, by rw [hfr]; omega, by norm_num, ?_⟩
    have := mag_asm (t := 0) (M := x.pat % 2 ^ 255) (Or.inl rfl) (by omega) (by unfold INF; omega)
    rw [Nat.zero_mul, Nat.zero_add, pow_zero, Nat.mul_one, mag_abs] at this
    rw [this, hfr, pow_zero, Nat.mul_one]
    omega
  · have hne : expField x.pat ≠ EXP_MAX := hf
    rw [if_neg (fun h => c1 h.1), if_neg c1, if_neg hne]
    obtain ⟨t, M, hd, ht, ht2, hM1, hM2, hm⟩ := norm_asm (a := x.pat % 2 ^ 255) (by omega) hf'
    rw [mag_abs] at hm
    have hc : nat256 (U256.new ((fraction (absBits x)).hi ||| HI_FRACTION_BIAS)
        (fraction (absBits x)).lo) = M := by
      have hl := (fraction (absBits x)).lo.isLt
      have hfl : (fraction (absBits x)).hi.toNat < 2 ^ 108 := by
        have : nat256 (fraction (absBits x)) < 2 ^ 236 := by rw [hfr]; omega
        unfold nat256 at this; omega
      rw [nat256_new, BitVec.toNat_or, show HI_FRACTION_BIAS.toNat = 1 * 2 ^ 108 by decide,
        or_disjoint' hfl]
      have e : nat256 (fraction (absBits x)) = M - 2 ^ 236 := by rw [hfr]; omega
      have e2 : nat256 (fraction (absBits x)) =
        (fraction (absBits x)).hi.toNat * 2 ^ 128 + (fraction (absBits x)).lo.toNat := rfl
      generalize (fraction (absBits x)).hi.toNat = a at *
      generalize (fraction (absBits x)).lo.toNat = b at *
      clear * - e e2 hM1
      omega
    refine ⟨_, t, ?_, by rw [hc]; omega, by rw [hc]; exact hM2, ht2, by rw [hc, hm]⟩
    have hb : ((EXP_BIAS : ℤ) + FRACTION_BITS) = 262379 := by decide
    have : (expField x.pat : ℤ) - ((EXP_BIAS : ℤ) + FRACTION_BITS) = (t : ℤ) - 262378 := by
      rw [hb]; omega
    rw [this]

theorem decode_fin (x : F256) (hf : IsFin x.pat) (h0 : ¬ IsZero x.pat) : ∃ (c : U256) (T : ℕ),
    F256.decode x = (signBit x.pat, (T : ℤ) - 262378, c) ∧ nat256 c % 2 = 1 ∧ nat256 c < 2 ^ 237 ∧
    mag x.pat = nat256 c * 2 ^ T := by
  obtain ⟨c, T, h1, h2, h3, h4, h5⟩ := splitEnc_fin x hf h0
  unfold F256.decode
  rw [h1]
  dsimp only
  rw [isZero256, decide_eq_false h2, Bool.not_false, if_pos rfl, trailingZeros256]
  obtain ⟨m, m1, m2, m3⟩ := ctz_spec 256 (nat256 c) h2 (nat256_lt c)
  generalize U128.ctz 256 (nat256 c) = z at *
  have hs : nat256 (UInt.shr c z) = m := by
    rw [nat_shr256 _ m3, m1, Nat.mul_div_cancel _ (Nat.two_pow_pos z)]
  refine ⟨_, T + z, ?_, by rw [hs]; exact m2, ?_, ?_⟩
  · rw [show ((T + z : ℕ) : ℤ) - 262378 = (T : ℤ) - 262378 + z by push_cast; ring]
  · rw [hs]
    refine lt_of_le_of_lt ?_ h3
    rw [m1]; exact Nat.le_mul_of_pos_right _ (Nat.two_pow_pos z)
  · rw [hs, h5]
    conv_lhs => rw [m1]
    rw [Nat.mul_assoc, ← Nat.pow_add, Nat.add_comm z T]

theorem decode_zero (x : F256) (h0 : IsZero x.pat) :
    F256.decode x = (signBit x.pat, 0, U256.new 0 0) := by
  have hlt := pat_lt x
  have hz := (isZero_iff _).mp h0
  have hfr := nat_fraction (absBits x)
  rw [nat_absBits, hz] at hfr
  have hfz : fraction (absBits x) = U256.new 0 0 :=
    nat256_inj (by rw [hfr]; decide)
  have he : expBits (absBits x) = 0 := by rw [expBits_eq, nat_absBits, hz]; norm_num
  have hs : F256.splitEnc x = (signBit x.pat, 0, U256.new 0 0) := by
    unfold F256.splitEnc
    dsimp only
    rw [if_pos ⟨he, hfz⟩, sign_eq, ← signBit_eq hlt]
  unfold F256.decode
  rw [hs]
  rfl

theorem pat_add_exp (C : U256) (k : ℕ) (hC : nat256 C < 2 ^ 237) (hk : k ≤ 524285) :
    F256.pat ⟨⟨C.hi + BitVec.ofNat 128 k <<< HI_FRACTION_BITS, C.lo⟩⟩ = k * 2 ^ 236 + nat256 C := by
  have hl := C.lo.isLt
  have hn19 : k < 2 ^ 19 := by omega
  have h1 : (BitVec.ofNat 128 k <<< HI_FRACTION_BITS).toNat = k * 2 ^ 108 := by
    rw [BitVec.toNat_shiftLeft, BitVec.toNat_ofNat, Nat.shiftLeft_eq, HI_FRACTION_BITS,
      Nat.mod_eq_of_lt (lt_trans hn19 (by norm_num)), Nat.mod_eq_of_lt]
    exact lt_of_lt_of_le (Nat.mul_lt_mul_of_pos_right hn19 (by norm_num)) (by norm_num)
  have h2 : C.hi.toNat + k * 2 ^ 108 < 2 ^ 128 := by unfold nat256 at hC; omega
  show (C.hi + BitVec.ofNat 128 k <<< HI_FRACTION_BITS).toNat * 2 ^ 128 + C.lo.toNat = _
  rw [BitVec.toNat_add, h1, Nat.mod_eq_of_lt h2]
  unfold nat256
  omega

/-- The ulp in units of the smallest subnormal. -/
theorem ulp_spec (x : F256) (hf : IsFin x.pat) : (F256.ulp x).pat < INF ∧
    mag (F256.ulp x).pat = 2 ^ (expField x.pat - 1) := by
  have hlt := pat_lt x
  have hA := nat_absBits x
  have hf' := (fin_iff _).mp hf
  have hef : expField x.pat = x.pat % 2 ^ 255 / 2 ^ 236 := by
    rw [expField]; omega
  have he19 : expField x.pat < 524287 := by unfold INF at hf'; omega
  have hnb : expField x.pat - normBit (absBits x) = expField x.pat - 1 := by
    rw [normBit_eq, hA]; split <;> omega
  have hB : nat256 (U256.new HI_FRACTION_BIAS 0) = 2 ^ 236 := by decide
  unfold F256.ulp
  dsimp only
  rw [expField_pat, if_pos (show expField x.pat < EXP_MAX from he19), hnb]
  obtain ⟨e, he⟩ : ∃ e, e = expField x.pat := ⟨_, rfl⟩
  rw [← he] at he19 ⊢
  clear hnb he
  have hFB : FRACTION_BITS = 236 := rfl
  rw [hFB]
  have hr : nat256 (UInt.shr (U256.new HI_FRACTION_BIAS 0) (236 - (e - 1))) =
      2 ^ (236 - (236 - (e - 1))) := by
    rw [nat_shr256 _ (by omega), hB, Nat.pow_div (by omega) (by norm_num)]
  generalize UInt.shr (U256.new HI_FRACTION_BIAS 0) (236 - (e - 1)) = R at *
  have hRb : nat256 R ≤ 2 ^ 236 := by
    rw [hr]; exact Nat.pow_le_pow_right (by norm_num) (by omega)
  have hp := pat_add_exp R (e - (236 + 1)) (by omega) (by omega)
  rw [show e - (236 + 1) = e - 237 from rfl] at hp ⊢
  rw [hp]
  have hI : (e - 237) * 2 ^ 236 + nat256 R < INF := by unfold INF; omega
  refine ⟨hI, ?_⟩
  rw [mag_asm ?_ (by omega) hI, hr, ← pow_add]
  · rw [show 236 - (236 - (e - 1)) + (e - 237) = e - 1 by omega]
  · by_cases c : e ≤ 237
    · left; omega
    · right; rw [hr, show 236 - (236 - (e - 1)) = 236 by omega]

theorem quantumExp_eq (N : ℕ) : quantumExp N = ((expField N - 1 : ℕ) : ℤ) - 262378 := by
  unfold quantumExp
  split <;> omega

theorem zpow_units (T : ℕ) : (2 : ℝ) ^ ((T : ℤ) - 262378) = 2 ^ T / 2 ^ 262378 := by
  rw [show (262378 : ℤ) = ((262378 : ℕ) : ℤ) by norm_num, zpow_sub₀ (by norm_num), zpow_natCast,
    zpow_natCast]

theorem integralSignificand_eq (x : F256) :
    nat256 x.integralSignificand = significandOf x.pat := by
  have hl := x.bits.lo.isLt
  have hh := x.bits.hi.isLt
  unfold F256.integralSignificand
  dsimp only
  rw [nat256_new, BitVec.toNat_or, toNat_and_frac, BitVec.toNat_shiftLeft, Nat.shiftLeft_eq,
    biasedExponent_eq, significandOf, HI_FRACTION_BITS]
  have hp : x.pat = x.bits.hi.toNat * 2 ^ 128 + x.bits.lo.toNat := rfl
  have hfr : fracField x.pat = x.bits.hi.toNat % 2 ^ 108 * 2 ^ 128 + x.bits.lo.toNat := by
    unfold fracField; omega
  have hlt : x.bits.hi.toNat % 2 ^ 108 < 2 ^ 108 := Nat.mod_lt _ (by norm_num)
  by_cases h : expField x.pat = 0
  · rw [if_pos h, h, show (boolU128 (decide ((0 : ℕ) ≠ 0))).toNat = 0 by decide, Nat.zero_mul,
      Nat.zero_mod, Nat.or_zero, hfr]
  · rw [if_neg h, decide_eq_true h, show (boolU128 true).toNat = 1 by decide,
      show 1 * 2 ^ 108 % 2 ^ 128 = 1 * 2 ^ 108 by norm_num, or_disjoint' hlt, hfr]
    omega

/-- `significand` is the integral significand scaled by 2^-236. -/
theorem significand_spec (x : F256) (h0 : ¬ IsZero x.pat) :
    x.significand.pat < INF ∧ mag x.significand.pat = significandOf x.pat * 2 ^ 262142 := by
  have hl := x.bits.lo.isLt
  have hlt := pat_lt x
  have hh := x.bits.hi.isLt
  have hz := h0
  rw [isZero_iff] at h0
  unfold F256.significand
  rw [if_neg (by rw [eqZero_iff]; exact h0)]
  dsimp only
  have hfr : nat256 (U256.new (x.bits.hi &&& HI_FRACTION_MASK) x.bits.lo) = fracField x.pat := by
    have hp : x.pat = x.bits.hi.toNat * 2 ^ 128 + x.bits.lo.toNat := rfl
    rw [nat256_new, toNat_and_frac]
    unfold fracField; omega
  have hfl : fracField x.pat < 2 ^ 236 := Nat.mod_lt _ (by norm_num)
  generalize U256.new (x.bits.hi &&& HI_FRACTION_MASK) x.bits.lo = B at *
  rw [biasedExponent_eq, significandOf]
  by_cases c : expField x.pat = 0
  · rw [if_pos c, if_pos c]
    have hf0 : fracField x.pat ≠ 0 := by
      intro hc; exact hz ⟨c, hc⟩
    have hB0 : nat256 B ≠ 0 := by rw [hfr]; exact hf0
    rw [leadingZeros256 hB0]
    have hlo : 2 ^ (nat256 B).log2 ≤ nat256 B := Nat.log2_self_le hB0
    have hhi : nat256 B < 2 ^ ((nat256 B).log2 + 1) := Nat.lt_log2_self
    have hL : (nat256 B).log2 < 236 := (Nat.log2_lt hB0).mpr (by rw [hfr]; exact hfl)
    have hEB : EXP_BITS = 19 := rfl
    have hEx : EXP_BIAS = 262143 := rfl
    rw [hEB, hEx]
    generalize (nat256 B).log2 = L at *
    rw [show 255 - L - 19 = 236 - L by omega]
    have m1 : 2 ^ 236 ≤ nat256 B * 2 ^ (236 - L) := by
      calc 2 ^ 236 = 2 ^ L * 2 ^ (236 - L) := by rw [← pow_add, show L + (236 - L) = 236 by omega]
        _ ≤ _ := Nat.mul_le_mul_right _ hlo
    have m2 : nat256 B * 2 ^ (236 - L) < 2 ^ 237 := by
      calc _ < 2 ^ (L + 1) * 2 ^ (236 - L) := Nat.mul_lt_mul_of_pos_right hhi (Nat.two_pow_pos _)
        _ = 2 ^ 237 := by rw [← pow_add, show L + 1 + (236 - L) = 237 by omega]
    have m3 : nat256 (U256.shiftLeft B (236 - L)) = nat256 B * 2 ^ (236 - L) :=
      nat_shiftLeft (by omega) (by omega)
    rw [pat_add_exp _ _ (by rw [m3]; exact m2) (by omega), m3]
    have hI : (262143 - (236 - L + 1)) * 2 ^ 236 + nat256 B * 2 ^ (236 - L) < INF := by
      unfold INF; omega
    refine ⟨hI, ?_⟩
    rw [mag_asm (Or.inr m1) m2.le hI, hfr, Nat.mul_assoc, ← Nat.pow_add,
      show 236 - L + (262143 - (236 - L + 1)) = 262142 by omega]
  · rw [if_neg c, if_neg c]
    have hEx : EXP_BIAS = 262143 := rfl
    rw [hEx, pat_add_exp _ _ (by omega) (by omega), hfr]
    have e : 262143 * 2 ^ 236 + fracField x.pat = 262142 * 2 ^ 236 + (2 ^ 236 + fracField x.pat) := by
      omega
    rw [e]
    have hI : 262142 * 2 ^ 236 + (2 ^ 236 + fracField x.pat) < INF := by unfold INF; omega
    exact ⟨hI, mag_asm (Or.inr (by omega)) (by omega) hI⟩

end Verif
