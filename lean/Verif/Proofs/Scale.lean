import Verif.Proofs.Integral2

/-!
# Encoding and scaling by powers of two
-/

namespace Verif

open BigUInt LawfulBigUInt Spec

theorem pat_new' {s k : ℕ} {e : ℤ} {c : U256} (hs : s ≤ 1) (hk : k < 2 ^ 19)
    (he : e + 262143 = k + 1) (h1 : 2 ^ 236 ≤ nat256 c) (h2 : nat256 c < 2 ^ 237) (hk1 : k + 1 < 2 ^ 19) :
    (F256.new s e c).pat = s * 2 ^ 255 + (k * 2 ^ 236 + nat256 c) := by
  rw [pat_new (k := k + 1) c hs hk1 (by rw [he]; push_cast; rfl)]
  omega

/-- `encode` rounds correctly for all significands and exponents whose product is below
`2^262144` (in units of `2^-262378`: below `2^(237 + 524285)`). -/
theorem encode_spec {s T : ℕ} {t : ℤ} {c : U256} (hs : s ≤ 1) (ht : t + 262378 = T)
    (hc : nat256 c ≠ 0) (hb : nat256 c * 2 ^ T < 2 ^ (237 + 524285)) :
    ∃ A, (F256.encode s t c).pat = s * 2 ^ 255 + A ∧ A < 2 ^ 255 ∧
      RoundsTo ((nat256 c * 2 ^ T : ℕ) : ℝ) A := by
  have hnl := leadingZeros256 hc
  have hl256 := log2_lt_256 c
  have hlo : 2 ^ (nat256 c).log2 ≤ nat256 c := Nat.log2_self_le hc
  have hhi : nat256 c < 2 ^ ((nat256 c).log2 + 1) := Nat.lt_log2_self
  have hEB : EXP_BITS = 19 := rfl
  have hEM : EMIN = -262142 := rfl
  have hFB : (FRACTION_BITS : ℤ) = 236 := rfl
  -- bound on exponents
  have hT : (nat256 c).log2 + T < 237 + 524285 := by
    have h1 : 2 ^ ((nat256 c).log2 + T) < 2 ^ (237 + 524285) := by
      rw [pow_add]
      exact lt_of_le_of_lt (Nat.mul_le_mul_right _ hlo) hb
    exact (Nat.pow_lt_pow_iff_right (by norm_num)).mp h1
  clear hb
  unfold F256.encode
  dsimp only
  rw [hnl, hEB, hEM, hFB]
  obtain ⟨L, hL⟩ : ∃ L, L = (nat256 c).log2 := ⟨_, rfl⟩
  rw [← hL] at hl256 hlo hhi hT ⊢
  by_cases c1 : 255 - L > 19
  · rw [if_pos c1]
    have hsh : 255 - L - 19 = 236 - L := by omega
    rw [hsh]
    by_cases c2 : t + 236 ≥ -262142 + ((236 - L : ℕ) : ℤ)
    · rw [if_pos c2]
      have m1 : 2 ^ 236 ≤ nat256 c * 2 ^ (236 - L) := by
        calc 2 ^ 236 = 2 ^ L * 2 ^ (236 - L) := by rw [← pow_add, show L + (236 - L) = 236 by omega]
          _ ≤ _ := Nat.mul_le_mul_right _ hlo
      have m2 : nat256 c * 2 ^ (236 - L) < 2 ^ 237 := by
        calc _ < 2 ^ (L + 1) * 2 ^ (236 - L) := Nat.mul_lt_mul_of_pos_right hhi (Nat.two_pow_pos _)
          _ = 2 ^ 237 := by rw [← pow_add, show L + 1 + (236 - L) = 237 by omega]
      have m3 : nat256 (UInt.shl c (236 - L)) = nat256 c * 2 ^ (236 - L) :=
        nat_shl256_of_lt _ (by omega) (by omega)
      have hk : T - (236 - L) + 1 < 2 ^ 19 := by omega
      refine ⟨_, pat_new' (k := T - (236 - L)) hs (by omega) ?_ (by rw [m3]; exact m1)
        (by rw [m3]; exact m2) hk, by rw [m3]; omega, ?_⟩
      · omega
      · rw [m3]
        have := RoundsTo.exact (t := T - (236 - L)) m2 (Or.inr m1) (by omega)
        rw [Nat.mul_assoc, ← pow_add, show 236 - L + (T - (236 - L)) = T by omega] at this
        exact this
    · rw [if_neg c2]
      have m1 : nat256 c * 2 ^ T < 2 ^ 236 := by
        calc _ < 2 ^ (L + 1) * 2 ^ T := Nat.mul_lt_mul_of_pos_right hhi (Nat.two_pow_pos _)
          _ = 2 ^ (L + 1 + T) := (pow_add _ _ _).symm
          _ ≤ 2 ^ 236 := Nat.pow_le_pow_right (by norm_num) (by omega)
      have hsh2 : ((t + 236 - (-262142)) % 4294967296).toNat = T := by
        rw [show t + 236 - (-262142) = (T : ℤ) by omega]
        rw [Int.emod_eq_of_lt (by omega) (by omega)]; rfl
      rw [hsh2]
      have m3 : nat256 (UInt.shl c T) = nat256 c * 2 ^ T := nat_shl256_of_lt _ (by omega) (by omega)
      refine ⟨nat256 c * 2 ^ T, ?_, by omega, ?_⟩
      · rw [pat_new (k := 0) _ hs (by norm_num) (by norm_num), m3, Nat.mod_eq_of_lt m1, Nat.zero_mul,
          Nat.add_zero]
      · have := RoundsTo.exact (t := 0) (M := nat256 c * 2 ^ T) (by omega) (Or.inl rfl) (by norm_num)
        rw [pow_zero, Nat.mul_one, Nat.zero_mul, Nat.zero_add] at this
        exact this
  rw [if_neg c1]
  by_cases c2 : 255 - L < 19
  · rw [if_pos c2]
    have hsh : 19 - (255 - L) = L - 236 := by omega
    rw [hsh]
    obtain ⟨h, hh⟩ : ∃ h, h = L - 236 := ⟨_, rfl⟩
    rw [← hh]
    have hrd : nat256 (UInt.roundingDivPow2 c h) = Spec.rne (nat256 c) (2 ^ h) :=
      UInt.nat_roundingDivPow2 c h (by show h < 256; omega)
    have d1 : 2 ^ 236 ≤ nat256 c / 2 ^ h := by
      rw [Nat.le_div_iff_mul_le (Nat.two_pow_pos h), ← pow_add, show 236 + h = L by omega]
      exact hlo
    have d2 : nat256 c / 2 ^ h < 2 ^ 237 := by
      rw [Nat.div_lt_iff_lt_mul (Nat.two_pow_pos h), ← pow_add, show 237 + h = L + 1 by omega]
      exact hhi
    have hrt : RoundsTo ((nat256 c * 2 ^ T : ℕ) : ℝ)
        ((T + h) * 2 ^ 236 + Spec.rne (nat256 c) (2 ^ h)) := by
      have r := RNE.of_rne (nat256 c) (Nat.two_pow_pos h)
      have hp : (0 : ℝ) < 2 ^ h := pow_pos (by norm_num) _
      rw [Nat.cast_pow, Nat.cast_ofNat] at r
      refine RoundsTo.of_rne ?_ ?_ ?_ r (by omega)
      · rw [Nat.cast_mul, Nat.cast_pow, Nat.cast_ofNat, pow_add]
        field_simp
      · rw [div_lt_iff₀ hp, ← pow_add, show 237 + h = L + 1 by omega]
        exact_mod_cast hhi
      · right
        rw [le_div_iff₀ hp, ← pow_add, show 236 + h = L by omega]
        exact_mod_cast hlo
    have hr : Spec.rne (nat256 c) (2 ^ h) = nat256 c / 2 ^ h ∨
        Spec.rne (nat256 c) (2 ^ h) = nat256 c / 2 ^ h + 1 := by
      unfold Spec.rne; split
      · exact Or.inr rfl
      · exact Or.inl rfl
    generalize Spec.rne (nat256 c) (2 ^ h) = R at *
    generalize UInt.roundingDivPow2 c h = c' at *
    have hov : c'.hi >>> (HI_FRACTION_BITS + 1) ≠ 0 ↔ R = 2 ^ 237 := by
      have hl := c'.lo.isLt
      rw [ne_eq, ← BitVec.toNat_inj, BitVec.toNat_ushiftRight, Nat.shiftRight_eq_div_pow,
        show HI_FRACTION_BITS + 1 = 109 from rfl, show (0 : BitVec 128).toNat = 0 from rfl]
      unfold nat256 at hrd
      omega
    refine ⟨(T + h) * 2 ^ 236 + R, ?_, by omega, hrt⟩
    by_cases c3 : c'.hi >>> (HI_FRACTION_BITS + 1) ≠ 0
    · rw [if_pos c3]
      have hR := hov.mp c3
      have m3 : nat256 (UInt.shr c' 1) = 2 ^ 236 := by
        rw [nat_shr256 _ (by norm_num), hrd, hR]; norm_num
      rw [pat_new (k := T + h + 2) _ hs (by omega) (by push_cast; omega), m3, hR]
      omega
    · rw [if_neg c3]
      have hR : R ≠ 2 ^ 237 := fun hc => c3 (hov.mpr hc)
      rw [pat_new' (k := T + h) hs (by omega) (by push_cast; omega) (by omega) (by omega) (by omega),
        hrd]
  · rw [if_neg c2]
    have hL' : L = 236 := by omega
    rw [hL'] at hlo hhi
    refine ⟨T * 2 ^ 236 + nat256 c, pat_new' (k := T) hs (by omega) (by omega) hlo hhi (by omega), by omega,
      RoundsTo.exact hhi (Or.inr hlo) (by omega)⟩

theorem fromSignExpSignif_eq {s : ℕ} {t : ℤ} {c : BitVec 128 × BitVec 128}
    (hc : nat256 ⟨c.1, c.2⟩ ≠ 0) : F256.fromSignExpSignif s t c = F256.encode s t ⟨c.1, c.2⟩ := by
  have hz : U256.isZero (U256.new c.1 c.2) = false := by
    rw [isZero256]; exact decide_eq_false hc
  unfold F256.fromSignExpSignif
  dsimp only
  rw [hz]
  rfl

theorem inf_pat (x : F256) : (if x.sign = 0 then F256.INFINITY else F256.NEG_INFINITY).pat =
    signBit x.pat * 2 ^ 255 + INF := by
  have hlt := pat_lt x
  rw [sign_eq, ← signBit_eq hlt]
  have hs1 : signBit x.pat ≤ 1 := by unfold signBit; omega
  rcases Nat.le_one_iff_eq_zero_or_eq_one.mp hs1 with h | h <;> rw [h] <;> decide

theorem zero_pat (x : F256) : (if x.sign = 0 then F256.ZERO else F256.NEG_ZERO).pat =
    signBit x.pat * 2 ^ 255 + 0 := by
  have hlt := pat_lt x
  rw [sign_eq, ← signBit_eq hlt]
  have hs1 : signBit x.pat ≤ 1 := by unfold signBit; omega
  rcases Nat.le_one_iff_eq_zero_or_eq_one.mp hs1 with h | h <;> rw [h] <;> decide

theorem expField_pat (x : F256) : expBits (absBits x) = expField x.pat := by
  have hlt := pat_lt x
  rw [expBits_eq, nat_absBits, expField]
  omega

theorem RoundsTo.rne_sub {v : ℝ} {M : ℕ} (h : RNE v M) (hv : v < 2 ^ 237) : RoundsTo v M := by
  have := RoundsTo.of_rne (v := v) (w := v) (t := 0) (by rw [pow_zero, mul_one]) hv (Or.inl rfl) h (by norm_num)
  rw [Nat.zero_mul, Nat.zero_add] at this
  exact this

theorem RoundsTo.zero : RoundsTo 0 0 := by
  have := RoundsTo.rne_sub (RNE.of_nat 0) (by rw [Nat.cast_zero]; exact pow_pos (by norm_num) _)
  rw [Nat.cast_zero] at this
  exact this

theorem mulPow2_spec (x : F256) (n : ℕ) (hn : n < 2 ^ 32) (hf : IsFin x.pat)
    (hx : expField x.pat ≠ 0 ∨ n < 524287 ∨ IsZero x.pat) :
    ∃ A, (F256.mulPow2 x n).pat = signBit x.pat * 2 ^ 255 + A ∧ A < 2 ^ 255 ∧
      RoundsTo ((mag x.pat * 2 ^ n : ℕ) : ℝ) A := by
  have hlt := pat_lt x
  have hA := nat_absBits x
  have hI := INF_lt
  have hf' := (fin_iff _).mp hf
  have hs1 : signBit x.pat ≤ 1 := by unfold signBit; omega
  have hspl := pat_split hlt
  unfold F256.mulPow2
  dsimp only
  by_cases c1 : isSpecialBits (absBits x) = true
  · rw [if_pos c1]
    have h0 := (not_special_fin hf).mp c1
    refine ⟨0, by rw [h0] at hspl; exact hspl, by norm_num, ?_⟩
    rw [← mag_abs, h0, mag_zero, Nat.zero_mul, Nat.cast_zero]
    exact RoundsTo.zero
  rw [if_neg c1]
  rw [not_special_fin hf] at c1
  rw [expField_pat]
  have hEM : EXP_MAX = 524287 := rfl
  have hef : expField x.pat = x.pat % 2 ^ 255 / 2 ^ 236 := by
    rw [expField]; omega
  have hz : ¬ IsZero x.pat := by rw [isZero_iff]; exact c1
  by_cases c2 : EXP_MAX ≤ min (expField x.pat + n) 4294967295
  · rw [if_pos c2]
    rw [hEM] at c2
    refine ⟨INF, inf_pat x, hI, ?_⟩
    have hx' : expField x.pat ≠ 0 := by
      rcases hx with h | h | h
      · exact h
      · omega
      · exact absurd h hz
    obtain ⟨t, M, -, ht, -, hM1, -, hm⟩ := norm_asm (a := x.pat % 2 ^ 255) (by omega) hf'
    rw [mag_abs] at hm
    rw [hm]
    refine RoundsTo.inf (t := t + n) (by omega) ?_
    rw [Nat.mul_assoc, ← Nat.pow_add, Nat.cast_mul, Nat.cast_pow, Nat.cast_ofNat]
    refine mul_le_mul_of_nonneg_right ?_ (pow_nonneg (by norm_num) _)
    rw [← Nat.cast_le (α := ℝ), Nat.cast_pow, Nat.cast_ofNat] at hM1
    exact hM1
  rw [if_neg c2]
  rw [hEM] at c2
  by_cases c3 : expField x.pat = 0
  · rw [if_pos c3]
    have hfr : nat256 (fraction (absBits x)) = x.pat % 2 ^ 255 := by
      rw [nat_fraction, hA]; omega
    rw [fromSignExpSignif_eq (by show nat256 (fraction (absBits x)) ≠ 0; rw [hfr]; exact c1)]
    have hmag : mag x.pat = x.pat % 2 ^ 255 := by
      have := mag_asm (t := 0) (M := x.pat % 2 ^ 255) (Or.inl rfl) (by omega) (by unfold INF; omega)
      rw [Nat.zero_mul, Nat.zero_add, pow_zero, Nat.mul_one, mag_abs] at this
      exact this
    have := encode_spec (s := signBit x.pat) (T := n) (c := fraction (absBits x))
      (t := 1 - ((EXP_BIAS : ℤ) + FRACTION_BITS) + n) hs1
      (by unfold EXP_BIAS FRACTION_BITS; push_cast; ring) (by rw [hfr]; exact c1)
      (by
        have h1 : nat256 (fraction (absBits x)) < 2 ^ 236 := by rw [hfr]; omega
        calc nat256 (fraction (absBits x)) * 2 ^ n < 2 ^ 236 * 2 ^ n :=
              Nat.mul_lt_mul_of_pos_right h1 (Nat.two_pow_pos _)
          _ = 2 ^ (236 + n) := (pow_add _ _ _).symm
          _ ≤ _ := Nat.pow_le_pow_right (by norm_num) (by omega))
    rw [hfr, ← hmag] at this
    rw [sign_eq, ← signBit_eq hlt]
    exact this
  rw [if_neg c3]
  obtain ⟨t, M, hd, ht, -, hM1, hM2, hm⟩ := norm_asm (a := x.pat % 2 ^ 255) (by omega) hf'
  rw [mag_abs] at hm
  have hnb : n < 2 ^ 19 := by omega
  refine ⟨(t + n) * 2 ^ 236 + M, ?_, by omega, ?_⟩
  · have h1 : (BitVec.ofNat 128 n <<< HI_FRACTION_BITS).toNat = n * 2 ^ 108 := by
      rw [BitVec.toNat_shiftLeft, BitVec.toNat_ofNat, Nat.shiftLeft_eq, HI_FRACTION_BITS,
        Nat.mod_eq_of_lt (lt_trans hnb (by norm_num)), Nat.mod_eq_of_lt]
      exact lt_of_lt_of_le (Nat.mul_lt_mul_of_pos_right hnb (by norm_num)) (by norm_num)
    have hl := x.bits.lo.isLt
    have hp : x.pat = x.bits.hi.toNat * 2 ^ 128 + x.bits.lo.toNat := rfl
    rw [pat_eq, nat256_new, BitVec.toNat_add, h1]
    have h2 : x.bits.hi.toNat + n * 2 ^ 108 < 2 ^ 128 := by omega
    rw [Nat.mod_eq_of_lt h2]
    omega
  · have := RoundsTo.exact (t := t + n) hM2 (Or.inr hM1) (by omega)
    rw [pow_add, ← Nat.mul_assoc, ← hm] at this
    exact this

theorem divPow2_spec (x : F256) (n : ℕ) (hf : IsFin x.pat)
    (h1 : expField x.pat ≠ n ∨ n = 0)
    (h2 : signBit x.pat = 1 ∨ 2 ≤ expField x.pat ∨
      ¬ (2 ^ n < 2 * mag x.pat ∧ mag x.pat < 2 ^ n)) :
    ∃ A, (F256.divPow2 x n).pat = signBit x.pat * 2 ^ 255 + A ∧ A < 2 ^ 255 ∧
      RoundsTo ((mag x.pat : ℝ) / 2 ^ n) A := by
  have hlt := pat_lt x
  have hA := nat_absBits x
  have hI := INF_lt
  have hf' := (fin_iff _).mp hf
  have hs1 : signBit x.pat ≤ 1 := by unfold signBit; omega
  have hspl := pat_split hlt
  unfold F256.divPow2
  dsimp only
  by_cases c1 : isSpecialBits (absBits x) = true
  · rw [if_pos c1]
    have h0 := (not_special_fin hf).mp c1
    refine ⟨0, by rw [h0] at hspl; exact hspl, by norm_num, ?_⟩
    rw [← mag_abs, h0, mag_zero, Nat.cast_zero, zero_div]
    exact RoundsTo.zero
  rw [if_neg c1]
  rw [not_special_fin hf] at c1
  rw [expField_pat]
  have hef : expField x.pat = x.pat % 2 ^ 255 / 2 ^ 236 := by
    rw [expField]; omega
  by_cases c2 : expField x.pat < n
  · rw [if_pos c2]
    -- the significand and its scale
    obtain ⟨M, hsg, hM0, hMt, hM2, hmn⟩ : ∃ M, nat256 (signif (absBits x)) = M ∧ M ≠ 0 ∧
        (expField x.pat = 0 ∧ M = x.pat % 2 ^ 255 ∨ expField x.pat ≠ 0 ∧ 2 ^ 236 ≤ M) ∧ M < 2 ^ 237 ∧
        mag x.pat * 2 ^ (n - expField x.pat + normBit (absBits x)) = M * 2 ^ n := by
      rw [nat_signif, normBit_eq, hA]
      by_cases h : 2 ^ 236 ≤ x.pat % 2 ^ 255
      · rw [if_pos h, if_pos h]
        obtain ⟨t, M, hd, ht, -, hM1, hM2, hm⟩ := norm_asm h hf'
        rw [mag_abs] at hm
        refine ⟨M, by omega, by omega, Or.inr ⟨by omega, hM1⟩, hM2, ?_⟩
        rw [hm, Nat.mul_assoc, ← pow_add, show t + (n - expField x.pat + 1) = n by omega]
      · rw [if_neg h, if_neg h]
        have hmag : mag x.pat = x.pat % 2 ^ 255 := by
          have := mag_asm (t := 0) (M := x.pat % 2 ^ 255) (Or.inl rfl) (by omega) (by unfold INF; omega)
          rw [Nat.zero_mul, Nat.zero_add, pow_zero, Nat.mul_one, mag_abs] at this
          exact this
        have he0 : expField x.pat = 0 := by omega
        refine ⟨_, rfl, c1, Or.inl ⟨he0, rfl⟩, by omega, ?_⟩
        rw [hmag, he0, Nat.sub_zero, Nat.add_zero]
    have hnb : normBit (absBits x) ≤ 1 := by rw [normBit_eq]; split <;> norm_num
    have hnb1 : expField x.pat ≠ 0 → normBit (absBits x) = 1 := by
      intro h; rw [normBit_eq, hA, if_pos (by omega)]
    obtain ⟨r, hr⟩ : ∃ r, r = n - expField x.pat + normBit (absBits x) := ⟨_, rfl⟩
    rw [← hr] at hmn ⊢
    have hp : (0 : ℝ) < 2 ^ r := pow_pos (by norm_num) _
    have hq : (mag x.pat : ℝ) / 2 ^ n = (M : ℝ) / ((2 ^ r : ℕ) : ℝ) := by
      have : (mag x.pat : ℝ) * 2 ^ r = M * 2 ^ n := by exact_mod_cast hmn
      rw [Nat.cast_pow, Nat.cast_ofNat, div_eq_div_iff (pow_pos (by norm_num) _).ne' hp.ne', this]
    rw [hq]
    have hr1 : 1 ≤ r := by omega
    have hrne := RNE.of_rne M (Nat.two_pow_pos r)
    have hvb : (M : ℝ) / ((2 ^ r : ℕ) : ℝ) < 2 ^ 237 := by
      rw [div_lt_iff₀ (by exact_mod_cast Nat.two_pow_pos r)]
      calc (M : ℝ) < 2 ^ 237 := by exact_mod_cast hM2
        _ ≤ 2 ^ 237 * ((2 ^ r : ℕ) : ℝ) := by
          refine le_mul_of_one_le_right (pow_nonneg (by norm_num) _) ?_
          exact_mod_cast Nat.one_le_two_pow
    have hrt := RoundsTo.rne_sub hrne hvb
    have hR : Spec.rne M (2 ^ r) ≤ 2 ^ 236 := by
      have hd : M / 2 ^ r < 2 ^ 236 := by
        rw [Nat.div_lt_iff_lt_mul (Nat.two_pow_pos r)]
        calc M < 2 ^ 236 * 2 ^ 1 := by omega
          _ ≤ 2 ^ 236 * 2 ^ r := Nat.mul_le_mul_left _ (Nat.pow_le_pow_right (by norm_num) hr1)
      unfold Spec.rne; split <;> omega
    have hpat0 : nat256 x.bits ≠ 0 := fun hc => c1 (by rw [pat_eq, hc, Nat.zero_mod])
    rw [msb256 hpat0, ← pat_eq]
    by_cases c3 : r > x.pat.log2
    · rw [if_pos c3, zero_pat]
      refine ⟨0, rfl, by norm_num, ?_⟩
      -- the quotient is at most one half
      have hhalf : 2 * M ≤ 2 ^ r := by
        have hpl : x.pat < 2 ^ (x.pat.log2 + 1) := Nat.lt_log2_self
        have hpr : 2 ^ (x.pat.log2 + 1) ≤ 2 ^ r := Nat.pow_le_pow_right (by norm_num) c3
        have hxr : x.pat < 2 ^ r := by omega
        rcases h2 with h2 | h2 | h2
        · omega
        · have : 2 * 2 ^ 236 ≤ x.pat := by omega
          have h237 : 237 ≤ x.pat.log2 := by
            rw [Nat.le_log2 (by omega)]; omega
          have : 2 ^ 238 ≤ 2 ^ r := Nat.pow_le_pow_right (by norm_num) (by omega)
          omega
        · by_contra hc
          apply h2
          rw [not_le] at hc
          have hMr : M < 2 ^ r := by
            rcases hMt with ⟨he0, hMx⟩ | ⟨he1, -⟩
            · rw [hMx]; omega
            · have : 2 ^ 236 ≤ x.pat := by omega
              have h236 : 236 ≤ x.pat.log2 := by
                rw [Nat.le_log2 (by omega)]; exact this
              have : 2 ^ 237 ≤ 2 ^ r := Nat.pow_le_pow_right (by norm_num) (by omega)
              omega
          constructor
          · have : 2 ^ r * 2 ^ n < 2 * mag x.pat * 2 ^ r := by
              calc 2 ^ r * 2 ^ n < 2 * M * 2 ^ n := Nat.mul_lt_mul_of_pos_right hc (Nat.two_pow_pos _)
                _ = 2 * (M * 2 ^ n) := by ring
                _ = _ := by rw [← hmn]; ring
            rw [Nat.mul_comm] at this
            exact Nat.lt_of_mul_lt_mul_right this
          · have : mag x.pat * 2 ^ r < 2 ^ n * 2 ^ r := by
              rw [hmn, Nat.mul_comm (2 ^ n)]
              exact Nat.mul_lt_mul_of_pos_right hMr (Nat.two_pow_pos _)
            exact Nat.lt_of_mul_lt_mul_right this
      have : Spec.rne M (2 ^ r) = 0 := by
        have hpr := Nat.two_pow_pos r
        have hMr : M < 2 ^ r := by omega
        unfold Spec.rne
        rw [Nat.mod_eq_of_lt hMr, Nat.div_eq_of_lt hMr, if_neg (by omega)]
      rw [this] at hrt
      exact hrt
    · rw [if_neg c3]
      have hl := log2_lt_256 x.bits
      rw [← pat_eq] at hl
      have hrd : nat256 (UInt.roundingDivPow2 (signif (absBits x)) r) = Spec.rne M (2 ^ r) := by
        rw [← hsg]
        exact UInt.nat_roundingDivPow2 (signif (absBits x)) r (by show r < 256; omega)
      generalize UInt.roundingDivPow2 (signif (absBits x)) r = S at *
      rw [isZero256, hrd]
      by_cases c4 : Spec.rne M (2 ^ r) = 0
      · rw [if_pos (decide_eq_true c4), zero_pat]
        rw [c4] at hrt
        exact ⟨0, rfl, by norm_num, hrt⟩
      · rw [if_neg (by rw [decide_eq_true_iff]; exact c4)]
        rw [fromSignExpSignif_eq (by show nat256 S ≠ 0; rw [hrd]; exact c4)]
        have hS : nat256 S < 2 ^ 237 := by rw [hrd]; omega
        obtain ⟨A, e1, e2, e3⟩ := encode_spec (s := signBit x.pat) (T := 0) (c := S)
          (t := 1 - ((EXP_BIAS : ℤ) + FRACTION_BITS)) hs1 (by decide) (by rw [hrd]; exact c4)
          (by
            rw [pow_zero, Nat.mul_one]
            exact lt_of_lt_of_le hS (Nat.pow_le_pow_right (by norm_num) (by norm_num)))
        rw [sign_eq, ← signBit_eq hlt]
        refine ⟨A, e1, e2, ?_⟩
        rw [pow_zero, Nat.mul_one] at e3
        have := RoundsTo.unique e3 (RoundsTo.rne_sub (RNE.of_nat _) (by exact_mod_cast hS))
        rw [this, hrd]
        exact hrt
  rw [if_neg c2]
  by_cases hn0 : n = 0
  · subst hn0
    refine ⟨x.pat % 2 ^ 255, ?_, by omega, ?_⟩
    · have : F256.mk (U256.new (x.bits.hi - BitVec.ofNat 128 0 <<< HI_FRACTION_BITS) x.bits.lo) = x := by
        have : x.bits.hi - BitVec.ofNat 128 0 <<< HI_FRACTION_BITS = x.bits.hi := by simp
        rw [this]; rfl
      rw [this]; exact hspl
    · rw [pow_zero, div_one]; exact RoundsTo.self hf
  have hen : n < expField x.pat := by omega
  obtain ⟨t, M, hd, ht, ht2, hM1, hM2, hm⟩ := norm_asm (a := x.pat % 2 ^ 255) (by omega) hf'
  rw [mag_abs] at hm
  have hnb : n < 2 ^ 19 := by omega
  refine ⟨(t - n) * 2 ^ 236 + M, ?_, by omega, ?_⟩
  · have h1 : (BitVec.ofNat 128 n <<< HI_FRACTION_BITS).toNat = n * 2 ^ 108 := by
      rw [BitVec.toNat_shiftLeft, BitVec.toNat_ofNat, Nat.shiftLeft_eq, HI_FRACTION_BITS,
        Nat.mod_eq_of_lt (lt_trans hnb (by norm_num)), Nat.mod_eq_of_lt]
      exact lt_of_lt_of_le (Nat.mul_lt_mul_of_pos_right hnb (by norm_num)) (by norm_num)
    have hl := x.bits.lo.isLt
    have hp : x.pat = x.bits.hi.toNat * 2 ^ 128 + x.bits.lo.toNat := rfl
    have h2 : n * 2 ^ 108 ≤ x.bits.hi.toNat := by omega
    rw [pat_eq, nat256_new, BitVec.toNat_sub_of_le (by rw [BitVec.le_def, h1]; exact h2), h1]
    omega
  · have := RoundsTo.exact (t := t - n) hM2 (Or.inr hM1) (by omega)
    have e : (mag x.pat : ℝ) / 2 ^ n = ((M * 2 ^ (t - n) : ℕ) : ℝ) := by
      rw [hm, div_eq_iff (pow_pos (by norm_num) _).ne']
      rw [← Nat.cast_ofNat (n := 2) (R := ℝ), ← Nat.cast_pow, ← Nat.cast_mul, Nat.mul_assoc, ← pow_add,
        Nat.sub_add_cancel (by omega)]
    rw [e]
    exact this

end Verif
