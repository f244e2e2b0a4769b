import Verif.Model.Integral
import Verif.Proofs.New
import Verif.Proofs.Exact
import Mathlib.Algebra.Order.Floor.Ring
import Mathlib.Algebra.Order.Floor.Semifield

/-!
# Integral values
-/

namespace Verif

open BigUInt LawfulBigUInt Spec

theorem abs_val_eq (N : ℕ) : |val N| = mag N / 2 ^ 262378 := by
  rw [← abs_val, mul_div_cancel_right₀]
  exact (pow_pos (by norm_num) _).ne'

theorem val_sign (N : ℕ) : val N = (-1) ^ signBit N * |val N| := by
  rw [abs_val_eq, val_eq]

theorem hi_ge_iff (A : U256) (c : BitVec 128) : c ≤ A.hi ↔ c.toNat * 2 ^ 128 ≤ nat256 A := by
  have := A.lo.isLt
  rw [BitVec.le_def, nat256]; omega

theorem hi_lt_iff (A : U256) (c : BitVec 128) : A.hi < c ↔ nat256 A < c.toNat * 2 ^ 128 := by
  have := A.lo.isLt
  rw [BitVec.lt_def, nat256]; omega

theorem hi_le_iff (A : U256) (c : BitVec 128) : A.hi ≤ c ↔ nat256 A < (c.toNat + 1) * 2 ^ 128 := by
  have := A.lo.isLt
  rw [BitVec.le_def, nat256]; omega

/-- pattern of 1 -/
def P1 : ℕ := 262143 * 2 ^ 236
/-- pattern of 1/2 -/
def PH : ℕ := 262142 * 2 ^ 236
/-- pattern of 2^236 -/
def PI : ℕ := 262379 * 2 ^ 236

theorem no_fract_iff (A : U256) : MIN_NO_FRACT_HI ≤ A.hi ↔ PI ≤ nat256 A := by
  rw [hi_ge_iff, show MIN_NO_FRACT_HI.toNat * 2 ^ 128 = PI by decide]
theorem lt_one_iff (A : U256) : A.hi < F256.ONE.bits.hi ↔ nat256 A < P1 := by
  rw [hi_lt_iff, show F256.ONE.bits.hi.toNat * 2 ^ 128 = P1 by decide]
theorem le_one_iff (A : U256) : A.hi ≤ F256.ONE.bits.hi ↔ nat256 A < P1 + 2 ^ 128 := by
  rw [hi_le_iff, show (F256.ONE.bits.hi.toNat + 1) * 2 ^ 128 = P1 + 2 ^ 128 by decide]
theorem lt_half_iff (A : U256) : A.hi < F256.ONE_HALF.bits.hi ↔ nat256 A < PH := by
  rw [hi_lt_iff, show F256.ONE_HALF.bits.hi.toNat * 2 ^ 128 = PH by decide]
theorem le_half_iff (A : U256) : A.hi ≤ F256.ONE_HALF.bits.hi ↔ nat256 A < PH + 2 ^ 128 := by
  rw [hi_le_iff, show (F256.ONE_HALF.bits.hi.toNat + 1) * 2 ^ 128 = PH + 2 ^ 128 by decide]

/-- A normal pattern taken apart. -/
theorem norm_asm {a : ℕ} (h1 : 2 ^ 236 ≤ a) (h2 : a < INF) : ∃ t M, a = t * 2 ^ 236 + M ∧
    t = a / 2 ^ 236 - 1 ∧ t ≤ 524285 ∧ 2 ^ 236 ≤ M ∧ M < 2 ^ 237 ∧ mag a = M * 2 ^ t := by
  have hd := Nat.div_add_mod a (2 ^ 236)
  have hm : a % 2 ^ 236 < 2 ^ 236 := Nat.mod_lt _ (by norm_num)
  have h3 := h2
  unfold INF at h3
  refine ⟨a / 2 ^ 236 - 1, 2 ^ 236 + a % 2 ^ 236, by omega, rfl, by omega, by omega, by omega, ?_⟩
  have e : a = (a / 2 ^ 236 - 1) * 2 ^ 236 + (2 ^ 236 + a % 2 ^ 236) := by omega
  have := mag_asm (t := a / 2 ^ 236 - 1) (M := 2 ^ 236 + a % 2 ^ 236) (Or.inr (by omega)) (by omega)
    (by rw [← e]; exact h2)
  rw [← e] at this
  exact this

/-- From `2^236` on all numbers are integers. -/
theorem mag_big {a : ℕ} (h1 : PI ≤ a) (h2 : a < INF) : ∃ j, mag a = j * 2 ^ 262378 := by
  unfold PI at h1
  obtain ⟨t, M, -, ht, -, -, -, hm⟩ := norm_asm (by omega) h2
  refine ⟨M * 2 ^ (t - 262378), ?_⟩
  rw [hm, mul_assoc, ← pow_add, Nat.sub_add_cancel (by omega)]

theorem P1_lt : P1 < INF := by decide
theorem PH_lt : PH < INF := by decide

theorem mag_P1 : mag P1 = 2 ^ 262378 := by
  have := mag_asm (t := 262142) (M := 2 ^ 236) (Or.inr (le_refl _)) (by norm_num) (by decide)
  rw [show 262142 * 2 ^ 236 + 2 ^ 236 = P1 by decide, ← pow_add] at this
  exact this

theorem mag_PH : mag PH = 2 ^ 262377 := by
  have := mag_asm (t := 262141) (M := 2 ^ 236) (Or.inr (le_refl _)) (by norm_num) (by decide)
  rw [show 262141 * 2 ^ 236 + 2 ^ 236 = PH by decide, ← pow_add] at this
  exact this

theorem abs_lt_one_iff {N : ℕ} (h : IsFin N) : |val N| < 1 ↔ N % 2 ^ 255 < P1 := by
  rw [abs_val_eq, div_lt_one (pow_pos (by norm_num) _), ← mag_lt_iff ((fin_iff N).mp h) P1_lt, mag_P1,
    mag_abs]
  rw [← Nat.cast_lt (α := ℝ), Nat.cast_pow, Nat.cast_ofNat]

theorem half_real : (1 / 2 : ℝ) * 2 ^ 262378 = 2 ^ 262377 := by
  rw [show (262378 : ℕ) = 262377 + 1 from rfl, pow_succ]; ring

theorem abs_lt_half_iff {N : ℕ} (h : IsFin N) : |val N| < 1 / 2 ↔ N % 2 ^ 255 < PH := by
  rw [abs_val_eq, div_lt_iff₀ (pow_pos (by norm_num) _), half_real,
    ← mag_lt_iff ((fin_iff N).mp h) PH_lt, mag_PH, mag_abs]
  rw [← Nat.cast_lt (α := ℝ), Nat.cast_pow, Nat.cast_ofNat]

theorem abs_gt_half_iff {N : ℕ} (h : IsFin N) : 1 / 2 < |val N| ↔ PH < N % 2 ^ 255 := by
  rw [abs_val_eq, lt_div_iff₀ (pow_pos (by norm_num) _), half_real,
    ← mag_lt_iff PH_lt ((fin_iff N).mp h), mag_PH, mag_abs]
  rw [← Nat.cast_lt (α := ℝ), Nat.cast_pow, Nat.cast_ofNat]

/-- Numbers between 1 and 2^236: `n` fraction bits. -/
theorem mid_decode {A : U256} (h1 : P1 ≤ nat256 A) (h2 : nat256 A < PI) : ∃ t n M,
    FRACTION_BITS - (expBits A - EXP_BIAS) = n ∧ 1 ≤ n ∧ n ≤ 236 ∧ t + n = 262378 ∧
    nat256 A = t * 2 ^ 236 + M ∧ 2 ^ 236 ≤ M ∧ M < 2 ^ 237 ∧
    (mag (nat256 A) : ℝ) / 2 ^ 262378 = M / 2 ^ n := by
  unfold P1 at h1
  unfold PI at h2
  obtain ⟨t, M, h3, ht, -, h4, h5, hm⟩ := norm_asm (a := nat256 A) (by omega) (by unfold INF; omega)
  have he := expBits_eq A
  refine ⟨t, 262378 - t, M, ?_, by omega, by omega, by omega, h3, h4, h5, ?_⟩
  · rw [he]; unfold FRACTION_BITS EXP_BIAS; omega
  · obtain ⟨n, hn⟩ : ∃ n, n + t = 262378 := ⟨262378 - t, by omega⟩
    rw [hm, show 262378 - t = n by omega, ← hn, pow_add, Nat.cast_mul, Nat.cast_pow, Nat.cast_ofNat,
      mul_div_mul_right]
    exact (pow_pos (by norm_num) _).ne'

/-- The value of a pattern assembled from the integer `j`. -/
theorem int_val {t n j s : ℕ} (hn : t + n = 262378) (h1 : 1 ≤ n) (h2 : n ≤ 236)
    (hj : 2 ^ 236 ≤ j * 2 ^ n) (hj2 : j * 2 ^ n ≤ 2 ^ 237) (hs : s ≤ 1) :
    t * 2 ^ 236 + j * 2 ^ n < 2 ^ 255 ∧
    IsFin (s * 2 ^ 255 + (t * 2 ^ 236 + j * 2 ^ n)) ∧
    signBit (s * 2 ^ 255 + (t * 2 ^ 236 + j * 2 ^ n)) = s ∧
    val (s * 2 ^ 255 + (t * 2 ^ 236 + j * 2 ^ n)) = (-1) ^ s * (j : ℝ) := by
  have hI : t * 2 ^ 236 + j * 2 ^ n < INF := by unfold INF; omega
  have hl := INF_lt
  have hm := mag_asm (t := t) (Or.inr hj) hj2 hI
  obtain ⟨b, hb⟩ : ∃ b, b = t * 2 ^ 236 + j * 2 ^ n := ⟨_, rfl⟩
  rw [← hb] at hI hm ⊢
  clear hb
  have hmod : (s * 2 ^ 255 + b) % 2 ^ 255 = b := by omega
  have hm' : mag b = j * 2 ^ 262378 := by
    rw [hm, Nat.mul_assoc, ← Nat.pow_add, show n + t = 262378 by omega]
  have hsb : signBit (s * 2 ^ 255 + b) = s := by unfold signBit; omega
  refine ⟨by omega, by rw [fin_iff, hmod]; exact hI, hsb, ?_⟩
  rw [val_eq, hsb, ← mag_abs, hmod, hm', Nat.cast_mul,
    Nat.cast_pow, Nat.cast_ofNat, mul_div_cancel_right₀]
  exact (pow_pos (by norm_num) _).ne'

theorem floor_nat_div (M : ℕ) (n : ℕ) : ⌊(M : ℝ) / 2 ^ n⌋₊ = M / 2 ^ n := by
  have := Nat.floor_div_eq_div (K := ℝ) M (2 ^ n)
  rw [Nat.cast_pow, Nat.cast_ofNat] at this
  exact this

theorem ceil_nat_div (M : ℕ) (n : ℕ) :
    ⌈(M : ℝ) / 2 ^ n⌉₊ = M / 2 ^ n + if M % 2 ^ n = 0 then 0 else 1 := by
  have hp : (0 : ℝ) < 2 ^ n := pow_pos (by norm_num) _
  have hd : (M : ℝ) = 2 ^ n * ((M / 2 ^ n : ℕ) : ℝ) + ((M % 2 ^ n : ℕ) : ℝ) := by
    have := (Nat.div_add_mod M (2 ^ n)).symm
    calc (M : ℝ) = ((2 ^ n * (M / 2 ^ n) + M % 2 ^ n : ℕ) : ℝ) := by rw [← this]
      _ = _ := by push_cast; ring
  have hlt : ((M % 2 ^ n : ℕ) : ℝ) < 2 ^ n := by
    have := Nat.mod_lt M (Nat.two_pow_pos n)
    exact_mod_cast this
  by_cases h : M % 2 ^ n = 0
  · rw [if_pos h, Nat.add_zero]
    have : (M : ℝ) / 2 ^ n = ((M / 2 ^ n : ℕ) : ℝ) := by
      rw [div_eq_iff hp.ne', mul_comm]
      rw [h, Nat.cast_zero, add_zero] at hd
      exact hd
    rw [this, Nat.ceil_natCast]
  · have h1 : M / 2 ^ n + 1 ≠ 0 := Nat.succ_ne_zero _
    rw [if_neg h, Nat.ceil_eq_iff h1, Nat.add_sub_cancel]
    have h0 : (0 : ℝ) < ((M % 2 ^ n : ℕ) : ℝ) := by exact_mod_cast Nat.pos_of_ne_zero h
    constructor
    · rw [lt_div_iff₀ hp]; linarith
    · rw [div_le_iff₀ hp]; push_cast; linarith

/-- Splitting a pattern at `n ≤ 236` bits. -/
theorem asm_div {t M n : ℕ} (hn : n ≤ 236) : (t * 2 ^ 236 + M) / 2 ^ n * 2 ^ n =
    t * 2 ^ 236 + M / 2 ^ n * 2 ^ n ∧ (t * 2 ^ 236 + M) % 2 ^ n = M % 2 ^ n := by
  obtain ⟨k, hk⟩ := Nat.exists_eq_add_of_le hn
  have e : t * 2 ^ 236 + M = M + 2 ^ n * (t * 2 ^ k) := by rw [hk, pow_add]; ring
  rw [e, Nat.add_mul_div_left _ _ (Nat.two_pow_pos n), Nat.add_mul_mod_self_left, hk, pow_add]
  exact ⟨by ring, rfl⟩

theorem mid_bounds {M n : ℕ} (hn : n ≤ 236) (h1 : 2 ^ 236 ≤ M) (h2 : M < 2 ^ 237) :
    2 ^ 236 ≤ M / 2 ^ n * 2 ^ n ∧ (M / 2 ^ n + 1) * 2 ^ n ≤ 2 ^ 237 := by
  obtain ⟨k, hk⟩ := Nat.exists_eq_add_of_le hn
  have hp : 0 < 2 ^ n := Nat.two_pow_pos n
  have a1 : 2 ^ k ≤ M / 2 ^ n := by
    rw [Nat.le_div_iff_mul_le hp, ← pow_add, Nat.add_comm k, ← hk]; exact h1
  have a2 : M / 2 ^ n < 2 ^ (k + 1) := by
    rw [Nat.div_lt_iff_lt_mul hp, ← pow_add, show k + 1 + n = 237 by omega]; exact h2
  constructor
  · calc 2 ^ 236 = 2 ^ k * 2 ^ n := by rw [← pow_add, Nat.add_comm k, ← hk]
      _ ≤ _ := Nat.mul_le_mul_right _ a1
  · calc _ ≤ 2 ^ (k + 1) * 2 ^ n := Nat.mul_le_mul_right _ a2
      _ = 2 ^ 237 := by rw [← pow_add, show k + 1 + n = 237 by omega]

theorem special_abs (x : F256) : isSpecialBits (absBits x) = true ↔
    x.pat % 2 ^ 255 = 0 ∨ INF ≤ x.pat % 2 ^ 255 := by
  unfold isSpecialBits
  rw [special_iff, nat_absBits]

/-- The directed roundings of the code. -/
theorem nearestIntegral_spec (x : F256) (adj : ℕ → Bool) (hf : IsFin x.pat) :
    ∃ z, F256.nearestIntegral x adj = some z ∧ IsFin z.pat ∧ (val z.pat ≠ 0 → signBit z.pat = signBit x.pat) ∧
      val z.pat = (-1) ^ signBit x.pat *
        ((if adj (signBit x.pat) then ⌈|val x.pat|⌉₊ else ⌊|val x.pat|⌋₊ : ℕ) : ℝ) := by
  have hlt := pat_lt x
  have hs := sign_eq x
  rw [← signBit_eq hlt] at hs
  have hs1 : signBit x.pat ≤ 1 := by unfold signBit; omega
  have hf' := (fin_iff _).mp hf
  have hA := nat_absBits x
  have hself : ∀ j : ℕ, mag x.pat = j * 2 ^ 262378 → val x.pat = (-1) ^ signBit x.pat *
        ((if adj (signBit x.pat) then ⌈|val x.pat|⌉₊ else ⌊|val x.pat|⌋₊ : ℕ) : ℝ) := by
    intro j hj
    have hw : |val x.pat| = j := by
      rw [abs_val_eq, hj, Nat.cast_mul, Nat.cast_pow, Nat.cast_ofNat, mul_div_cancel_right₀]
      exact (pow_pos (by norm_num) _).ne'
    rw [hw, Nat.ceil_natCast, Nat.floor_natCast, ite_self, ← hw]
    exact val_sign _
  unfold F256.nearestIntegral
  dsimp only
  by_cases c1 : isSpecialBits (absBits x) = true
  · rw [if_pos c1]
    have := (special_abs x).mp c1
    refine ⟨x, rfl, hf, fun _ => rfl, hself 0 ?_⟩
    rw [← mag_abs, show x.pat % 2 ^ 255 = 0 by omega, mag_zero, Nat.zero_mul]
  rw [if_neg c1]
  rw [special_abs] at c1
  by_cases c2 : MIN_NO_FRACT_HI ≤ (absBits x).hi
  · rw [if_pos c2]
    obtain ⟨j, hj⟩ := mag_big ((no_fract_iff _).mp c2) (by rw [hA]; exact hf')
    rw [hA, mag_abs] at hj
    exact ⟨x, rfl, hf, fun _ => rfl, hself j hj⟩
  rw [if_neg c2]
  rw [no_fract_iff] at c2
  rw [hs]
  by_cases c3 : (absBits x).hi < F256.ONE.bits.hi
  · rw [if_pos c3]
    have c3' := (lt_one_iff _).mp c3
    rw [hA] at c3'
    have hw1 := (abs_lt_one_iff hf).mpr c3'
    have hw0 : 0 < |val x.pat| := by
      rw [abs_val_eq]
      apply div_pos
      · rw [← mag_abs]; exact_mod_cast mag_pos (by omega) hf'
      · exact pow_pos (by norm_num) _
    have hfl : ⌊|val x.pat|⌋₊ = 0 := Nat.floor_eq_zero.mpr hw1
    have hce : ⌈|val x.pat|⌉₊ = 1 := by
      rw [Nat.ceil_eq_iff (by norm_num)]
      exact ⟨by simpa using hw0, by simpa using hw1.le⟩
    have v1 : val F256.ONE.pat = 1 := by
      have : F256.ONE.pat = P1 := by decide
      rw [val_eq, this, mag_P1, show signBit P1 = 0 by decide, pow_zero, one_mul, Nat.cast_pow,
        Nat.cast_ofNat, div_self]
      exact (pow_pos (by norm_num) _).ne'
    have v2 : val F256.NEG_ONE.pat = -1 := by
      have : F256.NEG_ONE.pat % 2 ^ 255 = P1 := by decide
      rw [val_eq, ← mag_abs, this, mag_P1, show signBit F256.NEG_ONE.pat = 1 by decide, pow_one,
        Nat.cast_pow, Nat.cast_ofNat, div_self, mul_one]
      exact (pow_pos (by norm_num) _).ne'
    have v0 : val F256.ZERO.pat = 0 := val_zero (by decide)
    rw [hfl, hce]
    rcases Nat.le_one_iff_eq_zero_or_eq_one.mp hs1 with h | h
    · rw [h]
      cases hadj : adj 0
      · refine ⟨F256.ZERO, by simp, by decide, by simp [v0], by simp [v0]⟩
      · refine ⟨F256.ONE, by simp, by decide, fun _ => by decide, by simp [v1]⟩
    · rw [h]
      cases hadj : adj 1
      · refine ⟨F256.ZERO, by simp, by decide, by simp [v0], by simp [v0]⟩
      · refine ⟨F256.NEG_ONE, by simp, by decide, fun _ => by decide, by simp [v2]⟩
  rw [if_neg c3]
  rw [lt_one_iff] at c3
  obtain ⟨t, n, M, hn, hn1, hn2, htn, hdec, hM1, hM2, hw⟩ := mid_decode (not_lt.mp c3) (not_le.mp c2)
  rw [hn]
  obtain ⟨ad1, ad2⟩ := asm_div (t := t) (M := M) hn2
  obtain ⟨mb1, mb2⟩ := mid_bounds hn2 hM1 hM2
  have hw' : |val x.pat| = (M : ℝ) / 2 ^ n := by
    rw [abs_val_eq, ← hw, hA, mag_abs]
  have hub : M / 2 ^ n * 2 ^ n ≤ 2 ^ 237 := le_trans (Nat.mul_le_mul_right _ (Nat.le_succ _)) mb2
  have i1 : nat256 (UInt.shl (UInt.shr (absBits x) n) n) = t * 2 ^ 236 + M / 2 ^ n * 2 ^ n := by
    have : nat256 (UInt.shr (absBits x) n) * 2 ^ n = t * 2 ^ 236 + M / 2 ^ n * 2 ^ n := by
      rw [nat_shr256 _ (by omega), hdec, ad1]
    rw [nat_shl256_of_lt _ (by omega), this]
    rw [this]; omega
  have hb : UInt.beq (UInt.shl (UInt.shr (absBits x) n) n) (absBits x) = decide (M % 2 ^ n = 0) := by
    rw [UInt.beq_eq, nat256_eq, nat256_eq, i1, hdec, decide_eq_decide]
    have := Nat.div_add_mod M (2 ^ n)
    rw [Nat.mul_comm] at this
    omega
  rw [hb]
  generalize UInt.shl (UInt.shr (absBits x) n) n = I at *
  obtain ⟨c, hc⟩ : ∃ c, c = (adj (signBit x.pat)).toNat * (!decide (M % 2 ^ n = 0)).toNat := ⟨_, rfl⟩
  rw [← hc]
  have hc1 : c ≤ 1 := by
    rw [hc]; cases adj (signBit x.pat) <;> cases decide (M % 2 ^ n = 0) <;> decide
  have hpn : 2 ^ n ≤ 2 ^ 236 := Nat.pow_le_pow_right (by norm_num) hn2
  have hcn : c * 2 ^ n ≤ 2 ^ 236 := le_trans (Nat.mul_le_mul_right _ hc1) (by omega)
  have i2 : nat256 (UInt.shl (U256.new 0 (BitVec.ofNat 128 c)) n) = c * 2 ^ n := by
    have : nat256 (U256.new 0 (BitVec.ofNat 128 c)) = c := by
      rw [nat256_new, BitVec.toNat_ofNat, Nat.mod_eq_of_lt (by omega)]; simp
    rw [nat_shl256_of_lt _ (by omega), this]
    rw [this]; omega
  obtain ⟨Z, hZ, hZ'⟩ := add256 (x := I) (y := UInt.shl (U256.new 0 (BitVec.ofNat 128 c)) n)
    (by rw [i1, i2]; omega)
  have hjb : (M / 2 ^ n + c) * 2 ^ n ≤ 2 ^ 237 :=
    le_trans (Nat.mul_le_mul_right _ (by omega)) mb2
  rw [hZ, Option.map_some]
  rw [i1, i2] at hZ'
  have hj : nat256 Z = t * 2 ^ 236 + (M / 2 ^ n + c) * 2 ^ n := by rw [hZ']; ring
  obtain ⟨r1, r2, r3, r4⟩ := int_val (s := signBit x.pat) htn hn1 hn2
    (le_trans mb1 (Nat.mul_le_mul_right _ (by omega : M / 2 ^ n ≤ M / 2 ^ n + c))) hjb hs1
  have hpat : F256.pat ⟨U256.new (Z.hi ||| signBitsHi x) Z.lo⟩ =
      signBit x.pat * 2 ^ 255 + (t * 2 ^ 236 + (M / 2 ^ n + c) * 2 ^ n) := by
    rw [← hj]
    exact nat_or_sign (by rw [hj]; exact r1) (by rw [toNat_signBitsHi, signBit_eq hlt])
  refine ⟨_, rfl, by rw [hpat]; exact r2, fun _ => by rw [hpat]; exact r3, ?_⟩
  have key : (if adj (signBit x.pat) = true then ⌈|val x.pat|⌉₊ else ⌊|val x.pat|⌋₊) = M / 2 ^ n + c := ?_
  · rw [hpat, r4, key]
  rw [hw', floor_nat_div, ceil_nat_div, hc]
  cases adj (signBit x.pat)
  · simp
  · by_cases h : M % 2 ^ n = 0 <;> simp [h]

end Verif
