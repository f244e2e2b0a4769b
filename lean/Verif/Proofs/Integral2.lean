import Verif.Proofs.Integral
import Verif.Proofs.Sticky

/-!
# Rounding to the nearest integer
-/

namespace Verif

open BigUInt LawfulBigUInt Spec

/-- `j` is a natural number nearest to `w`, the larger one if there are two. -/
def HalfUp (w : ℝ) (j : ℕ) : Prop := |w - j| ≤ 1 / 2 ∧ (|w - j| = 1 / 2 → w < j)

theorem HalfUp.of_nat (j : ℕ) : HalfUp j j := by
  constructor
  · simp
  · intro h; simp at h

theorem real_div (M n : ℕ) : (M : ℝ) / 2 ^ n = ((M / 2 ^ n : ℕ) : ℝ) + ((M % 2 ^ n : ℕ) : ℝ) / 2 ^ n := by
  have hp : (0 : ℝ) < 2 ^ n := pow_pos (by norm_num) _
  have hd : (M : ℝ) = 2 ^ n * ((M / 2 ^ n : ℕ) : ℝ) + ((M % 2 ^ n : ℕ) : ℝ) := by
    have := (Nat.div_add_mod M (2 ^ n)).symm
    calc (M : ℝ) = ((2 ^ n * (M / 2 ^ n) + M % 2 ^ n : ℕ) : ℝ) := by rw [← this]
      _ = _ := by push_cast; ring
  rw [div_eq_iff hp.ne', add_mul, div_mul_cancel₀ _ hp.ne']
  linarith

theorem HalfUp.of_div (M n : ℕ) : HalfUp ((M : ℝ) / 2 ^ n)
    (M / 2 ^ n + if 2 ^ n ≤ 2 * (M % 2 ^ n) then 1 else 0) := by
  have hp : (0 : ℝ) < 2 ^ n := pow_pos (by norm_num) _
  have hlt : ((M % 2 ^ n : ℕ) : ℝ) < 2 ^ n := by
    exact_mod_cast Nat.mod_lt M (Nat.two_pow_pos n)
  have h0 : (0 : ℝ) ≤ ((M % 2 ^ n : ℕ) : ℝ) := Nat.cast_nonneg _
  have f1 : ((M % 2 ^ n : ℕ) : ℝ) / 2 ^ n < 1 := (div_lt_one hp).mpr hlt
  have f0 : 0 ≤ ((M % 2 ^ n : ℕ) : ℝ) / 2 ^ n := div_nonneg h0 hp.le
  rw [real_div]
  by_cases h : 2 ^ n ≤ 2 * (M % 2 ^ n)
  · rw [if_pos h]
    have h' : (1 / 2 : ℝ) ≤ ((M % 2 ^ n : ℕ) : ℝ) / 2 ^ n := by
      rw [le_div_iff₀ hp]
      have : ((2 : ℝ) ^ n) ≤ 2 * ((M % 2 ^ n : ℕ) : ℝ) := by exact_mod_cast h
      linarith
    generalize ((M % 2 ^ n : ℕ) : ℝ) / 2 ^ n = f at *
    rw [HalfUp, Nat.cast_add, Nat.cast_one]
    generalize ((M / 2 ^ n : ℕ) : ℝ) = q at *
    exact ⟨abs_le.mpr ⟨by linarith, by linarith⟩, fun _ => by linarith⟩
  · rw [if_neg h]
    have h' : ((M % 2 ^ n : ℕ) : ℝ) / 2 ^ n < 1 / 2 := by
      rw [div_lt_iff₀ hp]
      have : 2 * ((M % 2 ^ n : ℕ) : ℝ) < (2 : ℝ) ^ n := by exact_mod_cast not_le.mp h
      linarith
    generalize ((M % 2 ^ n : ℕ) : ℝ) / 2 ^ n = f at *
    rw [HalfUp, Nat.add_zero]
    generalize ((M / 2 ^ n : ℕ) : ℝ) = q at *
    have e : q + f - q = f := by ring
    rw [e, abs_of_nonneg f0]
    exact ⟨h'.le, fun hc => by linarith⟩

theorem pat_one_signed (x : F256) :
    F256.pat ⟨U256.new (F256.ONE.bits.hi ||| signBitsHi x) 0⟩ = signBit x.pat * 2 ^ 255 + P1 := by
  have := nat_or_sign (z := ⟨F256.ONE.bits.hi, 0⟩) (h := signBitsHi x) (s := signBit x.pat)
    (by decide) (by rw [toNat_signBitsHi, signBit_eq (pat_lt x)])
  rw [show nat256 ⟨F256.ONE.bits.hi, 0⟩ = P1 by decide] at this
  exact this

theorem val_P1 {s : ℕ} (hs : s ≤ 1) : IsFin (s * 2 ^ 255 + P1) ∧ signBit (s * 2 ^ 255 + P1) = s ∧
    val (s * 2 ^ 255 + P1) = (-1) ^ s * ((1 : ℕ) : ℝ) := by
  have := int_val (t := 262142) (n := 236) (j := 1) rfl (by norm_num) (by norm_num) (by norm_num)
    (by norm_num) hs
  rw [show 262142 * 2 ^ 236 + 1 * 2 ^ 236 = P1 by decide] at this
  exact ⟨this.2.1, this.2.2.1, this.2.2.2⟩

/-- What the two nearest-integer functions share: everything but the deciding comparisons. -/
theorem int_cases (x : F256) (hf : IsFin x.pat) (P : ℝ → ℕ → Prop) (hP : ∀ j : ℕ, P j j) (z : F256)
    (hz : (x.pat % 2 ^ 255 = 0 ∨ PI ≤ x.pat % 2 ^ 255) → z = x)
    (h2 : x.pat % 2 ^ 255 ≠ 0 → x.pat % 2 ^ 255 < PI → ∃ j : ℕ, IsFin z.pat ∧
      (j ≠ 0 → signBit z.pat = signBit x.pat) ∧ val z.pat = (-1) ^ signBit x.pat * (j : ℝ) ∧
      P |val x.pat| j) :
    ∃ j : ℕ, IsFin z.pat ∧ (j ≠ 0 → signBit z.pat = signBit x.pat) ∧
      val z.pat = (-1) ^ signBit x.pat * (j : ℝ) ∧ P |val x.pat| j := by
  by_cases h : x.pat % 2 ^ 255 = 0 ∨ PI ≤ x.pat % 2 ^ 255
  · rw [hz h]
    have : ∃ j, mag x.pat = j * 2 ^ 262378 := by
      rcases h with h | h
      · exact ⟨0, by rw [← mag_abs, h, mag_zero, Nat.zero_mul]⟩
      · obtain ⟨j, hj⟩ := mag_big h ((fin_iff _).mp hf)
        exact ⟨j, by rw [← mag_abs, hj]⟩
    obtain ⟨j, hj⟩ := this
    have hw : |val x.pat| = j := by
      rw [abs_val_eq, hj, Nat.cast_mul, Nat.cast_pow, Nat.cast_ofNat, mul_div_cancel_right₀]
      exact (pow_pos (by norm_num) _).ne'
    exact ⟨j, hf, fun _ => rfl, by rw [← hw]; exact val_sign _, by rw [hw]; exact hP j⟩
  · exact h2 (fun hc => h (Or.inl hc)) (not_le.mp fun hc => h (Or.inr hc))

theorem not_special_fin {x : F256} (hf : IsFin x.pat) : isSpecialBits (absBits x) = true ↔
    x.pat % 2 ^ 255 = 0 := by
  rw [special_abs]
  have := (fin_iff _).mp hf
  omega

theorem near_one {a : ℕ} (h1 : PH ≤ a) (h2 : a < P1 + 2 ^ 128) :
    (1 / 2 : ℝ) ≤ mag a / 2 ^ 262378 ∧ (mag a : ℝ) / 2 ^ 262378 < 3 / 2 := by
  have hI : a < INF := by unfold P1 at h2; unfold INF; omega
  have hp : (0 : ℝ) < 2 ^ 262378 := pow_pos (by norm_num) _
  constructor
  · rw [le_div_iff₀ hp, half_real]
    have : mag PH ≤ mag a := by
      by_contra hc
      have := (mag_lt_iff hI PH_lt).mp (not_le.mp hc)
      omega
    rw [mag_PH] at this
    rw [← Nat.cast_le (α := ℝ), Nat.cast_pow, Nat.cast_ofNat] at this
    exact this
  · have e3 := mag_asm (t := 262142) (M := 3 * 2 ^ 235) (Or.inr (by norm_num)) (by norm_num) (by decide)
    have hb : a < 262142 * 2 ^ 236 + 3 * 2 ^ 235 := by unfold P1 at h2; omega
    have := (mag_lt_iff hI (show 262142 * 2 ^ 236 + 3 * 2 ^ 235 < INF by decide)).mpr hb
    have e4 : 3 * 2 ^ 235 * 2 ^ 262142 = 3 * 2 ^ 262377 := by
      rw [Nat.mul_assoc, ← Nat.pow_add]
    rw [e3, e4] at this
    clear e3 e4
    rw [div_lt_iff₀ hp, show (3 / 2 : ℝ) * 2 ^ 262378 = 3 * (1 / 2 * 2 ^ 262378) by ring, half_real]
    rw [← Nat.cast_lt (α := ℝ), Nat.cast_mul, Nat.cast_pow, Nat.cast_ofNat, Nat.cast_ofNat] at this
    exact this

theorem round_spec (x : F256) (hf : IsFin x.pat) :
    ∃ j : ℕ, IsFin (F256.round x).pat ∧ (j ≠ 0 → signBit (F256.round x).pat = signBit x.pat) ∧
      val (F256.round x).pat = (-1) ^ signBit x.pat * (j : ℝ) ∧ HalfUp |val x.pat| j := by
  have hlt := pat_lt x
  have hs1 : signBit x.pat ≤ 1 := by unfold signBit; omega
  have hA := nat_absBits x
  refine int_cases x hf HalfUp HalfUp.of_nat _ ?_ ?_
  · intro h
    unfold F256.round
    dsimp only
    rcases h with h | h
    · rw [if_pos ((not_special_fin hf).mpr h)]
    · rw [if_pos ((no_fract_iff (absBits x)).mpr (by rw [hA]; exact h)), ite_self]
  · intro h0 hPI
    unfold F256.round
    dsimp only
    rw [if_neg (fun hc => h0 ((not_special_fin hf).mp hc)),
      if_neg (fun hc => by have := (no_fract_iff (absBits x)).mp hc; rw [hA] at this; omega)]
    by_cases c1 : (absBits x).hi < F256.ONE_HALF.bits.hi
    · rw [if_pos c1]
      have c1' := (lt_half_iff _).mp c1
      rw [hA] at c1'
      have hw := (abs_lt_half_iff hf).mpr c1'
      refine ⟨0, by decide, by simp, ?_, ?_⟩
      · rw [val_zero (by decide)]; simp
      · have h0 := abs_nonneg (val x.pat)
        rw [HalfUp, Nat.cast_zero, sub_zero, abs_abs]
        exact ⟨hw.le, fun hc => by linarith⟩
    rw [if_neg c1]
    rw [lt_half_iff, hA] at c1
    by_cases c2 : (absBits x).hi ≤ F256.ONE.bits.hi
    · rw [if_pos c2]
      have c2' := (le_one_iff _).mp c2
      rw [hA] at c2'
      obtain ⟨n1, n2⟩ := near_one (not_lt.mp c1) c2'
      rw [mag_abs, ← abs_val_eq] at n1 n2
      obtain ⟨v1, v2, v3⟩ := val_P1 hs1
      rw [pat_one_signed]
      refine ⟨1, v1, fun _ => v2, v3, ?_⟩
      rw [HalfUp, Nat.cast_one]
      refine ⟨abs_le.mpr ⟨by linarith, by linarith⟩, fun hc => ?_⟩
      rcases abs_cases (|val x.pat| - 1) with h | h <;> linarith
    rw [if_neg c2]
    rw [le_one_iff] at c2
    obtain ⟨t, n, M, hn, hn1, hn2, htn, hdec, hM1, hM2, hw⟩ := mid_decode (A := absBits x)
      (by omega) (by rw [hA]; exact hPI)
    rw [hn]
    obtain ⟨ad1, ad2⟩ := asm_div (t := t) (M := M) hn2
    obtain ⟨mb1, mb2⟩ := mid_bounds hn2 hM1 hM2
    have hw' : |val x.pat| = (M : ℝ) / 2 ^ n := by
      rw [abs_val_eq, ← hw, hA, mag_abs]
    have hr : nat256 (UInt.remPow2 (absBits x) n) = M % 2 ^ n := by
      rw [nat_remPow2_256, hdec, ad2]
    have ht : nat256 (UInt.shl UInt.one (n - 1)) = 2 ^ (n - 1) := by
      have h1 : nat256 UInt.one = 1 := by decide
      have h2 : nat256 UInt.one * 2 ^ (n - 1) < 2 ^ 256 := by
        rw [h1, Nat.one_mul]; exact Nat.pow_lt_pow_right (by norm_num) (by omega)
      rw [nat_shl256_of_lt _ (by omega) h2, h1, Nat.one_mul]
    have hcond : (UInt.cmp (UInt.remPow2 (absBits x) n) (UInt.shl UInt.one (n - 1)) != .lt) =
        decide (2 ^ n ≤ 2 * (M % 2 ^ n)) := by
      rw [cmp256, hr, ht]
      have e : 2 ^ n = 2 * 2 ^ (n - 1) := by rw [← pow_succ', Nat.sub_add_cancel hn1]
      rw [Bool.eq_iff_iff, bne_iff_ne, ne_eq, Nat.compare_eq_lt, decide_eq_true_iff, not_lt]
      rw [e]
      omega
    rw [hcond]
    obtain ⟨c, hc⟩ : ∃ c, c = if 2 ^ n ≤ 2 * (M % 2 ^ n) then 1 else 0 := ⟨_, rfl⟩
    have hc1 : c ≤ 1 := by rw [hc]; split <;> norm_num
    obtain ⟨k, hk⟩ := Nat.exists_eq_add_of_le hn2
    have hq : nat256 (UInt.shr (absBits x) n) = t * 2 ^ k + M / 2 ^ n := by
      rw [nat_shr256 _ (by omega), hdec, show t * 2 ^ 236 + M = M + 2 ^ n * (t * 2 ^ k) by
        rw [hk, pow_add]; ring, Nat.add_mul_div_left _ _ (Nat.two_pow_pos n)]
      ring
    have hjb : (M / 2 ^ n + c) * 2 ^ n ≤ 2 ^ 237 :=
      le_trans (Nat.mul_le_mul_right _ (by omega)) mb2
    have hqn : (t * 2 ^ k + (M / 2 ^ n + c)) * 2 ^ n = t * 2 ^ 236 + (M / 2 ^ n + c) * 2 ^ n := by
      rw [hk, pow_add]; ring
    have hqlt : t * 2 ^ k + (M / 2 ^ n + c) < 2 ^ 256 := by
      have : t * 2 ^ k + (M / 2 ^ n + c) ≤ (t * 2 ^ k + (M / 2 ^ n + c)) * 2 ^ n :=
        Nat.le_mul_of_pos_right _ (Nat.two_pow_pos n)
      rw [hqn] at this
      omega
    have hi : nat256 (if decide (2 ^ n ≤ 2 * (M % 2 ^ n)) = true then UInt.incr (UInt.shr (absBits x) n)
        else UInt.shr (absBits x) n) = t * 2 ^ k + (M / 2 ^ n + c) := by
      by_cases h : 2 ^ n ≤ 2 * (M % 2 ^ n)
      · rw [if_pos h] at hc
        rw [if_pos (decide_eq_true h), nat_incr256, hq, hc]
        rw [hc] at hqlt
        rw [Nat.add_assoc, Nat.mod_eq_of_lt hqlt]
      · rw [if_neg h] at hc
        rw [if_neg (by rw [decide_eq_true_iff]; exact h), hq, hc, Nat.add_zero]
    generalize (if decide (2 ^ n ≤ 2 * (M % 2 ^ n)) = true then UInt.incr (UInt.shr (absBits x) n)
        else UInt.shr (absBits x) n) = I at *
    have hZ : nat256 (UInt.shl I n) = t * 2 ^ 236 + (M / 2 ^ n + c) * 2 ^ n := by
      have : nat256 I * 2 ^ n < 2 ^ 256 := by rw [hi, hqn]; omega
      rw [nat_shl256_of_lt _ (by omega) this, hi, hqn]
    obtain ⟨r1, r2, r3, r4⟩ := int_val (s := signBit x.pat) htn hn1 hn2
      (le_trans mb1 (Nat.mul_le_mul_right _ (by omega : M / 2 ^ n ≤ M / 2 ^ n + c))) hjb hs1
    have hpat : F256.pat ⟨U256.new ((UInt.shl I n).hi ||| signBitsHi x) (UInt.shl I n).lo⟩ =
        signBit x.pat * 2 ^ 255 + (t * 2 ^ 236 + (M / 2 ^ n + c) * 2 ^ n) := by
      rw [← hZ]
      exact nat_or_sign (by rw [hZ]; exact r1) (by rw [toNat_signBitsHi, signBit_eq hlt])
    rw [hpat]
    refine ⟨M / 2 ^ n + c, r2, fun _ => r3, r4, ?_⟩
    rw [hw', hc]
    exact HalfUp.of_div M n

theorem roundTieEven_spec (x : F256) (hf : IsFin x.pat)
    (hx : ¬ (PH < x.pat % 2 ^ 255 ∧ x.pat % 2 ^ 255 < PH + 2 ^ 128)) :
    ∃ j : ℕ, IsFin (F256.roundTieEven x).pat ∧
      (j ≠ 0 → signBit (F256.roundTieEven x).pat = signBit x.pat) ∧
      val (F256.roundTieEven x).pat = (-1) ^ signBit x.pat * (j : ℝ) ∧ RNE |val x.pat| j := by
  have hlt := pat_lt x
  have hs1 : signBit x.pat ≤ 1 := by unfold signBit; omega
  have hA := nat_absBits x
  refine int_cases x hf RNE RNE.of_nat _ ?_ ?_
  · intro h
    unfold F256.roundTieEven
    dsimp only
    rcases h with h | h
    · rw [if_pos ((not_special_fin hf).mpr h)]
    · rw [if_pos ((no_fract_iff (absBits x)).mpr (by rw [hA]; exact h)), ite_self]
  · intro h0 hPI
    unfold F256.roundTieEven
    dsimp only
    rw [if_neg (fun hc => h0 ((not_special_fin hf).mp hc)),
      if_neg (fun hc => by have := (no_fract_iff (absBits x)).mp hc; rw [hA] at this; omega)]
    by_cases c1 : (absBits x).hi ≤ F256.ONE_HALF.bits.hi
    · rw [if_pos c1]
      have c1' := (le_half_iff _).mp c1
      rw [hA] at c1'
      have hw : ¬ 1 / 2 < |val x.pat| := by
        rw [abs_gt_half_iff hf]
        exact fun hc => hx ⟨hc, c1'⟩
      refine ⟨0, by decide, by simp, ?_, ?_⟩
      · rw [val_zero (by decide)]; simp
      · rw [RNE, Nat.cast_zero, sub_zero, abs_abs]
        exact ⟨not_lt.mp hw, fun _ => rfl⟩
    rw [if_neg c1]
    rw [le_half_iff, hA] at c1
    by_cases c2 : (absBits x).hi ≤ F256.ONE.bits.hi
    · rw [if_pos c2]
      have c2' := (le_one_iff _).mp c2
      rw [hA] at c2'
      obtain ⟨-, n2⟩ := near_one (a := x.pat % 2 ^ 255) (by omega) c2'
      rw [mag_abs, ← abs_val_eq] at n2
      have n1 := (abs_gt_half_iff hf).mpr (by omega)
      obtain ⟨v1, v2, v3⟩ := val_P1 hs1
      rw [pat_one_signed]
      refine ⟨1, v1, fun _ => v2, v3, ?_⟩
      rw [RNE, Nat.cast_one]
      refine ⟨abs_le.mpr ⟨by linarith, by linarith⟩, fun hc => ?_⟩
      rcases abs_cases (|val x.pat| - 1) with h | h <;> exfalso <;> linarith
    rw [if_neg c2]
    rw [le_one_iff] at c2
    obtain ⟨t, n, M, hn, hn1, hn2, htn, hdec, hM1, hM2, hw⟩ := mid_decode (A := absBits x)
      (by omega) (by rw [hA]; exact hPI)
    rw [hn]
    obtain ⟨mb1, mb2⟩ := mid_bounds hn2 hM1 hM2
    have hw' : |val x.pat| = (M : ℝ) / 2 ^ n := by
      rw [abs_val_eq, ← hw, hA, mag_abs]
    obtain ⟨k, hk⟩ := Nat.exists_eq_add_of_le hn2
    obtain ⟨j, hj⟩ : ∃ j, j = Spec.rne M (2 ^ n) := ⟨_, rfl⟩
    have hjr : M / 2 ^ n ≤ j ∧ j ≤ M / 2 ^ n + 1 := by
      rw [hj, Spec.rne]; split <;> omega
    have heven : t * 2 ^ k % 2 = 0 := by
      rcases Nat.eq_zero_or_pos k with h | h
      · rw [h, pow_zero, Nat.mul_one]; omega
      · rw [show k = k - 1 + 1 by omega, pow_succ, ← mul_assoc, Nat.mul_mod_left]
    have hrd : nat256 (UInt.roundingDivPow2 (absBits x) n) = t * 2 ^ k + j := by
      have := UInt.nat_roundingDivPow2 (absBits x) n (by show n < 256; omega)
      rw [nat256_eq, nat256_eq] at this
      rw [this, hdec, show t * 2 ^ 236 + M = M + 2 ^ n * (t * 2 ^ k) by
        rw [hk, pow_add]; ring, hj, Spec.rne, Spec.rne,
        Nat.add_mul_div_left _ _ (Nat.two_pow_pos n), Nat.add_mul_mod_self_left]
      rw [Nat.add_mod _ (t * 2 ^ k), heven, Nat.add_zero, Nat.mod_mod]
      split <;> ring
    have hjb : j * 2 ^ n ≤ 2 ^ 237 := le_trans (Nat.mul_le_mul_right _ hjr.2) mb2
    have hqn : (t * 2 ^ k + j) * 2 ^ n = t * 2 ^ 236 + j * 2 ^ n := by
      rw [hk, pow_add]; ring
    generalize UInt.roundingDivPow2 (absBits x) n = I at *
    have hZ : nat256 (UInt.shl I n) = t * 2 ^ 236 + j * 2 ^ n := by
      have : nat256 I * 2 ^ n < 2 ^ 256 := by rw [hrd, hqn]; omega
      rw [nat_shl256_of_lt _ (by omega) this, hrd, hqn]
    obtain ⟨r1, r2, r3, r4⟩ := int_val (s := signBit x.pat) htn hn1 hn2
      (le_trans mb1 (Nat.mul_le_mul_right _ hjr.1)) hjb hs1
    have hpat : F256.pat ⟨U256.new ((UInt.shl I n).hi ||| signBitsHi x) (UInt.shl I n).lo⟩ =
        signBit x.pat * 2 ^ 255 + (t * 2 ^ 236 + j * 2 ^ n) := by
      rw [← hZ]
      exact nat_or_sign (by rw [hZ]; exact r1) (by rw [toNat_signBitsHi, signBit_eq hlt])
    rw [hpat]
    refine ⟨j, r2, fun _ => r3, r4, ?_⟩
    rw [hw', hj]
    have := RNE.of_rne M (Nat.two_pow_pos n)
    rw [Nat.cast_pow, Nat.cast_ofNat] at this
    exact this

end Verif
