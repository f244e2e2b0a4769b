import Verif.Props.HalfUlp
import Verif.Props.Accumulate

/-!
# C92: terms that are too small leave a sum unchanged, and counting by one is exact up to 2^237
-/

set_option exponentiation.threshold 2000

namespace Verif.Props

open Verif Spec

theorem below_gap {t M t' M' : ℕ} (h1 : t = 0 ∨ 2 ^ 236 ≤ M) (h2 : M' < 2 ^ 237) (h : M' * 2 ^ t' < M * 2 ^ t) :
    2 * (M' * 2 ^ t') + 2 ^ t ≤ 2 * (M * 2 ^ t) := by
  rcases le_or_gt t t' with ht | ht
  · obtain ⟨k, rfl⟩ := Nat.exists_eq_add_of_le ht
    have e : M' * 2 ^ (t + k) = M' * 2 ^ k * 2 ^ t := by rw [pow_add]; ring
    rw [e] at h ⊢
    have h3 := Nat.lt_of_mul_lt_mul_right h
    have h4 := Nat.mul_le_mul_right (2 ^ t) (Nat.succ_le_of_lt h3)
    rw [Nat.succ_mul] at h4
    generalize M' * 2 ^ k * 2 ^ t = A at h4 ⊢
    generalize M * 2 ^ t = B at h4 ⊢
    have : 0 ≤ 2 ^ t := Nat.zero_le _
    linarith
  · obtain ⟨k, rfl⟩ := Nat.exists_eq_add_of_lt ht
    have hM : 2 ^ 236 ≤ M := by omega
    have e : 2 ^ (t' + k + 1) = 2 * 2 ^ k * 2 ^ t' := by rw [pow_succ, pow_add]; ring
    rw [e]
    have hP : 1 ≤ 2 ^ k := Nat.one_le_two_pow
    generalize 2 ^ k = P at hP ⊢
    have h5 : M' + P ≤ 2 * (M * P) := by
      have h6 := Nat.mul_le_mul_right P hM
      have h7 : M' + P ≤ 2 ^ 237 * P := by
        have : M' + 1 ≤ 2 ^ 237 := h2
        nlinarith
      have h8 : 2 ^ 237 * P = 2 * (2 ^ 236 * P) := by ring
      omega
    have h9 := Nat.mul_le_mul_right (2 * 2 ^ t') h5
    generalize 2 ^ t' = T at h9 ⊢
    nlinarith

theorem gap_below {x z : F256} (hx : IsFin x.pat) (hz : IsFin z.pat) (h : |val z.pat| < |val x.pat|) :
    |val z.pat| + val (F256.ulp x).pat / 2 ≤ |val x.pat| := by
  have hK : (0 : ℝ) < 2 ^ 262378 := pow_pos (by norm_num) _
  obtain ⟨t, M, c1, c2, c3, c4, c5, -⟩ := fin_asm hx
  obtain ⟨t', M', d1, d2, d3, d4, d5, -⟩ := fin_asm hz
  have he : expField x.pat - 1 = t := by
    have : expField x.pat = x.pat % 2 ^ 255 / 2 ^ 236 := by rw [expField]; omega
    omega
  rw [abs_val_eq, abs_val_eq, div_lt_div_iff_of_pos_right hK, Nat.cast_lt, c5, d5] at h
  have h3 := below_gap c1 d2 h
  rw [(C27_ulp x hx).2.1, quantumExp_eq, zpow_units, he, abs_val_eq, abs_val_eq, c5, d5]
  have h4 : (2 : ℝ) * ((M' * 2 ^ t' : ℕ) : ℝ) + 2 ^ t ≤ 2 * ((M * 2 ^ t : ℕ) : ℝ) := by exact_mod_cast h3
  rw [div_right_comm, ← add_div, div_le_div_iff_of_pos_right hK]
  linarith

theorem ulp_le_abs {x : F256} (hx : IsFin x.pat) (h0 : ¬IsZero x.pat) : val (F256.ulp x).pat ≤ |val x.pat| := by
  have hK : (0 : ℝ) < 2 ^ 262378 := pow_pos (by norm_num) _
  obtain ⟨t, M, c1, c2, c3, c4, c5, -⟩ := fin_asm hx
  have he : expField x.pat - 1 = t := by
    have : expField x.pat = x.pat % 2 ^ 255 / 2 ^ 236 := by rw [expField]; omega
    omega
  have hv : val x.pat ≠ 0 := fun h => h0 ((val_eq_zero_iff hx).mp h)
  rw [(C27_ulp x hx).2.1, quantumExp_eq, zpow_units, he, abs_val_eq, c5, div_le_div_iff_of_pos_right hK]
  have hM : M ≠ 0 := by
    rintro rfl
    apply hv
    rw [val_eq, c5, Nat.zero_mul, Nat.cast_zero, zero_div, mul_zero]
  have : 2 ^ t ≤ M * 2 ^ t := Nat.le_mul_of_pos_left _ (Nat.pos_of_ne_zero hM)
  exact_mod_cast this

theorem threshold_units : overflowThreshold = (2 ^ 238 - 1) / 2 * 2 ^ 261907 := by
  unfold overflowThreshold
  have e : (2 : ℝ) ^ (262143 : ℤ) = 2 ^ 236 * 2 ^ 261907 := by
    rw [← pow_add]
    exact zpow_natCast 2 262143
  rw [e, ← mul_assoc]
  congr 1
  norm_num

theorem half_ulp_threshold {x : F256} (hx : IsFin x.pat) : |val x.pat| + val (F256.ulp x).pat / 2 ≤ overflowThreshold := by
  have hK : (0 : ℝ) < 2 ^ 262378 := pow_pos (by norm_num) _
  obtain ⟨t, M, c1, c2, c3, c4, c5, -⟩ := fin_asm hx
  have he : expField x.pat - 1 = t := by
    have : expField x.pat = x.pat % 2 ^ 255 / 2 ^ 236 := by rw [expField]; omega
    omega
  rw [(C27_ulp x hx).2.1, quantumExp_eq, zpow_units, he, abs_val_eq, c5, threshold_units, div_right_comm, ← add_div, div_le_iff₀ hK, mul_assoc,
    ← pow_add, Nat.cast_mul, Nat.cast_pow, Nat.cast_ofNat]
  have h1 : (2 : ℝ) ^ t ≤ 2 ^ (261907 + 262378) := pow_le_pow_right₀ (by norm_num) c4
  have h2 : (M : ℝ) + 1 ≤ 2 ^ 237 := by exact_mod_cast Nat.succ_le_of_lt c2
  have h0 : (0 : ℝ) ≤ 2 ^ t := pow_nonneg (by norm_num) _
  generalize (2 : ℝ) ^ (261907 + 262378) = D at h1 ⊢
  generalize (2 : ℝ) ^ t = T at h0 h1 ⊢
  have h3 : ((M : ℝ) + 1 / 2) * T ≤ (2 ^ 237 - 1 / 2) * T := mul_le_mul_of_nonneg_right (by linarith) h0
  have h4 : ((2 : ℝ) ^ 237 - 1 / 2) * T ≤ (2 ^ 237 - 1 / 2) * D := mul_le_mul_of_nonneg_left h1 (by norm_num)
  have h5 : (((2 : ℝ) ^ 238 - 1) / 2) = 2 ^ 237 - 1 / 2 := by norm_num
  rw [h5]
  linarith

theorem eq_of_near {x z : F256} (hx : IsFin x.pat) (h0 : ¬IsZero x.pat) (hz : IsFin z.pat)
    (h : |val z.pat - val x.pat| < val (F256.ulp x).pat / 2) : z = x := by
  have hp := (C27_ulp x hx).2.2
  have h1 := abs_abs_sub_abs_le (val z.pat) (val x.pat)
  have h2 := abs_le.mp h1
  have h3 := ulp_le_abs hx h0
  have e : |val z.pat| = |val x.pat| := by
    rcases lt_trichotomy |val z.pat| |val x.pat| with c | c | c
    · have := gap_below hx hz c
      linarith
    · exact c
    · have := C27_gap x z hx hz c
      linarith
  rcases abs_eq_abs.mp e with c | c
  · have hr := isRNE_self (pat_lt z) hz
    rw [c] at hr
    exact pat_inj (_root_.Verif.IsRNE.unique hr (isRNE_self (pat_lt x) hx) (fun h => h0 ((val_eq_zero_iff hx).mp h)))
  · rw [c, ← neg_add', abs_neg, ← two_mul, abs_mul, abs_two] at h
    linarith

/-- C92: adding a number smaller than a quarter of `ulp()` of a number leaves that number unchanged. -/
theorem C92_absorb (x y : F256) (hx : IsFin x.pat) (h0 : ¬IsZero x.pat) (hy : IsFin y.pat)
    (h : |val y.pat| < val (F256.ulp x).pat / 4) : F256.add x y = some x := by
  obtain ⟨z, h1, h2⟩ := C01_add x y hx hy
  rw [h1]
  congr 1
  have hp := (C27_ulp x hx).2.2
  have ht : |val x.pat + val y.pat| < overflowThreshold := by
    have h3 := half_ulp_threshold hx
    have h4 := abs_add_le (val x.pat) (val y.pat)
    linarith
  have hz := h2.fin ht
  have hn := h2.nearest ht x.pat (pat_lt x) hx
  rw [sub_add_cancel_left, abs_neg] at hn
  refine eq_of_near hx h0 hz ?_
  have h3 := abs_add_le (val z.pat - (val x.pat + val y.pat)) (val y.pat)
  rw [show val z.pat - (val x.pat + val y.pat) + val y.pat = val z.pat - val x.pat by ring] at h3
  linarith

/-- C92: adding any number of such terms one after the other leaves the number unchanged, although their exact sum may be larger than the
number. -/
theorem C92_stagnation (x : F256) (ys : List F256) (hx : IsFin x.pat) (h0 : ¬IsZero x.pat)
    (h : ∀ y ∈ ys, IsFin y.pat ∧ |val y.pat| < val (F256.ulp x).pat / 4) : runningSum x ys = some x := by
  induction ys with
  | nil => rfl
  | cons y ys ih =>
    obtain ⟨h1, h2⟩ := h y List.mem_cons_self
    rw [runningSum_cons, C92_absorb x y hx h0 h1 h2]
    exact ih fun w hw => h w (List.mem_cons_of_mem _ hw)

/-- The number 2^237 -/
def top : F256 := ⟨U256.new 0x400ec000000000000000000000000000#128 0#128⟩

theorem top_stays : F256.add top F256.ONE = some top := by decide +kernel

theorem val_top : val top.pat = 2 ^ 237 := by
  have h : quantumExp top.pat = 1 ∧ significandOf top.pat = 2 ^ 236 ∧ signBit top.pat = 0 := by decide +kernel
  rw [val, h.1, h.2.1, h.2.2]
  norm_num

/-- C92: counting by adding one `n` times to zero gives `n`, until 2^237 is reached; from there on the counter stands still. -/
theorem C92_count (n : ℕ) : ∃ z, runningSum F256.ZERO (List.replicate n F256.ONE) = some z ∧ IsFin z.pat ∧
    val z.pat = (min n (2 ^ 237) : ℕ) := by
  induction n with
  | zero => exact ⟨F256.ZERO, rfl, by decide, by rw [val_zero (by decide)]; simp⟩
  | succ n ih =>
    obtain ⟨z, h1, h2, h3⟩ := ih
    have e : runningSum F256.ZERO (List.replicate (n + 1) F256.ONE) = F256.add z F256.ONE := by
      rw [List.replicate_succ', runningSum, List.foldlM_append, ← runningSum, h1]
      change (F256.add z F256.ONE).bind some = _
      cases F256.add z F256.ONE <;> rfl
    rw [e]
    rcases le_or_gt (2 ^ 237) n with hn | hn
    · rw [min_eq_right hn, Nat.cast_pow, Nat.cast_ofNat] at h3
      rw [min_eq_right (by omega), Nat.cast_pow, Nat.cast_ofNat]
      have hr := isRNE_self (pat_lt z) h2
      have ht := isRNE_self (pat_lt top) (by decide)
      rw [val_top, ← h3] at ht
      have hzt : z = top := pat_inj (_root_.Verif.IsRNE.unique hr ht (by rw [h3]; norm_num))
      exact ⟨top, by rw [hzt]; exact top_stays, by decide, val_top⟩
    · rw [min_eq_left hn.le] at h3
      rw [min_eq_left (by omega)]
      obtain ⟨w, w1, w2, w3⟩ := (C75_int z F256.ONE n 1 h2 (by decide) (by rw [h3]; simp) (by rw [val_ONE]; simp)).1
        (by rw [abs_of_nonneg (by omega)]; omega)
      exact ⟨w, w1, w2, by rw [w3]; push_cast; ring⟩

/-- Numbers that meet the conditions: one is less than a quarter of `ulp()` of 2^239. -/
example : ∃ x : F256, IsFin x.pat ∧ ¬IsZero x.pat ∧ |val F256.ONE.pat| < val (F256.ulp x).pat / 4 := by
  let x : F256 := ⟨U256.new 0x400ee000000000000000000000000000#128 0#128⟩
  have hx : IsFin x.pat ∧ ¬IsZero x.pat ∧ quantumExp x.pat = 3 := by decide +kernel
  refine ⟨x, hx.1, hx.2.1, ?_⟩
  rw [(C27_ulp x hx.1).2.1, hx.2.2, val_ONE, abs_one]
  norm_num

end Verif.Props
