import Verif.Proofs.TrigApprox
import Verif.Proofs.UlpErr

/-!
# From a reduced argument to the rounded sine and cosine
-/

set_option exponentiation.threshold 2000

namespace Verif.Trig

open FP492 Spec

/-- What the reduction of an argument `x` yields: the quadrant `q` and a fixed point number close to the exact remainder. -/
def Reduced (x : ℝ) (q : ℕ) (Y : FP492) : Prop :=
  ∃ (k : ℤ) (y : ℝ), x = k * (Real.pi / 2) + y ∧ k % 4 = q ∧ |(sval Y : ℝ) / 2 ^ 492| ≤ 4 / 5 ∧ sval Y ≠ 0 ∧
    ((sval Y : ℝ) / 2 ^ 492 = y ∨ (1 / 2 ^ 253 ≤ |(sval Y : ℝ) / 2 ^ 492| ∧
      |(sval Y : ℝ) / 2 ^ 492 - y| ≤ 3 / 2 ^ 492 + |(sval Y : ℝ) / 2 ^ 492| / 2 ^ 245))

/-- The claim about a result: finite and off by at most 1.01 units in the last place -/
def Good (v : ℝ) (r : F256) : Prop := IsFin r.pat ∧ |val r.pat - v| ≤ 101 / 100 * (2 : ℝ) ^ quantumExp r.pat

theorem lt_thr {q : ℝ} (h : |q| ≤ 2) : |q| < overflowThreshold := by
  unfold overflowThreshold
  have h2 : (2 : ℝ) ^ (2 : ℤ) ≤ 2 ^ (262143 : ℤ) := zpow_le_zpow_right₀ (by norm_num) (by norm_num)
  have h5 : (2 : ℝ) ^ (2 : ℤ) = 4 := by norm_num
  have h6 : (1 : ℝ) ≤ 2 - (2 : ℝ) ^ (-237 : ℤ) := by
    have : (2 : ℝ) ^ (-237 : ℤ) ≤ 2 ^ (0 : ℤ) := zpow_le_zpow_right₀ (by norm_num) (by norm_num)
    rw [zpow_zero] at this
    linarith
  rw [h5] at h2
  have h7 := mul_le_mul h6 h2 (by norm_num) (by linarith)
  exact lt_of_le_of_lt h (lt_of_lt_of_le (by norm_num) h7)

theorem good_of {z : FP492} {v : ℝ} (h0 : sval z ≠ 0) (h1 : |(sval z : ℝ) / 2 ^ 492| ≤ 2)
    (hv : ∀ (e : ℤ) (t : ℝ), t = 2 ^ e → t ≤ |(sval z : ℝ) / 2 ^ 492| → |(sval z : ℝ) / 2 ^ 492| < 2 * t →
      |(sval z : ℝ) / 2 ^ 492 - v| ≤ 51 / 100 * (t / 2 ^ 236)) : Good v (toF256 z) := by
  have hr := toF256_spec z
  have hlt := lt_thr h1
  generalize hX : (sval z : ℝ) / 2 ^ 492 = X at *
  have hX0 : X ≠ 0 := by
    rw [← hX]
    exact div_ne_zero (by exact_mod_cast h0) (by positivity)
  refine ⟨hr.fin hlt, ?_⟩
  obtain ⟨e, e1, e2⟩ := exists_mem_Ico_zpow (abs_pos.mpr hX0) (by norm_num : (1 : ℝ) < 2)
  rw [zpow_add_one₀ (by norm_num), mul_comm] at e2
  have h3 := hv e _ rfl e1 e2
  have h4 : (2 : ℝ) ^ e / 2 ^ 236 = 2 ^ (e - 236) := by
    rw [zpow_sub₀ (by norm_num)]; norm_num
  rw [h4] at h3
  refine (hr.ulp_error hlt e1 (by norm_num) h3).trans (le_of_eq ?_)
  norm_num

/-- A power of two below another one -/
theorem pow_step {e : ℤ} {t : ℝ} (ht : t = 2 ^ e) {n : ℤ} (h : t < 2 ^ n) : t ≤ 2 ^ (n - 1) := by
  rw [ht] at h ⊢
  have := (zpow_lt_zpow_iff_right₀ (by norm_num : (1 : ℝ) < 2)).mp h
  exact zpow_le_zpow_right₀ (by norm_num) (by omega)

theorem sub_sin_le (x : ℝ) : |x - Real.sin x| ≤ |x| ^ 3 / 6 := by
  rcases lt_trichotomy x 0 with h | h | h
  · have h1 := Real.sin_gt_sub_cube (x := -x) (by linarith)
    have h2 := Real.sin_lt (x := -x) (by linarith)
    rw [Real.sin_neg] at h1 h2
    rw [abs_of_neg h, abs_of_nonpos (by linarith)]
    linarith
  · rw [h]; simp
  · have h1 := Real.sin_gt_sub_cube h
    have h2 := Real.sin_lt h
    rw [abs_of_pos h, abs_of_nonneg (by linarith)]
    linarith

/-- The cubic error of taking the argument for the sine, below the cut-off -/
theorem cubic {X t : ℝ} {e : ℤ} (ht : t = 2 ^ e) (h1 : t ≤ |X|) (h2 : |X| < 2 * t) (hX : |X| < 1 / 2 ^ 117)
    (hc : 1000 * |X| ^ 3 ≤ 3006 * (1 / 2 ^ 354)) :
    |X| ^ 3 / 6 ≤ 501 / 1000 * (t / 2 ^ 236) ∧ (t < 1 / 2 ^ 240 → |X| ^ 3 / 6 ≤ 1 / 1000 * (t / 2 ^ 236)) := by
  have ht0 : 0 < t := by rw [ht]; positivity
  have h3 : |X| ^ 3 ≤ (2 * t) ^ 3 := pow_le_pow_left₀ (abs_nonneg _) h2.le 3
  have h4 : (2 * t) ^ 3 = 8 * t ^ 2 * t := by ring
  rw [h4] at h3
  constructor
  · by_cases h5 : t < 1 / 2 ^ 118
    · have h6 : t ≤ 1 / 2 ^ 119 := by
        have := pow_step ht (n := -118) (by rw [zpow_neg, ← one_div]; exact_mod_cast h5)
        refine this.trans (le_of_eq ?_)
        norm_num
      have h7 : t ^ 2 ≤ (1 / 2 ^ 119) ^ 2 := pow_le_pow_left₀ ht0.le h6 2
      have h8 := mul_le_mul_of_nonneg_right h7 ht0.le
      have h9 : 8 * ((1 / (2 : ℝ) ^ 119) ^ 2 * t) / 6 ≤ 501 / 1000 * (t / 2 ^ 236) := by
        have : (0 : ℝ) ≤ t / 2 ^ 236 := by positivity
        have e : 8 * ((1 / (2 : ℝ) ^ 119) ^ 2 * t) / 6 = 1 / 3 * (t / 2 ^ 236) := by
          field_simp; norm_num
        rw [e]; linarith
      linarith
    · push Not at h5
      have : (1 : ℝ) / 2 ^ 354 ≤ t / 2 ^ 236 := by
        rw [le_div_iff₀ (by positivity)]
        refine le_trans (le_of_eq ?_) h5
        norm_num
      linarith
  · intro h5
    have h7 : t ^ 2 ≤ (1 / 2 ^ 240) ^ 2 := pow_le_pow_left₀ ht0.le h5.le 2
    have h8 := mul_le_mul_of_nonneg_right h7 ht0.le
    have h9 : 8 * ((1 / (2 : ℝ) ^ 240) ^ 2 * t) / 6 ≤ 1 / 1000 * (t / 2 ^ 236) := by
      have e : 8 * ((1 / (2 : ℝ) ^ 240) ^ 2 * t) / 6 = 8 / 6 / 2 ^ 244 * (t / 2 ^ 236) := by
        field_simp
      rw [e]
      exact mul_le_mul_of_nonneg_right (by norm_num) (by positivity)
    linarith

/-- The error of the reduction in relation to the size of the argument -/
theorem red_error' {X y t : ℝ} (ht0 : 0 < t) (hX : |X| < 5 / 2 * t)
    (h : |X - y| ≤ 3 / 2 ^ 492 + |X| / 2 ^ 245) :
    |X - y| ≤ 3 / 2 ^ 492 + 1 / 200 * (t / 2 ^ 236) := by
  have h0 : 0 ≤ t / 2 ^ 236 := by positivity
  have h1 : |X| / 2 ^ 245 ≤ 1 / 200 * (t / 2 ^ 236) := by
    have h2 : |X| / 2 ^ 245 ≤ (5 / 2 * t) / 2 ^ 245 := by gcongr
    have e : (5 / 2 * t) / 2 ^ 245 = 5 / 1024 * (t / 2 ^ 236) := by field_simp; norm_num
    rw [e] at h2
    linarith
  linarith

theorem red_weaken {X y : ℝ} (h : X = y ∨ (1 / 2 ^ 253 ≤ |X| ∧ |X - y| ≤ 3 / 2 ^ 492 + |X| / 2 ^ 245)) :
    |X - y| ≤ 3 / 2 ^ 492 + |X| / 2 ^ 245 := by
  rcases h with h | ⟨-, h⟩
  · rw [h, sub_self, abs_zero]
    positivity
  · exact h

theorem red_error {X y t : ℝ} (ht0 : 0 < t) (hX : |X| < 5 / 2 * t)
    (h : X = y ∨ (1 / 2 ^ 253 ≤ |X| ∧ |X - y| ≤ 3 / 2 ^ 492 + |X| / 2 ^ 245)) :
    |X - y| ≤ 3 / 2 ^ 492 + 1 / 200 * (t / 2 ^ 236) := red_error' ht0 hX (red_weaken h)

theorem three_small {t n c : ℝ} (h : n ≤ t) (hn : 3 / 2 ^ 492 ≤ c * (n / 2 ^ 236)) (hc : 0 ≤ c) :
    3 / 2 ^ 492 ≤ c * (t / 2 ^ 236) := by
  refine hn.trans (mul_le_mul_of_nonneg_left ?_ hc)
  gcongr

theorem sin_good {Y : FP492} {y : ℝ} (h1 : |(sval Y : ℝ) / 2 ^ 492| ≤ 4 / 5) (h0 : sval Y ≠ 0)
    (h : (sval Y : ℝ) / 2 ^ 492 = y ∨ (1 / 2 ^ 253 ≤ |(sval Y : ℝ) / 2 ^ 492| ∧
      |(sval Y : ℝ) / 2 ^ 492 - y| ≤ 3 / 2 ^ 492 + |(sval Y : ℝ) / 2 ^ 492| / 2 ^ 245)) :
    Good (Real.sin y) (toF256 (approxSin Y)) := by
  have hn := natAbs_of_le h1
  obtain ⟨c1, c2, c3, c4⟩ := sin_cut
  by_cases hb : FP492.le (iabs Y) SIN_SMALL_CUT_OFF = true
  · rw [approxSin, if_pos hb]
    rw [le_iff, sval_iabs hn, c1] at hb
    have hb1 : |(sval Y : ℝ)| ≤ (UInt.nat SIN_SMALL_CUT_OFF : ℕ) := by exact_mod_cast hb
    have hX : |(sval Y : ℝ) / 2 ^ 492| < 1 / 2 ^ 117 := by
      rw [abs_div, abs_of_pos (by positivity : (0 : ℝ) < 2 ^ 492), div_lt_div_iff₀ (by positivity) (by positivity)]
      have c5 : (UInt.nat SIN_SMALL_CUT_OFF : ℝ) < 2 ^ 375 := by exact_mod_cast c3
      have : |(sval Y : ℝ)| < 2 ^ 375 := hb1.trans_lt c5
      calc |(sval Y : ℝ)| * 2 ^ 117 < 2 ^ 375 * 2 ^ 117 := mul_lt_mul_of_pos_right this (by positivity)
        _ = 1 * 2 ^ 492 := by norm_num
    have hc : 1000 * |(sval Y : ℝ) / 2 ^ 492| ^ 3 ≤ 3006 * (1 / 2 ^ 354) := by
      have c5 : 1000 * (UInt.nat SIN_SMALL_CUT_OFF : ℝ) ^ 3 ≤ 3006 * 2 ^ 1122 := by exact_mod_cast c4
      have c6 : |(sval Y : ℝ)| ^ 3 ≤ (UInt.nat SIN_SMALL_CUT_OFF : ℝ) ^ 3 := pow_le_pow_left₀ (abs_nonneg _) hb1 3
      rw [abs_div, abs_of_pos (by positivity : (0 : ℝ) < 2 ^ 492), div_pow, mul_div_assoc', div_le_iff₀ (by positivity)]
      calc 1000 * |(sval Y : ℝ)| ^ 3 ≤ 3006 * 2 ^ 1122 := by linarith
        _ ≤ _ := by norm_num
    refine good_of h0 (h1.trans (by norm_num)) fun e t ht t1 t2 => ?_
    generalize (sval Y : ℝ) / 2 ^ 492 = X at *
    have ht0 : 0 < t := by rw [ht]; positivity
    have hp : 0 < t / 2 ^ 236 := by positivity
    obtain ⟨q1, q2⟩ := cubic ht t1 t2 hX hc
    have q3 := sub_sin_le X
    have q5 := Real.abs_sin_sub_sin_le X y
    have q6 := abs_add_le (X - Real.sin X) (Real.sin X - Real.sin y)
    rw [sub_add_sub_cancel] at q6
    rcases h with h | h
    · rw [h, sub_self, abs_zero] at q5
      rw [h] at q6 q3 q1
      rw [h]
      linarith
    · have q4 := red_error ht0 (by linarith) (Or.inr h)
      by_cases hs : t < 1 / 2 ^ 240
      · have q7 := q2 hs
        have q8 : 3 / 2 ^ 492 ≤ 2 / 5 * (t / 2 ^ 236) := by
          have : 1 / 2 ^ 253 ≤ t := by
            by_contra hcon
            push Not at hcon
            have := pow_step ht (n := -253) (by rw [zpow_neg, ← one_div]; exact_mod_cast hcon)
            have e2 : (2 : ℝ) ^ (-253 - 1 : ℤ) = 1 / 2 ^ 254 := by norm_num
            rw [e2] at this
            have e3 : (2 : ℝ) * (1 / 2 ^ 254) = 1 / 2 ^ 253 := by norm_num
            linarith [h.1]
          exact three_small this (by norm_num) (by norm_num)
        linarith
      · push Not at hs
        have q8 : 3 / 2 ^ 492 ≤ 1 / 1000 * (t / 2 ^ 236) := three_small hs (by norm_num) (by norm_num)
        linarith
  · rw [Bool.not_eq_true] at hb
    have hc : (2 : ℝ) ^ 374 < |(sval Y : ℝ)| := by
      have : ¬ FP492.le (iabs Y) SIN_SMALL_CUT_OFF = true := by rw [hb]; decide
      rw [le_iff, sval_iabs hn, c1] at this
      push Not at this
      have h2 : (2 : ℤ) ^ 374 < |sval Y| := lt_trans (by exact_mod_cast c2) this
      exact_mod_cast h2
    have hl := approxSin_large h1 hc hb
    have hX : 1 / 2 ^ 118 < |(sval Y : ℝ) / 2 ^ 492| := by
      rw [abs_div, abs_of_pos (by positivity : (0 : ℝ) < 2 ^ 492), div_lt_div_iff₀ (by positivity) (by positivity)]
      calc 1 * (2 : ℝ) ^ 492 = 2 ^ 374 * 2 ^ 118 := by norm_num
        _ < _ := mul_lt_mul_of_pos_right hc (by positivity)
    have hlow : 4 / 5 * |(sval Y : ℝ) / 2 ^ 492| ≤ |(sval (approxSin Y) : ℝ) / 2 ^ 492| ∧
        |(sval (approxSin Y) : ℝ) / 2 ^ 492| ≤ 2 := by
      generalize (sval Y : ℝ) / 2 ^ 492 = X at *
      generalize (sval (approxSin Y) : ℝ) / 2 ^ 492 = S at *
      have q3 := sub_sin_le X
      have q4 : |X| ^ 3 ≤ 16 / 25 * |X| := by
        have : |X| ^ 2 ≤ (4 / 5) ^ 2 := pow_le_pow_left₀ (abs_nonneg _) h1 2
        have := mul_le_mul_of_nonneg_right this (abs_nonneg X)
        calc |X| ^ 3 = |X| ^ 2 * |X| := by ring
          _ ≤ _ := by norm_num at this ⊢; linarith
      have q5 := abs_sub_abs_le_abs_sub X (Real.sin X)
      have q6 := abs_sub_abs_le_abs_sub (Real.sin X) S
      have q8 := abs_sub_abs_le_abs_sub S (Real.sin X)
      rw [abs_sub_comm] at q6
      have q7 : |X| / 2 ^ 270 ≤ 1 / 1000 * |X| := by
        rw [div_eq_mul_inv, mul_comm]
        exact mul_le_mul_of_nonneg_right (by norm_num) (abs_nonneg _)
      have q9 := Real.abs_sin_le_one X
      constructor <;> linarith [abs_nonneg X]
    obtain ⟨hlow1, hlow2⟩ := hlow
    have hpos : 0 < |(sval Y : ℝ) / 2 ^ 492| := lt_trans (by positivity) hX
    have hS0 : sval (approxSin Y) ≠ 0 := by
      intro hz
      rw [hz, Int.cast_zero, zero_div, abs_zero] at hlow1
      linarith
    refine good_of hS0 hlow2 fun e t ht t1 t2 => ?_
    generalize (sval Y : ℝ) / 2 ^ 492 = X at *
    generalize (sval (approxSin Y) : ℝ) / 2 ^ 492 = S at *
    have ht0 : 0 < t := by rw [ht]; positivity
    have hXt : |X| < 5 / 2 * t := by linarith
    have q4 := red_error ht0 hXt h
    have q5 := Real.abs_sin_sub_sin_le X y
    have q6 := abs_add_le (S - Real.sin X) (Real.sin X - Real.sin y)
    rw [sub_add_sub_cancel] at q6
    have q8 : 3 / 2 ^ 492 ≤ 1 / 1000 * (t / 2 ^ 236) :=
      three_small (n := 1 / 2 ^ 120) (by norm_num at hX ⊢; linarith) (by norm_num) (by norm_num)
    have q9 : |X| / 2 ^ 270 ≤ 1 / 1000 * (t / 2 ^ 236) := by
      have h2 : |X| / 2 ^ 270 ≤ (5 / 2 * t) / 2 ^ 270 := by gcongr
      have e : (5 / 2 * t) / 2 ^ 270 = 5 / 2 ^ 35 * (t / 2 ^ 236) := by field_simp
      rw [e] at h2
      refine h2.trans (mul_le_mul_of_nonneg_right (by norm_num) (by positivity))
    have hp : 0 < t / 2 ^ 236 := by positivity
    linarith

theorem cos_good {Y : FP492} {y : ℝ} (h1 : |(sval Y : ℝ) / 2 ^ 492| ≤ 4 / 5)
    (h : |(sval Y : ℝ) / 2 ^ 492 - y| ≤ 3 / 2 ^ 492 + |(sval Y : ℝ) / 2 ^ 492| / 2 ^ 245) :
    Good (Real.cos y) (toF256 (approxCos Y)) := by
  have hl := approxCos_spec h1
  have hlow : 3 / 5 ≤ |(sval (approxCos Y) : ℝ) / 2 ^ 492| ∧ |(sval (approxCos Y) : ℝ) / 2 ^ 492| ≤ 2 := by
    generalize (sval Y : ℝ) / 2 ^ 492 = X at *
    generalize (sval (approxCos Y) : ℝ) / 2 ^ 492 = S at *
    have q1 := Real.one_sub_sq_div_two_le_cos (x := X)
    have q2 : X ^ 2 ≤ 16 / 25 := by
      rw [← sq_abs]
      have := pow_le_pow_left₀ (abs_nonneg _) h1 2
      linarith
    have q3 := Real.cos_le_one X
    have q4 : (1 : ℝ) / 2 ^ 238 ≤ 1 / 100 := by norm_num
    rw [abs_le] at hl
    have q5 := le_abs_self S
    constructor
    · linarith
    · rw [abs_le]; constructor <;> linarith
  obtain ⟨hlow1, hlow2⟩ := hlow
  have hS0 : sval (approxCos Y) ≠ 0 := by
    intro hz
    rw [hz, Int.cast_zero, zero_div, abs_zero] at hlow1
    linarith
  refine good_of hS0 hlow2 fun e t ht t1 t2 => ?_
  generalize (sval Y : ℝ) / 2 ^ 492 = X at *
  generalize (sval (approxCos Y) : ℝ) / 2 ^ 492 = S at *
  have ht0 : 1 / 2 ≤ t := by
    by_contra hcon
    push Not at hcon
    have := pow_step ht (n := -1) (by norm_num at hcon ⊢; exact hcon)
    norm_num at this
    linarith
  have q4 := red_error' (by linarith) (by linarith : |X| < 5 / 2 * t) h
  have q5 := Real.abs_cos_sub_cos_le X y
  have q6 := abs_add_le (S - Real.cos X) (Real.cos X - Real.cos y)
  rw [sub_add_sub_cancel] at q6
  have q8 : 3 / 2 ^ 492 ≤ 1 / 1000 * (t / 2 ^ 236) := three_small ht0 (by norm_num) (by norm_num)
  have q9 : (1 : ℝ) / 2 ^ 238 ≤ 1 / 2 * (t / 2 ^ 236) := by
    have : 1 / 2 * ((1 / 2 : ℝ) / 2 ^ 236) ≤ 1 / 2 * (t / 2 ^ 236) := by gcongr
    refine le_trans (by norm_num) this
  linarith

end Verif.Trig
