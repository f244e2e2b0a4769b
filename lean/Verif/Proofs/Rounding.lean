import Verif.Spec.Float
import Verif.Spec.Rne
import Mathlib.Tactic.Ring
import Mathlib.Tactic.Linarith
import Mathlib.Tactic.FieldSimp
import Mathlib.Tactic.Positivity
import Mathlib.Tactic.NormNum
import Mathlib.Tactic.Push

/-!
# From "rounded significand" to correct rounding

`RoundsTo v N` says how an operation of the code assembles its result: the exact magnitude
`v` (in units of the smallest positive number `2^-262378`) is divided by the weight `2^t` of
the last place of its binade, rounded to the nearest integer `M`, and the pattern is
`t * 2^236 + M` (infinity if that is too large). `RoundsTo.isRNE` shows that this is the
correctly rounded result in the sense of the specification.
-/

namespace Verif

open Spec

/-- Magnitude of a finite pattern in units of `2^-262378`. -/
def mag (N : ℕ) : ℕ := significandOf N * 2 ^ (expField N - 1)

/-- bit pattern of +infinity -/
def INF : ℕ := 524287 * 2 ^ 236

theorem expField_abs (N : ℕ) : expField (N % 2 ^ 255) = expField N := by
  simp only [expField]; omega

theorem fracField_abs (N : ℕ) : fracField (N % 2 ^ 255) = fracField N := by
  simp only [fracField]; omega

theorem mag_abs (N : ℕ) : mag (N % 2 ^ 255) = mag N := by
  simp only [mag, significandOf, expField_abs, fracField_abs]

theorem val_eq (N : ℕ) : val N = (-1) ^ signBit N * (mag N / 2 ^ 262378 : ℝ) := by
  rw [val, mag, mul_assoc]
  congr 1
  push_cast
  rw [mul_div_assoc]
  congr 1
  rw [quantumExp]
  split
  · rename_i h
    simp only [h, Nat.zero_sub, pow_zero]
    rw [show (1 - 262143 - 236 : ℤ) = -((262378 : ℕ) : ℤ) by norm_num, zpow_neg, zpow_natCast]
    exact (one_div _).symm
  · rename_i h
    rw [show ((expField N : ℤ) - 262143 - 236 : ℤ) = ((expField N - 1 : ℕ) : ℤ) - (262378 : ℕ) by
      push_cast [Nat.one_le_iff_ne_zero.mpr h]; ring]
    rw [zpow_sub₀ (by norm_num), zpow_natCast, zpow_natCast]

/-- The magnitude of an assembled pattern. -/
theorem mag_asm {t M : ℕ} (h0 : t = 0 ∨ 2 ^ 236 ≤ M) (hM : M ≤ 2 ^ 237)
    (hN : t * 2 ^ 236 + M < INF) : mag (t * 2 ^ 236 + M) = M * 2 ^ t := by
  unfold INF at hN
  rcases Nat.lt_or_ge M (2 ^ 236) with h | h
  · obtain rfl : t = 0 := by omega
    have e : expField (0 * 2 ^ 236 + M) = 0 := by unfold expField; omega
    have f : fracField (0 * 2 ^ 236 + M) = M := by unfold fracField; omega
    rw [mag, significandOf, if_pos e, e, f]
  · rcases Nat.lt_or_ge M (2 ^ 237) with h' | h'
    · have e : expField (t * 2 ^ 236 + M) = t + 1 := by unfold expField; omega
      have f : fracField (t * 2 ^ 236 + M) = M - 2 ^ 236 := by unfold fracField; omega
      simp only [mag, significandOf, e, f, Nat.add_sub_cancel]
      rw [if_neg (by omega), show 2 ^ 236 + (M - 2 ^ 236) = M by omega]
    · obtain rfl : M = 2 ^ 237 := by omega
      have e : expField (t * 2 ^ 236 + 2 ^ 237) = t + 2 := by unfold expField; omega
      have f : fracField (t * 2 ^ 236 + 2 ^ 237) = 0 := by unfold fracField; omega
      simp only [mag, significandOf, e, f]
      rw [if_neg (by omega), Nat.add_zero, show t + 2 - 1 = 1 + t by omega, pow_add 2 1 t, ← mul_assoc,
        ← pow_add 2 236 1]

/-- Every finite pattern is an assembled one. -/
theorem fin_asm {N : ℕ} (h : IsFin N) : ∃ t M, (t = 0 ∨ 2 ^ 236 ≤ M) ∧ M < 2 ^ 237 ∧
    N % 2 ^ 255 = t * 2 ^ 236 + M ∧ t ≤ 524285 ∧ mag N = M * 2 ^ t ∧ N % 2 = M % 2 := by
  unfold IsFin at h
  have hl : expField N < 2 ^ 19 := Nat.mod_lt _ (by norm_num)
  refine ⟨expField N - 1, significandOf N, ?_, ?_, ?_, by omega, rfl, ?_⟩
  · unfold significandOf; split <;> omega
  · have : fracField N < 2 ^ 236 := Nat.mod_lt _ (by norm_num)
    unfold significandOf; split <;> omega
  · unfold significandOf expField fracField; split <;> omega
  · unfold significandOf fracField; split <;> omega

/-- See the module docstring. -/
def RoundsTo (v : ℝ) (N : ℕ) : Prop :=
  ∃ t M : ℕ, v < 2 ^ (237 + t) ∧ (t = 0 ∨ 2 ^ (236 + t) ≤ v) ∧
    |v - M * 2 ^ t| ≤ 2 ^ t / 2 ∧ (|v - M * 2 ^ t| = 2 ^ t / 2 → M % 2 = 0) ∧
    N = if 524286 ≤ t then INF else t * 2 ^ 236 + M

theorem RoundsTo.M_le {v : ℝ} {t M : ℕ} (hv : v < 2 ^ (237 + t))
    (h : |v - M * 2 ^ t| ≤ 2 ^ t / 2) : M ≤ 2 ^ 237 := by
  have hp : (0 : ℝ) < 2 ^ t := by positivity
  have h1 := (abs_le.mp h).1
  rw [pow_add] at hv
  have h2 : ((M : ℝ)) * 2 ^ t < (2 ^ 237 + 1) * 2 ^ t := by nlinarith
  have h3 : (M : ℝ) < 2 ^ 237 + 1 := lt_of_mul_lt_mul_right h2 hp.le
  have h4 : M < 2 ^ 237 + 1 := by exact_mod_cast h3
  omega

theorem RoundsTo.M_ge {v : ℝ} {t M : ℕ} (hv : t = 0 ∨ 2 ^ (236 + t) ≤ v)
    (h : |v - M * 2 ^ t| ≤ 2 ^ t / 2) : t = 0 ∨ 2 ^ 236 ≤ M := by
  rcases hv with hv | hv
  · exact Or.inl hv
  · right
    have hp : (0 : ℝ) < 2 ^ t := by positivity
    have h1 := (abs_le.mp h).2
    rw [pow_add] at hv
    have h2 : ((2 ^ 236 - 1 : ℝ)) * 2 ^ t < M * 2 ^ t := by nlinarith
    have h3 : (2 ^ 236 - 1 : ℝ) < M := lt_of_mul_lt_mul_right h2 hp.le
    have h4 : (2 : ℝ) ^ 236 < M + 1 := by linarith
    have h5 : 2 ^ 236 < M + 1 := by exact_mod_cast h4
    omega

theorem nearest_core {v : ℝ} {t M : ℕ} (hv0 : t = 0 ∨ 2 ^ (236 + t) ≤ v)
    (h : |v - M * 2 ^ t| ≤ 2 ^ t / 2) (htie : |v - M * 2 ^ t| = 2 ^ t / 2 → M % 2 = 0)
    {S : ℕ} (hS : IsFin S) :
    |((M * 2 ^ t : ℕ) : ℝ) - v| ≤ |(mag S : ℝ) - v| ∧
    (|(mag S : ℝ) - v| = |((M * 2 ^ t : ℕ) : ℝ) - v| → mag S = M * 2 ^ t ∨ M % 2 = 0) := by
  have hp : (0 : ℝ) < 2 ^ t := by positivity
  have hMge := RoundsTo.M_ge hv0 h
  obtain ⟨t', M', h1, h2, -, -, h5, -⟩ := fin_asm hS
  rw [h5]
  push_cast
  rw [abs_sub_comm _ v]
  rcases Nat.lt_or_ge t' t with hlt | hge
  · -- smaller exponent: strictly farther
    have ht0 : t ≠ 0 := by omega
    have hv : (2 : ℝ) ^ (236 + t) ≤ v := hv0.resolve_left ht0
    have hM : 2 ^ 236 ≤ M := hMge.resolve_left ht0
    have hb : M' * 2 ^ t' + 1 ≤ 2 ^ (236 + t) := by
      calc M' * 2 ^ t' + 1 ≤ 2 ^ 237 * 2 ^ t' := by
            have := Nat.mul_lt_mul_of_pos_right h2 (Nat.two_pow_pos t'); omega
        _ = 2 ^ (237 + t') := by rw [pow_add]
        _ ≤ _ := Nat.pow_le_pow_right (by norm_num) (by omega)
    have hb' : ((M' : ℝ) * 2 ^ t') + 1 ≤ 2 ^ (236 + t) := by exact_mod_cast hb
    rw [abs_of_nonpos (a := (M' : ℝ) * 2 ^ t' - v) (by linarith)]
    have key : |v - (M : ℝ) * 2 ^ t| < -((M' : ℝ) * 2 ^ t' - v) := by
      rcases Nat.eq_or_lt_of_le hM with he | hl
      · rw [← he, Nat.cast_pow, Nat.cast_ofNat]
        rw [← pow_add, abs_of_nonneg (by linarith)]
        linarith
      · have : (2 : ℝ) ^ 236 + 1 ≤ M := by exact_mod_cast hl
        have h6 : ((2 : ℝ) ^ 236 + 1) * 2 ^ t ≤ M * 2 ^ t := mul_le_mul_of_nonneg_right this hp.le
        rw [pow_add] at hb' hv
        have h7 := abs_le.mp h
        refine lt_of_le_of_lt h ?_
        linarith [h7.1]
    exact ⟨key.le, fun he => absurd he (ne_of_gt key)⟩
  · -- a multiple of 2 ^ t
    obtain ⟨d, rfl⟩ := Nat.exists_eq_add_of_le hge
    have e : (M' : ℝ) * 2 ^ (t + d) = ((M' * 2 ^ d : ℕ) : ℝ) * 2 ^ t := by
      push_cast; rw [pow_add]; ring
    have e' : M' * 2 ^ (t + d) = (M' * 2 ^ d) * 2 ^ t := by rw [pow_add]; ring
    rw [e, e']
    generalize M' * 2 ^ d = k
    rcases eq_or_ne k M with rfl | hne
    · exact ⟨by rw [abs_sub_comm], fun _ => Or.inl rfl⟩
    · have hd : (2 : ℝ) ^ t ≤ |(k : ℝ) * 2 ^ t - M * 2 ^ t| := by
        rw [← sub_mul, abs_mul, abs_of_pos hp]
        have : (1 : ℝ) ≤ |(k : ℝ) - M| := by
          have h8 : (1 : ℤ) ≤ |(k : ℤ) - M| := Int.one_le_abs (by omega)
          exact_mod_cast h8
        nlinarith
      have h9 : |(k : ℝ) * 2 ^ t - M * 2 ^ t| ≤ |(k : ℝ) * 2 ^ t - v| + |v - M * 2 ^ t| :=
        abs_sub_le _ _ _
      refine ⟨by linarith, fun he => Or.inr (htie ?_)⟩
      linarith

theorem asm_lt_INF {t M : ℕ} (ht : t ≤ 524285) (hM : M ≤ 2 ^ 237)
    (h : t ≠ 524285 ∨ M ≠ 2 ^ 237) : t * 2 ^ 236 + M < INF := by
  unfold INF
  omega

theorem threshold_eq : overflowThreshold * 2 ^ 262378 = ((2 : ℝ) ^ 237 - 1 / 2) * 2 ^ 524285 := by
  unfold overflowThreshold
  have e1 : (2 : ℝ) ^ (262143 : ℤ) * 2 ^ 262378 = 2 ^ 236 * 2 ^ 524285 := by
    rw [show (262143 : ℤ) = ((262143 : ℕ) : ℤ) by norm_num, zpow_natCast, ← pow_add, ← pow_add]
  rw [mul_assoc, e1, ← mul_assoc]
  congr 1
  norm_num

theorem RoundsTo.isRNE {q : ℝ} {A s : ℕ} (h : RoundsTo (|q| * 2 ^ 262378) A) (hs : s ≤ 1)
    (hpos : 0 < q → s = 0) (hneg : q < 0 → s = 1) : IsRNE q (s * 2 ^ 255 + A) := by
  obtain ⟨t, M, hv, hv0, hM, htie, hA⟩ := h
  have hMle := RoundsTo.M_le hv hM
  have hMge := RoundsTo.M_ge hv0 hM
  have hK : (0 : ℝ) < 2 ^ 262378 := by positivity
  have hp : (0 : ℝ) < 2 ^ t := by positivity
  have hAle : A ≤ INF := by
    rw [hA]; unfold INF; split <;> omega
  have hlt : s * 2 ^ 255 + A < 2 ^ 256 := by unfold INF at hAle; omega
  have hsign : signBit (s * 2 ^ 255 + A) = s := by
    unfold INF at hAle; unfold signBit; omega
  have habs : (s * 2 ^ 255 + A) % 2 ^ 255 = A := by unfold INF at hAle; omega
  have hexp : expField (s * 2 ^ 255 + A) = expField A := by
    rw [← expField_abs, habs]
  have hfrac : fracField (s * 2 ^ 255 + A) = fracField A := by
    rw [← fracField_abs, habs]
  -- overflow
  have hover : overflowThreshold ≤ |q| → A = INF := by
    intro ho
    have ho : overflowThreshold * 2 ^ 262378 ≤ |q| * 2 ^ 262378 :=
      mul_le_mul_of_nonneg_right ho hK.le
    rw [threshold_eq] at ho
    rw [hA]
    split
    · rfl
    · rename_i ht
      have ht : t ≤ 524285 := by omega
      have ht' : t = 524285 := by
        by_contra hne
        have h1 : (2 : ℝ) ^ (237 + t) ≤ 2 ^ (236 + 524285) :=
          pow_le_pow_right₀ (by norm_num) (by omega)
        rw [pow_add 2 236] at h1
        have h2 : (0 : ℝ) < 2 ^ 524285 := by positivity
        have : (2 : ℝ) ^ 236 * 2 ^ 524285 < (2 ^ 237 - 1 / 2) * 2 ^ 524285 :=
          mul_lt_mul_of_pos_right (by norm_num) h2
        exact absurd (lt_of_lt_of_le (lt_of_lt_of_le hv h1) (this.le.trans ho)) (lt_irrefl _)
      have : M = 2 ^ 237 := by
        rw [← ht'] at ho
        rcases Nat.lt_or_ge M (2 ^ 237) with hl | hg
        · exfalso
          have h1 : (M : ℝ) + 1 ≤ 2 ^ 237 := by exact_mod_cast hl
          have h2 : ((M : ℝ) + 1) * 2 ^ t ≤ 2 ^ 237 * 2 ^ t := mul_le_mul_of_nonneg_right h1 hp.le
          have h3 := (abs_le.mp hM).2
          have h4 : |q| * 2 ^ 262378 - M * 2 ^ t = 2 ^ t / 2 := by linarith
          have h5 : ((M : ℝ) + 1) * 2 ^ t = 2 ^ 237 * 2 ^ t := by linarith
          have h6 : (M : ℝ) + 1 = 2 ^ 237 := mul_right_cancel₀ hp.ne' h5
          have h7 : M + 1 = 2 ^ 237 := by exact_mod_cast h6
          have h8 := htie (by rw [h4, abs_of_pos (by positivity)])
          omega
        · omega
      rw [this, ht']; unfold INF; omega
  have hfin : |q| < overflowThreshold → t ≤ 524285 ∧ t * 2 ^ 236 + M < INF := by
    intro ho
    have ho : |q| * 2 ^ 262378 < overflowThreshold * 2 ^ 262378 :=
      mul_lt_mul_of_pos_right ho hK
    rw [threshold_eq] at ho
    have h2 : (0 : ℝ) < 2 ^ 524285 := by positivity
    have ht : t ≤ 524285 := by
      by_contra hgt
      have h1 : (2 : ℝ) ^ (237 + 524285) ≤ 2 ^ (236 + t) :=
        pow_le_pow_right₀ (by norm_num) (by omega)
      rw [pow_add 2 237] at h1
      have h3 := hv0.resolve_left (by omega)
      have h4 : ((2 : ℝ) ^ 237 - 1 / 2) * 2 ^ 524285 < 2 ^ 237 * 2 ^ 524285 :=
        mul_lt_mul_of_pos_right (by norm_num) h2
      exact absurd (lt_of_lt_of_le (lt_trans ho h4) (h1.trans h3)) (lt_irrefl _)
    clear h2
    refine ⟨ht, ?_⟩
    rcases Nat.eq_or_lt_of_le ht with he | hl
    · rw [← he] at ho
      rcases Nat.eq_or_lt_of_le hMle with heM | hlM
      · exfalso
        have h3 := (abs_le.mp hM).1
        rw [heM] at h3
        push_cast at h3
        linarith
      · exact asm_lt_INF ht hMle (Or.inr hlM.ne)
    · exact asm_lt_INF ht hMle (Or.inl hl.ne)
  have hq : q = (-1) ^ s * |q| := by
    rcases lt_trichotomy q 0 with h | h | h
    · rw [hneg h, abs_of_neg h]; ring
    · simp [h]
    · rw [hpos h, abs_of_pos h]; ring
  have hvalabs : ∀ S, |val S| = mag S / 2 ^ 262378 := by
    intro S
    rw [val_eq, abs_mul, abs_pow, abs_neg, abs_one, one_pow, one_mul, abs_of_nonneg (by positivity)]
  have hdist : ∀ S, |(mag S : ℝ) - |q| * 2 ^ 262378| / 2 ^ 262378 ≤ |val S - q| := by
    intro S
    have h1 : |(|val S| - |q|)| ≤ |val S - q| := abs_abs_sub_abs_le_abs_sub _ _
    rw [hvalabs] at h1
    have h2 : (mag S : ℝ) / 2 ^ 262378 - |q| = ((mag S : ℝ) - |q| * 2 ^ 262378) / 2 ^ 262378 := by
      rw [sub_div, mul_div_assoc, div_self hK.ne', mul_one]
    rw [h2, abs_div, abs_of_pos hK] at h1
    exact h1
  have hmag : |q| < overflowThreshold → mag (s * 2 ^ 255 + A) = M * 2 ^ t := by
    intro ho
    obtain ⟨h1, h2⟩ := hfin ho
    rw [← mag_abs, habs, hA, if_neg (by omega), mag_asm hMge hMle h2]
  have hdistN : |q| < overflowThreshold → |val (s * 2 ^ 255 + A) - q| =
      |((M * 2 ^ t : ℕ) : ℝ) - |q| * 2 ^ 262378| / 2 ^ 262378 := by
    intro ho
    have h1 : val (s * 2 ^ 255 + A) - q =
        (-1) ^ s * ((((M * 2 ^ t : ℕ) : ℝ) - |q| * 2 ^ 262378) / 2 ^ 262378) := by
      rw [val_eq, hsign, hmag ho]
      conv_lhs => rw [hq]
      rw [sub_div, mul_div_assoc |q|, div_self hK.ne', mul_one, ← mul_sub]
    rw [h1, abs_mul, abs_pow, abs_neg, abs_one, one_pow, one_mul, abs_div, abs_of_pos hK]
  have hpar : |q| < overflowThreshold → (s * 2 ^ 255 + A) % 2 = M % 2 := by
    intro ho
    have := hfin ho
    rw [hA, if_neg (by omega)]; omega
  refine ⟨hlt, ?_, ?_, ?_, ?_, ?_, ?_⟩
  · intro ho
    rw [hover ho] at hexp hfrac ⊢
    refine ⟨hexp.trans ?_, hfrac.trans ?_⟩
    · unfold expField INF; omega
    · unfold fracField INF; omega
  · intro ho
    obtain ⟨h1, h2⟩ := hfin ho
    rw [hA, if_neg (by omega)] at hexp ⊢
    unfold IsFin
    rw [hexp]
    unfold INF at h2
    unfold expField; omega
  · intro ho S _ hS
    rw [hdistN ho]
    refine le_trans ?_ (hdist S)
    exact div_le_div_of_nonneg_right (nearest_core hv0 hM htie hS).1 hK.le
  · intro ho S _ hS heq hne
    rw [hpar ho]
    have hc := nearest_core hv0 hM htie hS
    have h1 := hdist S
    rw [heq, hdistN ho] at h1
    have h2 : |(mag S : ℝ) - |q| * 2 ^ 262378| ≤ |((M * 2 ^ t : ℕ) : ℝ) - |q| * 2 ^ 262378| :=
      (div_le_div_iff_of_pos_right hK).mp h1
    rcases hc.2 (le_antisymm h2 hc.1) with h3 | h3
    · -- same magnitude, different sign
      exfalso
      have h4 : |val S| = |val (s * 2 ^ 255 + A)| := by
        rw [hvalabs, hvalabs, hmag ho, h3]
      rcases abs_eq_abs.mp h4 with h5 | h5
      · exact hne h5
      · rw [h5] at heq
        have h6 : val (s * 2 ^ 255 + A) * q = 0 := by
          have := congrArg (· ^ 2) heq
          simp only [sq_abs] at this
          linarith
        rcases mul_eq_zero.mp h6 with h7 | h7
        · rw [h7] at h5; rw [h5, h7] at hne; simp at hne
        · rw [h7] at hv0 hM
          have ht : t = 0 := by
            rcases hv0 with h | h
            · exact h
            · exfalso
              have : (0 : ℝ) < 2 ^ (236 + t) := by positivity
              simp at h; linarith
          have hM0 : M = 0 := by
            rw [ht] at hM
            simp at hM
            by_contra hM0
            have : (1 : ℝ) ≤ M := by exact_mod_cast Nat.one_le_iff_ne_zero.mpr hM0
            norm_num at hM
            linarith
          have h8 : val (s * 2 ^ 255 + A) = 0 := by
            rw [val_eq, hmag ho, hM0]; simp
          rw [h8] at h5; rw [h5, h8] at hne; simp at hne
    · exact h3
  · intro h; rw [hsign]; exact hpos h
  · intro h; rw [hsign]; exact hneg h

end Verif
