import Verif.Proofs.Round2

/-!
# Representable numbers and monotonicity of correct rounding
-/

namespace Verif

open Spec

/-- A number with at most 237 significant bits, not too large, is representable. -/
theorem exists_mag {k : ℕ} : ∀ {t : ℕ}, k < 2 ^ 237 → t ≤ 524285 →
    ∃ N, N < INF ∧ mag N = k * 2 ^ t := by
  intro t
  induction t generalizing k with
  | zero =>
    intro hk _
    refine ⟨0 * 2 ^ 236 + k, by unfold INF; omega, ?_⟩
    exact mag_asm (Or.inl rfl) hk.le (by unfold INF; omega)
  | succ t ih =>
    intro hk ht
    by_cases h : k < 2 ^ 236
    · obtain ⟨N, h1, h2⟩ := ih (k := 2 * k) (by omega) (by omega)
      exact ⟨N, h1, by rw [h2, pow_succ]; ring⟩
    · have hN : (t + 1) * 2 ^ 236 + k < INF := by unfold INF; omega
      exact ⟨(t + 1) * 2 ^ 236 + k, hN, mag_asm (Or.inr (not_lt.mp h)) hk.le hN⟩

/-- An integer multiple of a power of two with at most 237 bits is the value of a pattern. -/
theorem exists_val {k t : ℕ} (hk : k < 2 ^ 237) (ht : t ≤ 524285) (s : ℕ) (hs : s ≤ 1) :
    ∃ N, N < 2 ^ 256 ∧ IsFin N ∧ signBit N = s ∧
      val N = (-1) ^ s * ((k * 2 ^ t : ℕ) : ℝ) / 2 ^ 262378 := by
  obtain ⟨M, h1, h2⟩ := exists_mag hk ht
  have hI := INF_lt
  have hmod : (s * 2 ^ 255 + M) % 2 ^ 255 = M := by omega
  have hsb : signBit (s * 2 ^ 255 + M) = s := by unfold signBit; omega
  refine ⟨s * 2 ^ 255 + M, by omega, ?_, hsb, ?_⟩
  · rw [fin_iff, hmod]; exact h1
  · rw [val_eq, hsb, ← mag_abs, hmod, h2, mul_div_assoc]

theorem abs_val_lt {N : ℕ} (hN : N < 2 ^ 256) (h : IsFin N) : |val N| < overflowThreshold := by
  by_contra hc
  exact h ((isRNE_self hN h).inf (not_lt.mp hc)).1

/-- Rounding a representable number is exact. -/
theorem IsRNE.exact {q : ℝ} {N M : ℕ} (h : IsRNE q N) (hM : M < 2 ^ 256) (fM : IsFin M)
    (hq : val M = q) : IsFin N ∧ val N = q := by
  have ht : |q| < overflowThreshold := by rw [← hq]; exact abs_val_lt hM fM
  refine ⟨h.fin ht, ?_⟩
  have := h.nearest ht M hM fM
  rw [hq, sub_self, abs_zero] at this
  exact sub_eq_zero.mp (abs_eq_zero.mp (le_antisymm this (abs_nonneg _)))

theorem overflowThreshold_pos : 0 < overflowThreshold := by
  unfold overflowThreshold
  have : (2 : ℝ) ^ (-237 : ℤ) < 1 := by
    rw [zpow_neg]
    exact inv_lt_one_of_one_lt₀ (one_lt_zpow₀ (by norm_num) (by norm_num))
  exact mul_pos (by linarith) (zpow_pos (by norm_num) _)

theorem extVal_inf_pos {N : ℕ} (h : IsInf N) (hs : signBit N = 0) : extVal N = ⊤ := by
  rw [extVal, if_pos h, if_pos hs]

theorem extVal_inf_neg {N : ℕ} (h : IsInf N) (hs : signBit N = 1) : extVal N = ⊥ := by
  rw [extVal, if_pos h, if_neg (by rw [hs]; norm_num)]

/-- Correct rounding is monotone. -/
theorem IsRNE.mono {q r : ℝ} {N M : ℕ} (h1 : IsRNE q N) (h2 : IsRNE r M) (h : q ≤ r) :
    extVal N ≤ extVal M := by
  have hp := overflowThreshold_pos
  by_cases hr : overflowThreshold ≤ r
  · rw [extVal_inf_pos (h2.inf (le_trans hr (le_abs_self r))) (h2.pos (by linarith))]
    exact le_top
  by_cases hq : q ≤ -overflowThreshold
  · have : overflowThreshold ≤ |q| := le_trans (by linarith) (neg_le_abs q)
    rw [extVal_inf_neg (h1.inf this) (h1.neg (by linarith))]
    exact bot_le
  rw [not_le] at hr hq
  have aq : |q| < overflowThreshold := abs_lt.mpr ⟨hq, by linarith⟩
  have ar : |r| < overflowThreshold := abs_lt.mpr ⟨by linarith, hr⟩
  rw [extVal_fin (h1.fin aq), extVal_fin (h2.fin ar), EReal.coe_le_coe_iff]
  rcases eq_or_lt_of_le h with he | hlt
  · subst he
    by_cases hq0 : q = 0
    · subst hq0
      have hz : ∀ {K : ℕ}, IsRNE 0 K → val K = 0 := by
        intro K hK
        exact (IsRNE.exact hK (M := 0) (by norm_num) (by decide) (val_zero (by decide))).2
      rw [hz h1, hz h2]
    · rw [IsRNE.unique h1 h2 hq0]
  · by_contra hc
    rw [not_le] at hc
    have n1 := h1.nearest aq M h2.lt (h2.fin ar)
    have n2 := h2.nearest ar N h1.lt (h1.fin aq)
    rw [← sq_le_sq] at n1 n2
    nlinarith [mul_pos (sub_pos.mpr hc) (sub_pos.mpr hlt)]

end Verif
