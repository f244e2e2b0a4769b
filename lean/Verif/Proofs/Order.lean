import Verif.Spec.Order
import Verif.Proofs.F256Nat

/-!
# Order of the denoted values
-/

namespace Verif

open Spec

theorem mag_lt_of_lt {a b : ℕ} (h : a < b) (hb : b < INF) : mag a < mag b := by
  unfold INF at hb
  have ha' : a % 2 ^ 255 = a := by omega
  have hb' : b % 2 ^ 255 = b := by omega
  obtain ⟨t, M, h1, h2, h3, h4, h5, -⟩ := fin_asm (N := a) ((fin_iff a).mpr (by unfold INF; omega))
  obtain ⟨u, L, g1, g2, g3, g4, g5, -⟩ := fin_asm (N := b) ((fin_iff b).mpr (by unfold INF; omega))
  rw [h5, g5]
  rw [ha'] at h3
  rw [hb'] at g3
  rcases Nat.lt_trichotomy t u with hl | he | hg
  · have hL := g1.resolve_left (by omega)
    calc M * 2 ^ t < 2 ^ 237 * 2 ^ t := Nat.mul_lt_mul_of_pos_right h2 (Nat.two_pow_pos t)
      _ = 2 ^ 236 * 2 ^ (t + 1) := by rw [pow_succ 2 t, pow_succ 2 236]; ring
      _ ≤ L * 2 ^ u := Nat.mul_le_mul hL (Nat.pow_le_pow_right (by norm_num) (by omega))
  · subst he
    exact Nat.mul_lt_mul_of_pos_right (by omega) (Nat.two_pow_pos t)
  · exfalso; omega

theorem mag_lt_iff {a b : ℕ} (ha : a < INF) (hb : b < INF) : mag a < mag b ↔ a < b := by
  constructor
  · intro h
    by_contra hn
    rcases Nat.lt_or_eq_of_le (not_lt.mp hn) with hl | he
    · exact absurd (mag_lt_of_lt hl ha) (by omega)
    · rw [he] at h; omega
  · exact fun h => mag_lt_of_lt h hb

theorem mag_zero : mag 0 = 0 := by
  have e : expField 0 = 0 := by unfold expField; omega
  have f : fracField 0 = 0 := by unfold fracField; omega
  rw [mag, significandOf, if_pos e, f, Nat.zero_mul]

theorem mag_pos {a : ℕ} (h0 : 0 < a) (ha : a < INF) : 0 < mag a := by
  rw [← mag_zero]; exact mag_lt_of_lt h0 ha

/-- signed magnitude -/
def smag (N : ℕ) : ℤ := if signBit N = 0 then (mag N : ℤ) else -(mag N : ℤ)

theorem signBit_cases (N : ℕ) : signBit N = 0 ∨ signBit N = 1 := by
  unfold signBit; omega

theorem val_smag (N : ℕ) : val N = (smag N : ℝ) / 2 ^ 262378 := by
  rw [val_eq, smag]
  rcases signBit_cases N with h | h <;> simp [h, neg_div]

theorem val_lt_iff (N M : ℕ) : val N < val M ↔ smag N < smag M := by
  rw [val_smag, val_smag, div_lt_div_iff_of_pos_right (by positivity)]
  exact Int.cast_lt

theorem val_eq_iff (N M : ℕ) : val N = val M ↔ smag N = smag M := by
  rw [val_smag, val_smag, div_left_inj' (by positivity)]
  exact Int.cast_inj

/-- position of a pattern in the extended reals as an integer: sign and magnitude bits -/
def spos (N : ℕ) : ℤ :=
  if signBit N = 0 then ((N % 2 ^ 255 : ℕ) : ℤ) else -((N % 2 ^ 255 : ℕ) : ℤ)

theorem smag_lt_iff {N M : ℕ} (hN : IsFin N) (hM : IsFin M) :
    smag N < smag M ↔ spos N < spos M := by
  rw [fin_iff] at hN hM
  have h1 := mag_lt_iff hN hM
  have h2 := mag_lt_iff hM hN
  rw [mag_abs, mag_abs] at h1 h2
  have n0 : 0 < N % 2 ^ 255 ↔ 0 < mag N := by
    have := mag_lt_iff (a := 0) (by unfold INF; norm_num) hN
    rw [mag_zero, mag_abs] at this; exact this.symm
  have m0 : 0 < M % 2 ^ 255 ↔ 0 < mag M := by
    have := mag_lt_iff (a := 0) (by unfold INF; norm_num) hM
    rw [mag_zero, mag_abs] at this; exact this.symm
  unfold smag spos
  generalize N % 2 ^ 255 = a at *
  generalize M % 2 ^ 255 = b at *
  split <;> split <;> omega

theorem extVal_fin {N : ℕ} (h : IsFin N) : extVal N = ((val N : ℝ) : EReal) := by
  rw [extVal, if_neg]
  rw [isInf_iff]; rw [fin_iff] at h; omega

theorem extVal_lt_iff {N M : ℕ} (hN : ¬ IsNaN N) (hM : ¬ IsNaN M) :
    extVal N < extVal M ↔ spos N < spos M := by
  rw [isNaN_iff] at hN hM
  by_cases hN' : IsInf N
  · have hN'' := (isInf_iff N).mp hN'
    by_cases hM' : IsInf M
    · have hM'' := (isInf_iff M).mp hM'
      rw [extVal, extVal, if_pos hN', if_pos hM', spos, spos, hN'', hM'']
      have : (0 : ℤ) < ((INF : ℕ) : ℤ) := by unfold INF; norm_num
      split <;> split <;> simp
      omega
    · have hM'' : IsFin M := by rw [fin_iff]; rw [isInf_iff] at hM'; omega
      rw [extVal_fin hM'', extVal, if_pos hN', spos, spos, hN'']
      rw [fin_iff] at hM''
      split
      · simp
        split <;> omega
      · simp [EReal.bot_lt_coe]
        split <;> omega
  · have hN'' : IsFin N := by rw [fin_iff]; rw [isInf_iff] at hN'; omega
    rw [extVal_fin hN'']
    by_cases hM' : IsInf M
    · have hM'' := (isInf_iff M).mp hM'
      rw [extVal, if_pos hM', spos, spos, hM'']
      rw [fin_iff] at hN''
      split
      · simp [EReal.coe_lt_top]
        split <;> omega
      · simp
        split <;> omega
    · have hM'' : IsFin M := by rw [fin_iff]; rw [isInf_iff] at hM'; omega
      rw [extVal_fin hM'', EReal.coe_lt_coe_iff, val_lt_iff, smag_lt_iff hN'' hM'']

theorem extVal_eq_iff {N M : ℕ} (hN : ¬ IsNaN N) (hM : ¬ IsNaN M) :
    extVal N = extVal M ↔ spos N = spos M := by
  have h1 := extVal_lt_iff hN hM
  have h2 := extVal_lt_iff hM hN
  constructor
  · intro h
    rw [h] at h1 h2
    simp only [lt_irrefl, false_iff] at h1 h2
    omega
  · intro h
    rw [h] at h1 h2
    simp only [lt_irrefl, iff_false, not_lt] at h1 h2
    exact le_antisymm h2 h1

end Verif
