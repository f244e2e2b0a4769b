import Verif.Props.Compare
import Verif.Props.ErrorFree

/-!
# C72, C73: differences do not vanish, midpoints stay inside
-/

namespace Verif.Props

open Verif Spec

/-! ## C72 -/

/-- The sign of a rounded integer is that of the integer: nothing other than zero is rounded to zero. -/
theorem rne_ne_zero {Z : ℤ} {N : ℕ} (h : IsRNE ((Z : ℝ) / 2 ^ 262378) N) (hf : IsFin N) (hZ : Z ≠ 0) : ¬IsZero N := by
  intro hz
  obtain ⟨hn, hl⟩ := near_of_rne h hf
  obtain ⟨t, M, hc⟩ := can_of_fin hf
  have h0 : smag N = 0 := by
    have := val_zero hz
    rw [val_smag, div_eq_zero_iff] at this
    rcases this with h1 | h1
    · exact_mod_cast h1
    · exact absurd h1 (by positivity)
  have := (inexact_quantum (t := 0) (by norm_num) (by rw [pow_zero]; exact one_dvd _) hc hn hl (by rw [h0]; exact Ne.symm hZ)).2.2.2.2
  rw [h0, abs_zero] at this
  exact absurd this (not_le.mpr (by positivity))

/-- C72: for finite numbers `x - y` is zero exactly if `x == y`, and otherwise has the sign of the exact difference. -/
theorem C72_sub_zero (x y : F256) (hx : IsFin x.pat) (hy : IsFin y.pat) :
    ∃ z, F256.sub x y = some z ∧ (IsZero z.pat ↔ F256.eq x y = true) ∧
      (val y.pat < val x.pat → signBit z.pat = 0) ∧ (val x.pat < val y.pat → signBit z.pat = 1) := by
  obtain ⟨z, hz, rz⟩ := C02_sub x y hx hy
  refine ⟨z, hz, ?_, fun h => rz.pos (by linarith), fun h => rz.neg (by linarith)⟩
  rw [C12_eq_iff, extVal_fin hx, extVal_fin hy, EReal.coe_eq_coe_iff]
  constructor
  · intro h0
    refine ⟨not_nan_of_fin hx, not_nan_of_fin hy, ?_⟩
    by_contra hne
    rw [val_smag, val_smag, ← sub_div, ← Int.cast_sub] at rz
    refine rne_ne_zero rz (fin_of_zero h0) (fun h => hne ?_) h0
    rw [val_smag, val_smag, show smag x.pat = smag y.pat by omega]
  · rintro ⟨-, -, h⟩
    obtain ⟨z', h1, h2⟩ := sub_smag x y hx hy
    obtain rfl : z' = z := by rw [hz] at h1; exact (Option.some.inj h1).symm
    rw [val_smag, val_smag, div_left_inj' (by positivity)] at h
    have h3 : smag x.pat = smag y.pat := by exact_mod_cast h
    rw [h3, sub_self] at h2
    obtain ⟨f, e⟩ := rep_exact h2 rep_zero
    rw [← val_eq_zero_iff f, val_smag, e, Int.cast_zero, zero_div]

/-- Two neighbours among the subnormal numbers -/
example : IsFin (⟨U256.new 0#128 3#128⟩ : F256).pat ∧ F256.eq ⟨U256.new 0#128 3#128⟩ ⟨U256.new 0#128 2#128⟩ = false ∧
    F256.sub ⟨U256.new 0#128 3#128⟩ ⟨U256.new 0#128 2#128⟩ = some ⟨U256.new 0#128 1#128⟩ := by decide

/-! ## C73 -/

theorem sum_ge {A B S : ℤ} {ta ts Ma Ms : ℕ} (hA : Can A ta Ma) (hS : Can S ts Ms)
    (hN : ∀ W, Rep W → |S - (A + B)| ≤ |W - (A + B)|) (hX : |A + B| < 2 ^ 237 * 2 ^ 524285) (h : A ≤ B) : 2 * A ≤ S := by
  by_cases hr : Rep (2 * A)
  · by_contra hc
    push Not at hc
    have h1 := hN _ hr
    rw [abs_of_nonpos (by linarith), abs_of_nonpos (by linarith)] at h1
    linarith
  · have ht : ta = 524285 := by
      by_contra hne
      have := hA.t_le
      exact hr ⟨Ma, ta + 1, hA.M_lt, by omega, by rw [abs_mul, hA.abs, abs_two, pow_succ]; ring⟩
    subst ht
    have hM : 2 ^ 236 ≤ Ma := hA.norm.resolve_left (by norm_num)
    have h1 : (2 : ℤ) ^ 236 * 2 ^ 524285 ≤ |A| := by
      rw [hA.abs]
      exact mul_le_mul_of_nonneg_right (by exact_mod_cast hM) (pow_nonneg (by norm_num) _)
    have h2 := hS.lt
    have h3 : (2 : ℤ) ^ ts ≤ 2 ^ 524285 := pow_le_pow_right₀ (by norm_num) hS.t_le
    have h4 : (0 : ℤ) < 2 ^ ts := pow_pos (by norm_num) _
    have h5 := le_abs_self (A + B)
    have h6 := neg_abs_le S
    clear hN hr hA hS hM
    generalize (2 : ℤ) ^ 524285 = T at *
    generalize (2 : ℤ) ^ ts = q at *
    rcases le_or_gt 0 A with h0 | h0
    · rw [abs_of_nonneg h0] at h1
      omega
    · rw [abs_of_neg h0] at h1
      omega

/-- C73: for finite `a ≤ b` whose sum does not overflow, `(a + b) / 2` lies between `a` and `b`. -/
theorem C73_midpoint (a b : F256) (ha : IsFin a.pat) (hb : IsFin b.pat) (h : val a.pat ≤ val b.pat) :
    ∃ s, F256.add a b = some s ∧ (IsFin s.pat → ∃ m, F256.div s F256.TWO = some m ∧ IsFin m.pat ∧
      val a.pat ≤ val m.pat ∧ val m.pat ≤ val b.pat) := by
  have hK : (0 : ℝ) < 2 ^ 262378 := by positivity
  obtain ⟨s, hs, rs⟩ := add_smag a b ha hb
  refine ⟨s, hs, fun fs => ?_⟩
  obtain ⟨ns, ls⟩ := near_of_rne rs fs
  obtain ⟨_, _, ca⟩ := can_of_fin ha
  obtain ⟨_, _, cb⟩ := can_of_fin hb
  obtain ⟨_, _, cs⟩ := can_of_fin fs
  have hle : smag a.pat ≤ smag b.pat := by
    rw [val_smag, val_smag, div_le_div_iff_of_pos_right hK] at h
    exact_mod_cast h
  have h1 := sum_ge ca cs ns ls hle
  have neg : ∀ {Z t M}, Can Z t M → Can (-Z) t M := fun hc => ⟨by rw [abs_neg]; exact hc.abs, hc.M_lt, hc.t_le, hc.norm⟩
  have h2 := sum_ge (A := -smag b.pat) (B := -smag a.pat) (S := -smag s.pat) (neg cb) (neg cs) (fun W hW => by
      have h3 := ns (-W) (by obtain ⟨k, t, k1, k2, k3⟩ := hW; exact ⟨k, t, k1, k2, by rw [abs_neg]; exact k3⟩)
      rw [show -smag s.pat - (-smag b.pat + -smag a.pat) = -(smag s.pat - (smag a.pat + smag b.pat)) by ring, abs_neg,
        show W - (-smag b.pat + -smag a.pat) = -(-W - (smag a.pat + smag b.pat)) by ring, abs_neg]
      exact h3) (by
      rw [show -smag b.pat + -smag a.pat = -(smag a.pat + smag b.pat) by ring, abs_neg]
      exact ls) (by omega)
  have hv2 : val F256.TWO.pat = 2 := by
    rw [val, show signBit F256.TWO.pat = 0 by decide, show significandOf F256.TWO.pat = 2 ^ 236 by decide,
      show quantumExp F256.TWO.pat = -235 by decide]
    norm_num
  obtain ⟨m, hm, rm, -⟩ := C06_div s F256.TWO fs (by decide) (by decide)
  rw [hv2] at rm
  have fm : IsFin m.pat := rm.fin (by
    have := abs_val_lt (pat_lt s) fs
    rw [abs_div, abs_two]
    have h4 := abs_nonneg (val s.pat)
    linarith)
  have la : val a.pat ≤ val s.pat / 2 := by
    rw [val_smag, val_smag, div_div, mul_comm, ← div_div, div_le_div_iff_of_pos_right hK, le_div_iff₀ (by norm_num), mul_comm]
    exact_mod_cast h1
  have lb : val s.pat / 2 ≤ val b.pat := by
    rw [val_smag, val_smag, div_div, mul_comm, ← div_div, div_le_div_iff_of_pos_right hK, div_le_iff₀ (by norm_num), mul_comm]
    have : smag s.pat ≤ 2 * smag b.pat := by omega
    exact_mod_cast this
  refine ⟨m, hm, fm, ?_, ?_⟩
  · have := IsRNE.mono (isRNE_self (pat_lt a) ha) rm la
    rwa [extVal_fin ha, extVal_fin fm, EReal.coe_le_coe_iff] at this
  · have := IsRNE.mono rm (isRNE_self (pat_lt b) hb) lb
    rwa [extVal_fin hb, extVal_fin fm, EReal.coe_le_coe_iff] at this

/-- Two neighbours: the midpoint is one of them. -/
example : IsFin (⟨U256.new 0#128 2#128⟩ : F256).pat ∧ IsFin (⟨U256.new 0#128 3#128⟩ : F256).pat ∧
    F256.add ⟨U256.new 0#128 2#128⟩ ⟨U256.new 0#128 3#128⟩ = some ⟨U256.new 0#128 5#128⟩ ∧
    F256.div ⟨U256.new 0#128 5#128⟩ F256.TWO = some ⟨U256.new 0#128 2#128⟩ := by decide

end Verif.Props
