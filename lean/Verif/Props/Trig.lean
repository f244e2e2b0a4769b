import Verif.Proofs.TrigFinal
import Verif.Props.Div

/-!
# C52: the accuracy of sine and cosine; C59: the joint computation of both functions

`Real.sin` and `Real.cos` are those of Mathlib. The unit in the last place of a result `z` is `2 ^ quantumExp z.pat`, the
distance of the f256 numbers in its binade.
-/

set_option exponentiation.threshold 2000

namespace Verif.Props

open Verif Verif.Spec Verif.Trig

/-- The call yields a finite number that is off by at most `c` units in the last place. -/
def WithinUlps (c v : ℝ) (r : Option F256) : Prop :=
  ∃ z, r = some z ∧ IsFin z.pat ∧ |val z.pat - v| ≤ c * (2 : ℝ) ^ quantumExp z.pat

/-- C52, the sine: no panic, and at most 1.01 units in the last place off. -/
theorem C52_sin_partial (x : F256) (hf : IsFin x.pat) (h1 : 1 / 2 ^ 256 ≤ |val x.pat|) :
    WithinUlps 1.01 (Real.sin (val x.pat)) x.sin := by
  have h0 : ¬ IsZero x.pat := fun hz => by
    rw [val_zero hz, abs_zero] at h1
    exact absurd h1 (by norm_num)
  obtain ⟨m, E, h⟩ := abs_arg x hf h0
  rw [← C18_abs_val] at h1
  have g1 : -256 ≤ E := h.exp_ge (by rw [zpow_neg, ← one_div]; exact_mod_cast h1)
  obtain ⟨q, Y, r1, r2⟩ := reduce_spec h g1
  obtain ⟨s, c, s1, -, s2, -⟩ := sin_cases hf h0 r1 r2
  exact ⟨s, s1, s2.1, s2.2.trans (by norm_num)⟩

/-- C52, the cosine of any finite number: no panic, and at most 1.01 units in the last place off. -/
theorem C52_cos (x : F256) (hf : IsFin x.pat) : WithinUlps 1.01 (Real.cos (val x.pat)) x.cos := by
  by_cases h0 : IsZero x.pat
  · rw [val_zero h0, Real.cos_zero]
    refine ⟨F256.ONE, (C51_zero x h0).2.2.1, by decide, ?_⟩
    rw [val_ONE, sub_self, abs_zero]
    positivity
  obtain ⟨m, E, h⟩ := abs_arg x hf h0
  rcases lt_or_ge E (-256) with g1 | g1
  · obtain ⟨c, s1, s2⟩ := cos_tiny hf h0 h g1
    exact ⟨c, s1, s2.1, s2.2.trans (by norm_num)⟩
  obtain ⟨q, Y, r1, r2⟩ := reduce_spec h g1
  obtain ⟨s, c, -, s1, -, s2⟩ := sin_cases hf h0 r1 r2
  exact ⟨c, s1, s2.1, s2.2.trans (by norm_num)⟩

/-- Numbers of the three ranges of the reduction: 1, `2^100` and `2^241` -/
example : (IsFin F256.ONE.pat ∧ 1 / 2 ^ 256 ≤ |val F256.ONE.pat|) ∧
    (∃ y : F256, IsFin y.pat ∧ val y.pat = 2 ^ 100) ∧ ∃ y : F256, IsFin y.pat ∧ val y.pat = 2 ^ 241 := by
  refine ⟨⟨by decide, ?_⟩, ⟨⟨⟨BitVec.ofNat 128 ((262143 + 100) * 2 ^ 108), 0⟩⟩, by decide, ?_⟩,
    ⟨⟨BitVec.ofNat 128 ((262143 + 241) * 2 ^ 108), 0⟩⟩, by decide, ?_⟩
  · rw [val_ONE]; norm_num
  · rw [val, show signBit (F256.mk ⟨BitVec.ofNat 128 ((262143 + 100) * 2 ^ 108), 0⟩).pat = 0 by decide,
      show significandOf (F256.mk ⟨BitVec.ofNat 128 ((262143 + 100) * 2 ^ 108), 0⟩).pat = 2 ^ 236 by decide,
      show quantumExp (F256.mk ⟨BitVec.ofNat 128 ((262143 + 100) * 2 ^ 108), 0⟩).pat = -136 by decide]
    norm_num
  · rw [val, show signBit (F256.mk ⟨BitVec.ofNat 128 ((262143 + 241) * 2 ^ 108), 0⟩).pat = 0 by decide,
      show significandOf (F256.mk ⟨BitVec.ofNat 128 ((262143 + 241) * 2 ^ 108), 0⟩).pat = 2 ^ 236 by decide,
      show quantumExp (F256.mk ⟨BitVec.ofNat 128 ((262143 + 241) * 2 ^ 108), 0⟩).pat = 5 by decide]
    norm_num

/-- C52 is false for small arguments: the sine of every normal number below `2^-492` has the absolute value `2^-492`. -/
theorem C52_sin_small (x : F256) (hf : IsFin x.pat) (h1 : (2 : ℝ) ^ (-262142 : ℤ) ≤ |val x.pat|)
    (h2 : |val x.pat| < 1 / 2 ^ 492) : ∃ s, x.sin = some s ∧ |val s.pat| = 1 / 2 ^ 492 := by
  have h0 : ¬ IsZero x.pat := fun hz => by
    rw [val_zero hz, abs_zero] at h1
    exact absurd h1 (not_le.mpr (zpow_pos (by norm_num) _))
  obtain ⟨m, E, h⟩ := abs_arg x hf h0
  rw [← C18_abs_val] at h1 h2
  have g1 : E < -492 := h.exp_lt (by rw [zpow_neg, ← one_div]; exact_mod_cast h2) (by norm_num)
  obtain ⟨s, s1, s2⟩ := sin_small hf h0 h g1
  refine ⟨s, s1, ?_⟩
  rw [s2, if_pos]
  rcases (by have := h.E_range; omega : -262142 < E ∨ E = -262142) with hE | hE
  · exact h.m_ge hE
  · by_contra hm
    push Not at hm
    rw [h.val_eq, hE] at h1
    have e : (2 : ℝ) ^ (-262142 : ℤ) = 2 ^ 236 * 2 ^ (-262142 - 236 : ℤ) := by
      rw [← zpow_natCast, ← zpow_add₀ (by norm_num)]
      congr 1
    rw [e] at h1
    have := le_of_mul_le_mul_right h1 (zpow_pos (by norm_num) _)
    have hm' : (m : ℝ) < 2 ^ 236 := by exact_mod_cast hm
    exact absurd this (not_le.mpr hm')

/-- `2^-1000` -/
def twoPowNeg1000 : F256 := ⟨⟨BitVec.ofNat 128 ((262143 - 1000) * 2 ^ 108), 0⟩⟩

theorem val_twoPowNeg1000 : val twoPowNeg1000.pat = 1 / 2 ^ 1000 := by
  rw [val, show signBit twoPowNeg1000.pat = 0 by decide, show significandOf twoPowNeg1000.pat = 2 ^ 236 by decide,
    show quantumExp twoPowNeg1000.pat = -1236 by decide]
  norm_num

/-- C52 is false: the sine of `2^-1000` is computed as `2^-492`, which is more than `2^200` units in the last place off. -/
theorem C52_counterexample : IsFin twoPowNeg1000.pat ∧
    ¬ WithinUlps (2 ^ 200) (Real.sin (val twoPowNeg1000.pat)) twoPowNeg1000.sin := by
  refine ⟨by decide, ?_⟩
  rintro ⟨z, hz, -, hb⟩
  have e : twoPowNeg1000.sin = some ⟨⟨BitVec.ofNat 128 ((262143 - 492) * 2 ^ 108), 0⟩⟩ := by decide +kernel
  rw [e, Option.some_inj] at hz
  subst hz
  have hs := Real.sin_le (x := val twoPowNeg1000.pat) (by rw [val_twoPowNeg1000]; positivity)
  rw [val_twoPowNeg1000] at hb hs
  rw [val, show signBit (F256.mk ⟨BitVec.ofNat 128 ((262143 - 492) * 2 ^ 108), 0⟩).pat = 0 by decide,
    show significandOf (F256.mk ⟨BitVec.ofNat 128 ((262143 - 492) * 2 ^ 108), 0⟩).pat = 2 ^ 236 by decide,
    show quantumExp (F256.mk ⟨BitVec.ofNat 128 ((262143 - 492) * 2 ^ 108), 0⟩).pat = -728 by decide] at hb
  have h1 := (le_abs_self _).trans hb
  have h2 : (2 : ℝ) ^ 200 * 2 ^ (-728 : ℤ) < (-1) ^ 0 * (2 ^ 236 : ℕ) * 2 ^ (-728 : ℤ) - 1 / 2 ^ 1000 := by norm_num
  linarith

/-- C59: the joint function gives the same results, bit for bit, as the two single functions. -/
theorem C59_sin_cos (x : F256) : x.sinCos = x.sin.bind fun s => x.cos.map fun c => (s, c) := by
  unfold F256.sinCos F256.sin F256.cos
  split
  · split <;> rfl
  · cases reduce x.abs with
    | none => rfl
    | some r =>
      obtain ⟨q, Y⟩ := r
      simp only [approxSinCos_eq, Option.bind_eq_bind, Option.bind_some]
      have hs : x.sign = 0 ∨ x.sign = 1 := by
        have := sign_cases x
        omega
      rcases hs with g | g <;> rw [g] <;> rcases q with _ | _ | _ | _ | q <;> rfl

end Verif.Props
