import Verif.Proofs.ToStrWideRead
import Verif.Props.ToStr

/-!
# C44 over the whole range: formatting with `{}`, `{:e}` and `{:E}`
-/

namespace Verif.Props

open Verif Verif.Spec

/-- What is known of the text of a finite number other than zero. It is a decimal literal of the right sign, and the number it
denotes is within half a unit in the last place of `f`, up to `2^-260` units. If `f` is not a normal power of two, and the
distance is below half a unit, `f` is the correctly rounded value of the literal; and if it is not within `2^-15` units of a
number or a midpoint, and not a subnormal number below `10^-78979`, reading the text gives `f`. -/
def ClosesOn (f : F256) (s : List (BitVec 8)) : Prop :=
  ∃ L : DecLit, L.Proper ∧ L.text = codes s ∧ L.neg = decide (signBit f.pat = 1) ∧
    |L.absVal - abs (val f.pat)| ≤ (1 / 2 + 1 / 2 ^ 260) * 2 ^ quantumExp f.pat ∧
    ((expField f.pat = 0 ∨ fracField f.pat ≠ 0) → |L.absVal - abs (val f.pat)| < 1 / 2 * 2 ^ quantumExp f.pat →
      IsRNE (value L) f.pat ∧
      (1 / 2 ^ 15 * 2 ^ quantumExp f.pat ≤ |L.absVal - abs (val f.pat)| →
        |L.absVal - abs (val f.pat)| ≤ (1 / 2 - 1 / 2 ^ 15) * 2 ^ quantumExp f.pat →
        expField f.pat ≠ 0 ∨ (10 : ℝ) ^ (-78979 : ℤ) ≤ L.absVal → F256.fromStr s = some (.ok f)))

theorem closesOn {f : F256} (h1 : IsFin f.pat) (h0 : ¬IsZero f.pat) :
    ∃ d : DecRepr, DecRepr.shortestFromF256 f = some d ∧ ∀ s L, IsText s L d → ClosesOn f s := by
  obtain ⟨d, hd, h⟩ := readBackWide h1 h0
  refine ⟨d, hd, fun s L hT => ?_⟩
  obtain ⟨a1, a2, a3⟩ := h s L hT
  refine ⟨L, hT.proper, hT.text, a1, a2, fun b1 b2 => ?_⟩
  obtain ⟨c1, c2⟩ := a3 b1 b2
  refine ⟨c1, fun e1 e2 e3 => c2 e1 e2 ?_⟩
  rcases e3 with e3 | e3
  · refine ten_le_small.trans ?_
    have hv : |val f.pat| = significandOf f.pat * (2 : ℝ) ^ quantumExp f.pat := by
      rw [val, mul_assoc, abs_mul, abs_pow, abs_neg, abs_one, one_pow, one_mul, abs_of_nonneg (by positivity)]
    have hq : -262378 ≤ quantumExp f.pat := by unfold quantumExp; split_ifs <;> omega
    have hs : 2 ≤ significandOf f.pat / 2 ^ 200 := by unfold significandOf; rw [if_neg e3]; omega
    have hs' : 2 ^ 201 ≤ significandOf f.pat := by omega
    have hs'' : (2 : ℝ) ^ 201 ≤ significandOf f.pat := by exact_mod_cast hs'
    have hQ : (0 : ℝ) < 2 ^ quantumExp f.pat := zpow_pos (by norm_num) _
    have k1 : (2 : ℝ) ^ (-262200 : ℤ) ≤ 2 ^ 178 * 2 ^ quantumExp f.pat := by
      rw [← zpow_natCast, ← zpow_add₀ (by norm_num)]
      refine zpow_le_zpow_right₀ (by norm_num) ?_
      push_cast
      omega
    have k2 : (2 : ℝ) ^ 178 + 1 ≤ 2 ^ 201 := by norm_num
    rw [hv] at b2
    obtain ⟨b3, -⟩ := abs_lt.mp b2
    nlinarith
  · exact e3

theorem notSpecial_of {f : F256} (h1 : IsFin f.pat) (h0 : ¬IsZero f.pat) : f.isSpecial = false := by
  have hlt := pat_lt f
  rw [Bool.eq_false_iff, Ne, isSpecial_iff]
  unfold IsZero IsFin expField fracField at *
  unfold INF
  omega

/-- `{}`, for every finite number other than zero.

Missing: powers of two (`C44_counterexample_pow2`), texts of numbers near a number or a midpoint (in the middle range see
`C44_display_partial`), subnormal numbers below `10^-78979`. -/
theorem C44_wide_display_partial {f : F256} (h1 : IsFin f.pat) (h0 : ¬IsZero f.pat) : ∃ s, f.display = some s ∧ ClosesOn f s := by
  obtain ⟨d, h2, h3⟩ := closesOn h1 h0
  obtain ⟨s, L, h4, h5⟩ := display_text d
  refine ⟨s, ?_, h3 s L h5⟩
  unfold F256.display F256.formatShortest
  rw [notSpecial_of h1 h0, if_neg (by simp), h2]
  exact h4

/-- `{:e}` and `{:E}`. Missing: as for `C44_wide_display_partial` -/
theorem C44_wide_exp_partial {f : F256} (h1 : IsFin f.pat) (h0 : ¬IsZero f.pat) {m : BitVec 8} (hm : m = 101#8 ∨ m = 69#8) :
    ∃ s, f.scientific m = some s ∧ ClosesOn f s := by
  obtain ⟨d, h2, h3⟩ := closesOn h1 h0
  obtain ⟨s, L, h4, h5⟩ := scientific_text d hm
  refine ⟨s, ?_, h3 s L h5⟩
  unfold F256.scientific F256.formatScientificShortest
  rw [notSpecial_of h1 h0, if_neg (by simp), h2]
  exact h4

/-- Formatting with `{}`, `{:e}` and `{:E}` never panics, whatever the number. -/
theorem C44_total (f : F256) : (∃ s, f.display = some s) ∧ ∀ m : BitVec 8, m = 101#8 ∨ m = 69#8 → ∃ s, f.scientific m = some s := by
  by_cases h : IsFin f.pat ∧ ¬IsZero f.pat
  · exact ⟨(C44_wide_display_partial h.1 h.2).imp fun _ h => h.1, fun m hm => (C44_wide_exp_partial h.1 h.2 hm).imp fun _ h => h.1⟩
  · have hsp : f.isSpecial = true := by
      have hlt := pat_lt f
      rw [isSpecial_iff]
      unfold IsZero IsFin expField fracField at h
      unfold INF
      omega
    unfold F256.display F256.scientific
    rw [if_pos hsp]
    refine ⟨?_, fun m _ => ?_⟩
    · split_ifs <;> exact ⟨_, rfl⟩
    · rw [if_pos hsp]
      split_ifs <;> exact ⟨_, rfl⟩

/-- The number next to `10^320` -/
def wide320 : F256 := ⟨U256.new 0x4042603085e53e599c6ebcd422b0601a#128 0x8cc80439d73d8f718c5da9e1557afc38#128⟩

set_option exponentiation.threshold 2000 in
/-- The hypotheses and the further conditions are met by this number: its text is `1e320`, and the distance from `10^320` is
between `2^-15` and `1/2 - 2^-15` units in the last place. -/
example : IsFin wide320.pat ∧ ¬IsZero wide320.pat ∧ fracField wide320.pat ≠ 0 ∧ quantumExp wide320.pat = 827 ∧
    wide320.scientific 101#8 = some [49#8, 101#8, 51#8, 50#8, 48#8] ∧ 10 ^ 320 < significandOf wide320.pat * 2 ^ 827 ∧
    2 ^ 827 ≤ 2 ^ 15 * (significandOf wide320.pat * 2 ^ 827 - 10 ^ 320) ∧ 2 ^ 15 * (significandOf wide320.pat * 2 ^ 827 - 10 ^ 320) ≤ (2 ^ 14 - 1) * 2 ^ 827 := by
  decide +kernel

end Verif.Props
