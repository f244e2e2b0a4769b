import Verif.Proofs.ToStrFinal
import Verif.Props.Basic
import Verif.Props.Compare

/-!
# C44: formatting with `{}`, `{:e}` and `{:E}`, and reading back
-/

namespace Verif.Props

open Verif Verif.Spec

/-- The numbers C44 is proved for: normal numbers which are not powers of two (`fracField ≠ 0`), of a magnitude from
`2^-471` to `2^604`; odd significands whose upper midpoint is a multiple of `5^56` are excluded when the number is a multiple of 4. -/
structure Printable (N : ℕ) : Prop where
  fin : IsFin N
  frac : fracField N ≠ 0
  lower : -707 ≤ quantumExp N
  upper : quantumExp N ≤ 367
  mid : 2 ≤ quantumExp N → significandOf N % 2 = 1 → ¬5 ^ 56 ∣ 2 * significandOf N + 1

instance (N : ℕ) : Decidable (Printable N) :=
  decidable_of_iff (IsFin N ∧ fracField N ≠ 0 ∧ -707 ≤ quantumExp N ∧ quantumExp N ≤ 367 ∧
      (2 ≤ quantumExp N → significandOf N % 2 = 1 → ¬5 ^ 56 ∣ 2 * significandOf N + 1))
    ⟨fun ⟨a, b, c, d, e⟩ => ⟨a, b, c, d, e⟩, fun ⟨a, b, c, d, e⟩ => ⟨a, b, c, d, e⟩⟩

theorem Printable.notSpecial {f : F256} (h : Printable f.pat) : f.isSpecial = false := by
  rw [Bool.eq_false_iff, Ne, isSpecial_iff]
  have h1 := h.fin
  have h2 := h.frac
  unfold IsFin expField at h1
  unfold fracField at h2
  unfold INF
  omega

/-- The text is a decimal literal, the number it denotes is one whose correctly rounded conversion is `f`, and reading
it gives `f`, if the number is not within `2^-15` units in the last place of a midpoint, or if it is short. -/
def ReadsBack (f : F256) (s : List (BitVec 8)) : Prop :=
  ∃ L : DecLit, L.Proper ∧ L.text = codes s ∧ IsRNE (value L) f.pat ∧
    ((|L.absVal - abs (val f.pat)| ≤ (1 / 2 - 1 / 2 ^ 15) * 2 ^ quantumExp f.pat ∨
        ∃ (m : ℕ) (j : ℤ), L.absVal = m * 10 ^ j ∧ m < 2 ^ 237 ∧ j.natAbs ≤ 102 ∧ m % 10 ≠ 0) →
      F256.fromStr s = some (.ok f))

/-- `{}`.

Missing: powers of two (`C44_counterexample_pow2`), the excluded midpoints (`C44_counterexample_mid`), zeros
(`C44_counterexample_zero`), magnitudes beyond the range (there the tables are used in another way, or the significand is subnormal), and texts whose number is close to a midpoint, where reading is not always exact. -/
theorem C44_display_partial {f : F256} (h : Printable f.pat) : ∃ s, f.display = some s ∧ ReadsBack f s := by
  obtain ⟨d, h1, h2⟩ := readBack h.fin h.frac h.lower h.upper h.mid
  obtain ⟨s, L, h3, h4⟩ := display_text d
  obtain ⟨h5, h6⟩ := h2 s L h4
  refine ⟨s, ?_, L, h4.proper, h4.text, h5, h6⟩
  unfold F256.display F256.formatShortest
  rw [h.notSpecial, if_neg (by simp), h1]
  exact h3

/-- `{:e}` and `{:E}`. Missing: as for `C44_display_partial` -/
theorem C44_exp_partial {f : F256} (h : Printable f.pat) {m : BitVec 8} (hm : m = 101#8 ∨ m = 69#8) :
    ∃ s, f.scientific m = some s ∧ ReadsBack f s := by
  obtain ⟨d, h1, h2⟩ := readBack h.fin h.frac h.lower h.upper h.mid
  obtain ⟨s, L, h3, h4⟩ := scientific_text d hm
  obtain ⟨h5, h6⟩ := h2 s L h4
  refine ⟨s, ?_, L, h4.proper, h4.text, h5, h6⟩
  unfold F256.scientific F256.formatScientificShortest
  rw [h.notSpecial, if_neg (by simp), h1]
  exact h3

/-- Infinities and NaNs: `inf`, `-inf` and `NaN` are read back as infinity of the same sign and as a NaN. -/
theorem C44_special {f : F256} (h : ¬IsFin f.pat) {s : List (BitVec 8)}
    (hs : f.display = some s ∨ ∃ m, f.scientific m = some s) :
    ∃ g, F256.fromStr s = some (.ok g) ∧ (IsNaN f.pat → IsNaN g.pat) ∧ (¬IsNaN f.pat → g = f) := by
  have hlt := pat_lt f
  have hsp : f.isSpecial = true := by
    rw [isSpecial_iff]
    unfold IsFin expField at h
    unfold INF
    omega
  have hz : f.eqZero = false := by
    rw [Bool.eq_false_iff, Ne, eqZero_iff]
    unfold IsFin expField at h
    omega
  have hs' : s = if f.isNan then [78#8, 97#8, 78#8] else (if f.isSignPositive then [] else [45#8]) ++ [105#8, 110#8, 102#8] := by
    rcases hs with hs | ⟨m, hs⟩
    · unfold F256.display at hs
      rw [if_pos hsp, hz, if_neg (by simp)] at hs
      split at hs <;> rename_i hn
      · rw [if_pos hn]; exact (Option.some.inj hs).symm
      · rw [if_neg hn]; exact (Option.some.inj hs).symm
    · unfold F256.scientific at hs
      rw [if_pos hsp, hz, if_neg (by simp)] at hs
      split at hs <;> rename_i hn
      · rw [if_pos hn]; exact (Option.some.inj hs).symm
      · rw [if_neg hn]; exact (Option.some.inj hs).symm
  by_cases hn : IsNaN f.pat
  · rw [if_pos ((nan_spec f).mpr hn)] at hs'
    exact ⟨F256.NAN, by rw [hs']; decide +kernel, fun _ => by decide, fun h => absurd hn h⟩
  · rw [if_neg (fun h => hn ((nan_spec f).mp h))] at hs'
    have hp : f.pat = signBit f.pat * 2 ^ 255 + INF := by
      unfold IsNaN at hn
      unfold IsFin at h
      unfold expField fracField at *
      unfold signBit INF
      omega
    have hsb : signBit f.pat = 0 ∨ signBit f.pat = 1 := by unfold signBit; omega
    have hsgn : f.sign = signBit f.pat := by rw [sign_eq, ← signBit_eq hlt]
    rcases hsb with e | e
    · refine ⟨signedInf 0, ?_, fun h => absurd h hn, fun _ => pat_inj ?_⟩
      · rw [hs', if_pos ((C18_sign_predicates f).1.mpr e)]
        decide +kernel
      · rw [signedInf_pat (by omega), hp, e]
    · refine ⟨signedInf 1, ?_, fun h => absurd h hn, fun _ => pat_inj ?_⟩
      · rw [hs', if_neg (fun h => by rw [(C18_sign_predicates f).1.mp h] at e; omega)]
        decide +kernel
      · rw [signedInf_pat (by omega), hp, e]

example : ¬IsFin F256.NEG_INFINITY.pat ∧ F256.NEG_INFINITY.display = some [45#8, 105#8, 110#8, 102#8] := by decide +kernel

/-- The power of two `2^-116` (significand `2^236`, exponent of the last bit `-352`) -/
def pow2m116 : F256 := ⟨U256.new 0x3ff8b000000000000000000000000000#128 0#128⟩

set_option exponentiation.threshold 2000 in
/-- `2^-116` is printed as a number which is nearer to its predecessor, and this is what is read. -/
theorem C44_counterexample_pow2 : ∃ s g, val pow2m116.pat = 1 / 2 ^ 116 ∧ pow2m116.display = some s ∧
    F256.fromStr s = some (.ok g) ∧ g.pat + 1 = pow2m116.pat := by
  refine ⟨pow2m116.display.getD [], ⟨U256.new 0x3ff8afffffffffffffffffffffffffff#128 0xffffffffffffffffffffffffffffffff#128⟩, ?_,
    by decide +kernel, by decide +kernel, by decide +kernel⟩
  unfold val significandOf quantumExp
  rw [show signBit pow2m116.pat = 0 by decide +kernel, show expField pow2m116.pat = 262027 by decide +kernel,
    show fracField pow2m116.pat = 0 by decide +kernel]
  norm_num

/-- An odd significand; the midpoint above is a multiple of `5^101` -/
def mid212 : F256 := ⟨U256.new 0x401bfbc1d4c657bafae1558174a88faa#128 0x91008b285f1e1b7ba4a48407f30ea1db#128⟩

/-- This number is printed as the midpoint above (because the division by a power of five goes wrong, see
`C38_counterexample`), which is read as its successor. -/
theorem C44_counterexample_mid : ∃ s g, mid212.display = some s ∧
    F256.fromStr s = some (.ok g) ∧ g.pat = mid212.pat + 1 := by
  exact ⟨mid212.display.getD [], ⟨U256.new 0x401bfbc1d4c657bafae1558174a88faa#128 0x91008b285f1e1b7ba4a48407f30ea1dc#128⟩,
    by decide +kernel, by decide +kernel, by decide +kernel⟩

/-- `-0` is printed as `-0`, which is read as `+0`. -/
theorem C44_counterexample_zero : ∃ s g, F256.NEG_ZERO.display = some s ∧ F256.fromStr s = some (.ok g) ∧
    signBit F256.NEG_ZERO.pat = 1 ∧ signBit g.pat = 0 := by
  exact ⟨[45#8, 48#8], F256.ZERO, by decide +kernel, by decide +kernel, by decide +kernel, by decide +kernel⟩

/-- The hypotheses are met by the number next to `0.1`, the text is `0.1`, and this is short. -/
def tenth : F256 := ⟨U256.new 0x3fffb999999999999999999999999999#128 0x9999999999999999999999999999999a#128⟩

example : Printable tenth.pat := by decide +kernel
example : tenth.display = some [48#8, 46#8, 49#8] := by decide +kernel
example : F256.fromStr [48#8, 46#8, 49#8] = some (.ok tenth) := by decide +kernel

end Verif.Props
