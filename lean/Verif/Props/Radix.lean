import Verif.Props.IntText

/-!
# C56: `Num::from_str_radix`
-/

namespace Verif.Props

open Verif Spec

/-- C56: `from_str_radix` accepts only the radix 10, and then exactly the numbers and words accepted by `from_str` (see `C41_partial`). -/
theorem C56_radix_ok (s : List (BitVec 8)) (radix : ℕ) : (∃ f, F256.fromStrRadix s radix = some (.ok f)) ↔
    radix = 10 ∧ Accepted s := by
  rw [← (C41_from_str s).2.1]
  unfold F256.fromStrRadix
  by_cases h : radix = 10
  · rw [if_neg (not_not.mpr h)]
    exact ⟨fun g => ⟨h, g⟩, fun g => g.2⟩
  · rw [if_pos h]
    exact ⟨fun ⟨f, g⟩ => (nomatch g), fun g => absurd g.1 h⟩

/-- C56: every other radix is answered by the error for invalid literals, whatever the string. -/
theorem C56_radix_error (s : List (BitVec 8)) {radix : ℕ} (h : radix ≠ 10) : F256.fromStrRadix s radix = some (.error .invalid) := by
  unfold F256.fromStrRadix
  rw [if_pos h]

/-- C56: with the radix 10, numbers with up to 71 digits and moderate exponents are correctly rounded. -/
theorem C56_radix_value {s : List (BitVec 8)} {L : DecLit} (hL : L.Lenient) (hs : L.text = codes s)
    (hwrap : L.expo.natAbs + L.ip.length + L.fp.length < 2 ^ 31) {m : ℕ} {j : ℤ}
    (hv : L.absVal = m * 10 ^ j) (hm10 : m % 10 ≠ 0) (hm : m < 2 ^ 237) (hj : j.natAbs ≤ 102) :
    ∃ f, F256.fromStrRadix s 10 = some (.ok f) ∧ IsRNE (value L) f.pat := by
  obtain ⟨f, h1, h2⟩ := C42_short hL hs hwrap hv hm10 hm hj
  refine ⟨f, ?_, h2⟩
  unfold F256.fromStrRadix
  rw [if_neg (by simp), h1]

/-- C56: with the radix 10, the decimal digits of every `i128` give the number itself. -/
theorem C56_radix_i128 (n : BitVec 128) : F256.fromStrRadix (intDec n.toInt) 10 = some (.ok (F256.fromI128 n)) := by
  unfold F256.fromStrRadix
  rw [if_neg (by simp), (C78_i128 n).2]

/-- "-7" is accepted with the radix 10 only. -/
example : F256.fromStrRadix [45#8, 55#8] 10 = some (.ok (F256.fromI128 (-7))) ∧
    F256.fromStrRadix [45#8, 55#8] 16 = some (.error .invalid) := by
  have h : intDec (-7) = [45#8, 55#8] := by simp [intDec, decText]
  exact ⟨h ▸ C56_radix_i128 (-7), C56_radix_error _ (by norm_num)⟩

end Verif.Props
