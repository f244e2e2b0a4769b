import Verif.Proofs.Sqrt
import Verif.Props.Laws

/-!
# Square root (C11), its monotonicity (C34)
-/

namespace Verif.Props

open Verif Spec BigUInt

theorem cmp_neg_zero (x : F256) :
    (UInt.cmp x.bits F256.NEG_ZERO.bits == .gt) = true ↔ 2 ^ 255 < x.pat := by
  rw [cmp256, beq_iff_eq, Nat.compare_eq_gt, show nat256 F256.NEG_ZERO.bits = 2 ^ 255 by decide,
    pat_eq]

theorem special_bits_iff (x : F256) : isSpecialBits x.bits = true ↔ x.pat = 0 ∨ INF ≤ x.pat := by
  unfold isSpecialBits
  rw [special_iff, pat_eq]

/-- C11. The square root of a positive number is correctly rounded. -/
theorem C11_sqrt (x : F256) (hf : IsFin x.pat) (hx : 0 < val x.pat) :
    ∃ z, F256.sqrt x = some z ∧ IsRNE (Real.sqrt (val x.pat)) z.pat := by
  have hs := val_pos_sign hx
  have hlt := pat_lt x
  rw [signBit_eq hlt] at hs
  have hf' := (fin_iff _).mp hf
  have hm : x.pat % 2 ^ 255 = x.pat := by omega
  have hz : x.pat ≠ 0 := by
    intro h
    rw [h] at hx
    exact absurd hx (by rw [val_zero (by decide)]; exact lt_irrefl _)
  rw [hm] at hf'
  obtain ⟨z, h1, h2⟩ := sqrtFinite_spec (A := x.bits) hz hf'
  unfold F256.sqrt
  rw [if_neg (fun h => by have := (cmp_neg_zero x).mp h; omega),
    if_neg (fun h => by have := (special_bits_iff x).mp h; omega)]
  refine ⟨z, h1, ?_⟩
  have e : (mag (nat256 x.bits) : ℝ) / 2 ^ 262378 = val x.pat := by
    have := abs_val x.pat
    rw [abs_of_pos hx] at this
    rw [← pat_eq, ← this, mul_div_cancel_right₀]
    exact (pow_pos (by norm_num) _).ne'
  rw [e] at h2
  have := RoundsTo.isRNE (q := Real.sqrt (val x.pat)) (s := 0)
    (by rw [abs_of_nonneg (Real.sqrt_nonneg _)]; exact h2) (by norm_num) (fun _ => rfl)
    (fun h => absurd h (not_lt.mpr (Real.sqrt_nonneg _)))
  rw [Nat.zero_mul, Nat.zero_add] at this
  exact this

/-- C11. Zeros keep their sign, positive infinity is its own square root, a NaN gives a NaN and any
other number with negative sign gives NaN. -/
theorem C11_special (x : F256) :
    (IsZero x.pat → F256.sqrt x = some x) ∧
    (IsInf x.pat → signBit x.pat = 0 → F256.sqrt x = some x) ∧
    (IsNaN x.pat → ∃ z, F256.sqrt x = some z ∧ IsNaN z.pat) ∧
    (¬ IsZero x.pat → signBit x.pat = 1 → F256.sqrt x = some F256.NAN) := by
  have hlt := pat_lt x
  rw [isZero_iff, isInf_iff, isNaN_iff, signBit_eq hlt]
  have hI := INF_lt
  have hN : ∀ y : F256, 2 ^ 255 < y.pat → F256.sqrt y = some F256.NAN := fun y hy => by
    unfold F256.sqrt
    rw [if_pos ((cmp_neg_zero y).mpr hy)]
  have hS : ∀ y : F256, ¬ 2 ^ 255 < y.pat → (y.pat = 0 ∨ INF ≤ y.pat) → F256.sqrt y = some y :=
    fun y hy h2 => by
    unfold F256.sqrt
    rw [if_neg (fun h => hy ((cmp_neg_zero y).mp h)), if_pos ((special_bits_iff y).mpr h2)]
  refine ⟨fun h => hS x (by omega) ?_, fun h h' => hS x (by omega) (Or.inr (by omega)), fun h => ?_,
    fun h h' => hN x (by omega)⟩
  · rcases Nat.lt_or_ge x.pat INF with h' | h'
    · left; omega
    · exact Or.inr h'
  · by_cases h' : 2 ^ 255 < x.pat
    · exact ⟨_, hN x h', by decide⟩
    · exact ⟨x, hS x h' (Or.inr (by omega)), (isNaN_iff _).mpr h⟩

/-- C11. The square root never panics. -/
theorem C11_total (x : F256) : ∃ z, F256.sqrt x = some z := by
  obtain ⟨h1, h2, h3, h4⟩ := C11_special x
  by_cases hz : IsZero x.pat
  · exact ⟨_, h1 hz⟩
  have hs : signBit x.pat = 0 ∨ signBit x.pat = 1 := by unfold signBit; omega
  rcases hs with hs | hs
  · by_cases hf : IsFin x.pat
    · have : 0 < val x.pat := by
        have hne := fun h => hz ((val_eq_zero_iff hf).mp h)
        refine lt_of_le_of_ne ?_ (Ne.symm hne)
        rw [val_eq, hs, pow_zero, one_mul]
        exact div_nonneg (Nat.cast_nonneg _) (pow_nonneg (by norm_num) _)
      obtain ⟨z, h, -⟩ := C11_sqrt x hf this
      exact ⟨z, h⟩
    · rcases inf_or_nan hf with hi | hn
      · exact ⟨_, h2 hi hs⟩
      · obtain ⟨z, h, -⟩ := h3 hn
        exact ⟨z, h⟩
  · exact ⟨_, h4 hz hs⟩

/-- C34. The square root is monotone. -/
theorem C34_sqrt_mono (x y a b : F256) (fx : IsFin x.pat) (fy : IsFin y.pat)
    (hx : 0 < val x.pat) (hxy : val x.pat ≤ val y.pat)
    (ha : F256.sqrt x = some a) (hb : F256.sqrt y = some b) : extVal a.pat ≤ extVal b.pat := by
  obtain ⟨a', h1, h2⟩ := C11_sqrt x fx hx
  obtain ⟨b', h3, h4⟩ := C11_sqrt y fy (lt_of_lt_of_le hx hxy)
  rw [ha] at h1
  rw [hb] at h3
  cases h1
  cases h3
  exact IsRNE.mono h2 h4 (Real.sqrt_le_sqrt hxy)

/-- The square root of a number that is the square of a representable positive number is exact. -/
theorem C11_exact (x y : F256) (fx : IsFin x.pat) (fy : IsFin y.pat) (hy : 0 < val y.pat)
    (h : val x.pat = val y.pat * val y.pat) : F256.sqrt x = some y := by
  obtain ⟨z, h1, h2⟩ := C11_sqrt x fx (by rw [h]; exact mul_pos hy hy)
  rw [h, Real.sqrt_mul_self hy.le] at h2
  rw [h1, pat_inj (IsRNE.unique h2 (isRNE_self (pat_lt y) fy) hy.ne')]

/-! ## Concrete cases -/

example : F256.sqrt F256.ONE = some F256.ONE := by decide +kernel
example : F256.sqrt ⟨⟨0x40001000000000000000000000000000, 0⟩⟩ = some F256.TWO := by decide +kernel
/-- an inexact case: the square root of two -/
example : F256.sqrt F256.TWO =
    some ⟨⟨0x3ffff6a09e667f3bcc908b2fb1366ea9, 0x57d3e3adec17512775099da2f590b066⟩⟩ := by
  decide +kernel
example : F256.sqrt F256.NEG_ZERO = some F256.NEG_ZERO ∧ F256.sqrt F256.NEG_ONE = some F256.NAN ∧
    F256.sqrt F256.INFINITY = some F256.INFINITY := by decide +kernel
/-- a subnormal operand -/
example : F256.sqrt F256.MIN_GT_ZERO = some ⟨⟨0x1ff8a000000000000000000000000000, 0⟩⟩ := by
  decide +kernel

end Verif.Props
