import Verif.Proofs.Order
import Mathlib.Order.Basic

/-!
# C12-C16: equality, ordering, min/max, clamp
-/

namespace Verif.Props

open Spec

theorem nan_spec (x : F256) : x.isNan = true ↔ IsNaN x.pat := by rw [nan_iff, isNaN_iff]

theorem spos_zero {x : F256} (h : x.eqZero = true) : spos x.pat = 0 := by
  rw [eqZero_iff] at h
  unfold spos; rw [h]; split <;> rfl

theorem spos_inj {N M : ℕ} (hN : N < 2 ^ 256) (hM : M < 2 ^ 256) (h : spos N = spos M)
    (h0 : ¬ (N % 2 ^ 255 = 0 ∧ M % 2 ^ 255 = 0)) : N = M := by
  unfold spos signBit at h
  split at h <;> split at h <;> omega

theorem beq_pat (x y : F256) : UInt.beq x.bits y.bits = decide (x.pat = y.pat) :=
  UInt.beq_eq x.bits y.bits

/-- C12. `==` is equality of the denoted extended real values, and false for NaN. -/
theorem C12_eq_iff (x y : F256) :
    F256.eq x y = true ↔ ¬ IsNaN x.pat ∧ ¬ IsNaN y.pat ∧ extVal x.pat = extVal y.pat := by
  rw [F256.eq]
  by_cases hn : (x.isNan || y.isNan) = true
  · rw [if_pos hn, Bool.or_eq_true, nan_spec, nan_spec] at *
    constructor
    · intro h; cases h
    · rintro ⟨h1, h2, -⟩; exact (hn.elim h1 h2).elim
  · rw [if_neg hn]
    rw [Bool.or_eq_true, nan_spec, nan_spec, not_or] at hn
    obtain ⟨hx, hy⟩ := hn
    by_cases hz : (x.eqZero && y.eqZero) = true
    · rw [if_pos hz]
      rw [Bool.and_eq_true] at hz
      refine ⟨fun _ => ⟨hx, hy, ?_⟩, fun _ => rfl⟩
      rw [extVal_eq_iff hx hy, spos_zero hz.1, spos_zero hz.2]
    · rw [if_neg hz, beq_pat, decide_eq_true_iff]
      rw [Bool.and_eq_true, eqZero_iff, eqZero_iff] at hz
      constructor
      · intro h; exact ⟨hx, hy, by rw [h]⟩
      · rintro ⟨-, -, h⟩
        rw [extVal_eq_iff hx hy] at h
        exact spos_inj (pat_lt x) (pat_lt y) h hz

theorem C12_symm (x y : F256) : F256.eq x y = F256.eq y x := by
  rw [Bool.eq_iff_iff, C12_eq_iff, C12_eq_iff]
  constructor <;> rintro ⟨a, b, c⟩ <;> exact ⟨b, a, c.symm⟩

theorem C12_trans (x y z : F256) (h1 : F256.eq x y = true) (h2 : F256.eq y z = true) :
    F256.eq x z = true := by
  rw [C12_eq_iff] at *
  exact ⟨h1.1, h2.2.1, h1.2.2.trans h2.2.2⟩

/-- `==` is reflexive except on NaN. -/
theorem C12_refl (x : F256) : F256.eq x x = true ↔ ¬ IsNaN x.pat := by
  rw [C12_eq_iff]; tauto

/-- +0 == -0, though the patterns differ. -/
theorem C12_zeros : F256.eq F256.ZERO F256.NEG_ZERO = true ∧ F256.ZERO ≠ F256.NEG_ZERO := by decide

-- the hypotheses of `C12_trans` are met by a non-trivial triple
example : F256.eq F256.ZERO F256.NEG_ZERO = true ∧ F256.eq F256.NEG_ZERO F256.ZERO = true := by
  decide
example : F256.eq F256.NAN F256.NAN = false ∧ F256.eq F256.ONE F256.TWO = false := by decide

/-! ## Ordering -/

theorem cmp_pat (x y : F256) : F256.totalCmp x y = compare x.negated.pat y.negated.pat :=
  UInt.cmp_eq x.negated.bits y.negated.bits

/-- C13. `partial_cmp` is `None` exactly for NaN. -/
theorem C13_none (x y : F256) : F256.partialCmp x y = none ↔ IsNaN x.pat ∨ IsNaN y.pat := by
  rw [← nan_spec, ← nan_spec, ← Bool.or_eq_true, F256.partialCmp]
  split
  · rename_i h; simp [h]
  · rename_i h
    split <;> simp [h]

/-- What the code computes for the order of the patterns: as signed positions, except that two
negative patterns come out reversed. -/
theorem totalCmp_spec (x y : F256) :
    (F256.totalCmp x y = .lt ↔
      if signBit x.pat = 1 ∧ signBit y.pat = 1 then x.pat % 2 ^ 255 < y.pat % 2 ^ 255
      else totalRank x.pat < totalRank y.pat) ∧
    (F256.totalCmp x y = .eq ↔ x = y) ∧
    (F256.totalCmp x y = .gt ↔
      if signBit x.pat = 1 ∧ signBit y.pat = 1 then y.pat % 2 ^ 255 < x.pat % 2 ^ 255
      else totalRank y.pat < totalRank x.pat) := by
  have hx := pat_lt x
  have hy := pat_lt y
  have he : x = y ↔ x.pat = y.pat := ⟨fun h => by rw [h], pat_inj⟩
  rw [cmp_pat, pat_negated, pat_negated, he, Nat.compare_eq_lt, Nat.compare_eq_eq,
    Nat.compare_eq_gt]
  unfold totalRank signBit
  refine ⟨?_, by omega, ?_⟩ <;> (split_ifs <;> omega)

/-- C13 (partial: not for two negative operands). Unless both operands are negative,
`partial_cmp` is the order of the denoted extended reals.
Missing: two negative operands, where the code's order is reversed, see
`C13_both_negative` and `C13_counterexample`. -/
theorem C13_partial (x y : F256) (hx : ¬ IsNaN x.pat) (hy : ¬ IsNaN y.pat)
    (h : signBit x.pat = 0 ∨ signBit y.pat = 0) :
    (F256.partialCmp x y = some .lt ↔ extVal x.pat < extVal y.pat) ∧
    (F256.partialCmp x y = some .eq ↔ extVal x.pat = extVal y.pat) ∧
    (F256.partialCmp x y = some .gt ↔ extVal y.pat < extVal x.pat) := by
  have hn : ¬ (x.isNan || y.isNan) = true := by
    rw [Bool.or_eq_true, nan_spec, nan_spec, not_or]; exact ⟨hx, hy⟩
  rw [F256.partialCmp, if_neg hn, extVal_lt_iff hx hy, extVal_eq_iff hx hy, extVal_lt_iff hy hx]
  by_cases hz : (x.eqZero && y.eqZero) = true
  · rw [if_pos hz]
    rw [Bool.and_eq_true] at hz
    rw [spos_zero hz.1, spos_zero hz.2]
    simp
  · rw [if_neg hz]
    rw [Bool.and_eq_true, eqZero_iff, eqZero_iff] at hz
    have hx' := pat_lt x
    have hy' := pat_lt y
    obtain ⟨h1, h2, h3⟩ := totalCmp_spec x y
    rw [Option.some_inj, Option.some_inj, Option.some_inj, h1, h2, h3,
      if_neg (by omega), if_neg (by omega)]
    have he : x = y ↔ x.pat = y.pat := ⟨fun h => by rw [h], pat_inj⟩
    rw [he]
    unfold totalRank spos
    unfold signBit at *
    refine ⟨?_, ?_, ?_⟩ <;> (split <;> split <;> omega)

/-- C13, the remaining case as the code has it: for two negative operands the order is exactly
the reverse of the order of the denoted values. -/
theorem C13_both_negative (x y : F256) (hx : ¬ IsNaN x.pat) (hy : ¬ IsNaN y.pat)
    (hsx : signBit x.pat = 1) (hsy : signBit y.pat = 1) :
    (F256.partialCmp x y = some .lt ↔ extVal y.pat < extVal x.pat) ∧
    (F256.partialCmp x y = some .eq ↔ extVal x.pat = extVal y.pat) ∧
    (F256.partialCmp x y = some .gt ↔ extVal x.pat < extVal y.pat) := by
  have hn : ¬ (x.isNan || y.isNan) = true := by
    rw [Bool.or_eq_true, nan_spec, nan_spec, not_or]; exact ⟨hx, hy⟩
  rw [F256.partialCmp, if_neg hn, extVal_lt_iff hx hy, extVal_eq_iff hx hy, extVal_lt_iff hy hx]
  by_cases hz : (x.eqZero && y.eqZero) = true
  · rw [if_pos hz]
    rw [Bool.and_eq_true] at hz
    rw [spos_zero hz.1, spos_zero hz.2]
    simp
  · rw [if_neg hz]
    rw [Bool.and_eq_true, eqZero_iff, eqZero_iff] at hz
    have hx' := pat_lt x
    have hy' := pat_lt y
    obtain ⟨h1, h2, h3⟩ := totalCmp_spec x y
    rw [Option.some_inj, Option.some_inj, Option.some_inj, h1, h2, h3,
      if_pos ⟨hsx, hsy⟩, if_pos ⟨hsx, hsy⟩]
    have he : x = y ↔ x.pat = y.pat := ⟨fun h => by rw [h], pat_inj⟩
    rw [he]
    unfold spos
    unfold signBit at *
    rw [if_neg (by omega), if_neg (by omega)]
    refine ⟨?_, ?_, ?_⟩ <;> omega

/-- -1 < -2 in the code, although the denoted values are ordered the other way. -/
theorem C13_counterexample : F256.lt F256.ONE.negated F256.TWO.negated = true ∧
    extVal F256.TWO.negated.pat < extVal F256.ONE.negated.pat := by
  refine ⟨by decide, ?_⟩
  rw [extVal_lt_iff (by decide) (by decide)]
  decide

/-- The four comparison operators follow `partial_cmp`. -/
theorem C13_operators (x y : F256) :
    (F256.lt x y = true ↔ F256.partialCmp x y = some .lt) ∧
    (F256.gt x y = true ↔ F256.partialCmp x y = some .gt) ∧
    (F256.le x y = true ↔ F256.lt x y = true ∨ F256.eq x y = true) ∧
    (F256.ge x y = true ↔ F256.gt x y = true ∨ F256.eq x y = true) := by
  have key : F256.partialCmp x y = some .eq ↔ F256.eq x y = true := by
    rw [C12_eq_iff]
    by_cases hx : IsNaN x.pat
    · rw [(C13_none x y).mpr (Or.inl hx)]; simp [hx]
    by_cases hy : IsNaN y.pat
    · rw [(C13_none x y).mpr (Or.inr hy)]; simp [hy]
    by_cases h : signBit x.pat = 0 ∨ signBit y.pat = 0
    · rw [(C13_partial x y hx hy h).2.1]; exact ⟨fun e => ⟨hx, hy, e⟩, fun e => e.2.2⟩
    · rw [not_or] at h
      have h1 := (signBit_cases x.pat).resolve_left h.1
      have h2 := (signBit_cases y.pat).resolve_left h.2
      rw [(C13_both_negative x y hx hy h1 h2).2.1]; exact ⟨fun e => ⟨hx, hy, e⟩, fun e => e.2.2⟩
  refine ⟨?_, ?_, ?_, ?_⟩ <;> simp [F256.lt, F256.gt, F256.le, F256.ge, ← key]

example : ¬ IsNaN F256.ONE.pat ∧ ¬ IsNaN F256.NEG_ONE.pat ∧
    (signBit F256.ONE.pat = 0 ∨ signBit F256.NEG_ONE.pat = 0) := by decide
example : ¬ IsNaN F256.NEG_INFINITY.pat ∧ signBit F256.NEG_INFINITY.pat = 1 ∧
    ¬ IsNaN F256.NEG_ONE.pat ∧ signBit F256.NEG_ONE.pat = 1 := by decide

/-! ## total_cmp -/

/-- C14 (partial). `total_cmp` is a total order on bit patterns: reflexive and antisymmetric,
reversed by swapping, and transitive. -/
theorem C14_refl_antisymm (x y : F256) : F256.totalCmp x y = .eq ↔ x = y :=
  (totalCmp_spec x y).2.1

theorem C14_swap (x y : F256) : F256.totalCmp y x = (F256.totalCmp x y).swap := by
  rw [cmp_pat, cmp_pat, Nat.compare_swap]

theorem C14_trans (x y z : F256) (h1 : F256.totalCmp x y ≠ .gt) (h2 : F256.totalCmp y z ≠ .gt) :
    F256.totalCmp x z ≠ .gt := by
  rw [cmp_pat, Nat.compare_ne_gt] at *
  omega

/-- C14 (partial). Unless both operands have the sign bit set, `total_cmp` is the IEEE
`totalOrder`. Missing: two patterns with the sign bit set, ordered the wrong way round by the
code (`C14_both_negative`, `C14_counterexample`). -/
theorem C14_totalOrder_partial (x y : F256) (h : signBit x.pat = 0 ∨ signBit y.pat = 0) :
    F256.totalCmp x y = compare (totalRank x.pat) (totalRank y.pat) := by
  obtain ⟨h1, -, h3⟩ := totalCmp_spec x y
  rw [if_neg (by omega)] at h1 h3
  rcases lt_trichotomy (totalRank x.pat) (totalRank y.pat) with h | h | h
  · rw [h1.mpr h, compare_lt_iff_lt.mpr h]
  · rw [compare_eq_iff_eq.mpr h]
    cases hc : F256.totalCmp x y
    · have := h1.mp hc; omega
    · rfl
    · have := h3.mp hc; omega
  · rw [h3.mpr h, compare_gt_iff_gt.mpr h]

theorem C14_both_negative (x y : F256) (hx : signBit x.pat = 1) (hy : signBit y.pat = 1) :
    F256.totalCmp x y = compare (totalRank y.pat) (totalRank x.pat) := by
  obtain ⟨h1, -, h3⟩ := totalCmp_spec x y
  rw [if_pos ⟨hx, hy⟩] at h1 h3
  have ex : totalRank x.pat = -1 - ((x.pat % 2 ^ 255 : ℕ) : ℤ) := by
    rw [totalRank, if_neg (by omega)]
  have ey : totalRank y.pat = -1 - ((y.pat % 2 ^ 255 : ℕ) : ℤ) := by
    rw [totalRank, if_neg (by omega)]
  rw [ex, ey]
  rcases Nat.lt_trichotomy (x.pat % 2 ^ 255) (y.pat % 2 ^ 255) with h | h | h
  · rw [h1.mpr h, eq_comm, compare_lt_iff_lt]; omega
  · rw [eq_comm, compare_eq_iff_eq.mpr (by omega)]
    cases hc : F256.totalCmp x y
    · have := h1.mp hc; omega
    · rfl
    · have := h3.mp hc; omega
  · rw [h3.mpr h, eq_comm, compare_gt_iff_gt]; omega

/-- `total_cmp` puts -inf above -1, the IEEE order puts it below. -/
theorem C14_counterexample :
    F256.totalCmp F256.NEG_INFINITY F256.NEG_ONE = .gt ∧
    totalRank F256.NEG_INFINITY.pat < totalRank F256.NEG_ONE.pat := by decide

example : F256.totalCmp F256.NEG_ONE F256.ONE ≠ .gt ∧ F256.totalCmp F256.ONE F256.NAN ≠ .gt := by
  decide

/-! ## min, max -/

/-- C15. With exactly one NaN operand the other one is returned. -/
theorem C15_nan (x y : F256) :
    (IsNaN x.pat → F256.max x y = y ∧ F256.min x y = y) ∧
    (IsNaN y.pat → ¬ IsNaN x.pat → F256.max x y = x ∧ F256.min x y = x) := by
  constructor
  · intro h
    rw [← nan_spec] at h
    simp [F256.max, F256.min, h]
  · intro h h'
    have hn := (C13_none y x).mpr (Or.inl h)
    rw [← nan_spec] at h'
    simp [F256.max, F256.min, F256.gt, F256.lt, hn, h']

/-- `min` and `max` always return one of the operands. -/
theorem C15_choice (x y : F256) :
    (F256.max x y = x ∨ F256.max x y = y) ∧ (F256.min x y = x ∨ F256.min x y = y) := by
  unfold F256.max F256.min
  constructor <;> (split <;> simp)

/-- C15 (partial: not for two negative operands). The value returned is the maximum / minimum.
Missing: two negative operands (`C15_counterexample`). -/
theorem C15_partial (x y : F256) (hx : ¬ IsNaN x.pat) (hy : ¬ IsNaN y.pat)
    (h : signBit x.pat = 0 ∨ signBit y.pat = 0) :
    extVal (F256.max x y).pat = max (extVal x.pat) (extVal y.pat) ∧
    extVal (F256.min x y).pat = min (extVal x.pat) (extVal y.pat) := by
  have hxn : x.isNan = false := by rw [Bool.eq_false_iff, ne_eq, nan_spec]; exact hx
  obtain ⟨h1, -, h3⟩ := C13_partial y x hy hx h.symm
  constructor
  · rw [F256.max, hxn, Bool.or_false, F256.gt]
    by_cases hc : F256.partialCmp y x = some .gt
    · rw [if_pos (by simpa using hc), max_eq_right (h3.mp hc).le]
    · rw [if_neg (by simpa using hc), max_eq_left]
      exact not_lt.mp (fun hl => hc (h3.mpr hl))
  · rw [F256.min, hxn, Bool.or_false, F256.lt]
    by_cases hc : F256.partialCmp y x = some .lt
    · rw [if_pos (by simpa using hc), min_eq_right (h1.mp hc).le]
    · rw [if_neg (by simpa using hc), min_eq_left]
      exact not_lt.mp (fun hl => hc (h1.mpr hl))

/-- `(-1).max(-2)` is -2 and `(-1).min(-2)` is -1 in the code. -/
theorem C15_counterexample :
    F256.max F256.ONE.negated F256.TWO.negated = F256.TWO.negated ∧
    F256.min F256.ONE.negated F256.TWO.negated = F256.ONE.negated ∧
    extVal F256.TWO.negated.pat < extVal F256.ONE.negated.pat := by
  refine ⟨by decide, by decide, ?_⟩
  rw [extVal_lt_iff (by decide) (by decide)]
  decide

/-! ## clamp -/

/-- C16. `clamp` panics exactly when `min <= max` is false. -/
theorem C16_panic (x lo hi : F256) : F256.clamp x lo hi = none ↔ F256.le lo hi = false := by
  unfold F256.clamp
  split
  · rename_i h; simp [h]; split <;> [simp; split <;> simp]
  · rename_i h; simpa using h

/-- C16. NaN stays NaN (bit for bit). -/
theorem C16_nan (x lo hi : F256) (hx : IsNaN x.pat) (h : F256.le lo hi = true) :
    F256.clamp x lo hi = some x := by
  have h1 := (C13_none x lo).mpr (Or.inl hx)
  have h2 := (C13_none x hi).mpr (Or.inl hx)
  simp [F256.clamp, h, F256.lt, F256.gt, h1, h2]

/-- C16 (partial: the lower bound is not negative, or `x` is not and the bounds are not both
negative). Then the result is the value restricted to the interval, and `clamp` panics exactly
when the bounds are in the wrong order.
Missing: comparisons of two negative numbers (`C16_counterexample`). -/
theorem C16_partial (x lo hi : F256) (hx : ¬ IsNaN x.pat) (hlo : ¬ IsNaN lo.pat)
    (hhi : ¬ IsNaN hi.pat) (h1 : signBit x.pat = 0 ∨ signBit lo.pat = 0)
    (h2 : signBit x.pat = 0 ∨ signBit hi.pat = 0)
    (h3 : signBit lo.pat = 0 ∨ signBit hi.pat = 0) :
    (extVal lo.pat ≤ extVal hi.pat →
      F256.clamp x lo hi = some (if extVal x.pat < extVal lo.pat then lo
        else if extVal hi.pat < extVal x.pat then hi else x)) ∧
    (extVal hi.pat < extVal lo.pat → F256.clamp x lo hi = none) := by
  obtain ⟨a1, -, -⟩ := C13_partial x lo hx hlo h1
  obtain ⟨-, -, b3⟩ := C13_partial x hi hx hhi h2
  obtain ⟨c1, c2, c3⟩ := C13_partial lo hi hlo hhi h3
  have hle : F256.le lo hi = true ↔ extVal lo.pat ≤ extVal hi.pat := by
    simp only [F256.le, Bool.or_eq_true, beq_iff_eq, c1, c2, le_iff_lt_or_eq]
  constructor
  · intro h
    rw [F256.clamp, if_pos (hle.mpr h)]
    simp only [F256.lt, F256.gt, beq_iff_eq, a1, b3]
    split_ifs <;> rfl
  · intro h
    rw [F256.clamp, if_neg]
    rw [hle]; exact not_le.mpr h

/-- `(-1).clamp(-2, 1)` is -2 in the code, though -1 lies in the interval; and
`x.clamp(-2, -1)` panics. -/
theorem C16_counterexample :
    F256.clamp F256.ONE.negated F256.TWO.negated F256.ONE = some F256.TWO.negated ∧
    F256.clamp F256.ONE F256.TWO.negated F256.ONE.negated = none := by decide

example : ¬ IsNaN F256.ONE.pat ∧ ¬ IsNaN F256.NEG_ONE.pat ∧ ¬ IsNaN F256.TWO.pat ∧
    signBit F256.ONE.pat = 0 ∧ signBit F256.TWO.pat = 0 ∧
    F256.clamp F256.ONE F256.NEG_ONE F256.TWO = some F256.ONE := by decide

end Verif.Props
