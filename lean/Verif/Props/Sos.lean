import Verif.Proofs.Sos
import Verif.Props.Fma

/-!
# Sum of squares (C10)
-/

namespace Verif.Props

open Verif Spec BigUInt

/-- The positive real number `v` lies above a midpoint between neighbouring binary256 numbers, but
by less than `2^-256` units in the last place. -/
def JustAboveMidpoint (v : ℝ) : Prop := ∃ k t : ℕ, k < 2 ^ 237 ∧ (t = 0 ∨ 2 ^ 236 ≤ k) ∧
  (k + 1 / 2) * 2 ^ t < v * 2 ^ 262378 ∧ v * 2 ^ 262378 < (k + 1 / 2 + 1 / 2 ^ 256) * 2 ^ t

theorem sq_val (N : ℕ) : val N ^ 2 = (mag N : ℝ) ^ 2 / 2 ^ 262378 / 2 ^ 262378 := by
  rw [← sq_abs, val_eq, abs_mul, abs_pow, abs_neg, abs_one, one_pow, one_mul, abs_of_nonneg
    (div_nonneg (Nat.cast_nonneg _) (by positivity)), div_pow, pow_two ((2 : ℝ) ^ 262378), div_div]

theorem normal_fin {N : ℕ} (h : IsNormal N) : FinNonzero N := by
  refine ⟨h.2, fun hz => h.1 hz.1⟩

theorem sticky_le_iff (x : F256) :
    absBitsSticky (absBits x) ≤ HI_FRACTION_MASK ↔ expField x.pat = 0 := by
  have h1 := (sticky_cmp (absBits x) (2 ^ 107)).1
  have h2 : HI_FRACTION_MASK.toNat = 2 ^ 108 - 1 := by decide
  rw [nat_absBits] at h1
  rw [BitVec.le_def, h2]
  unfold expField
  omega

theorem anyNonNormal_iff (x y : F256) :
    anyNonNormal2 (absBitsSticky (absBits x)) (absBitsSticky (absBits y)) = false ↔
      IsNormal x.pat ∧ IsNormal y.pat := by
  unfold anyNonNormal2 anySubnormal2
  rw [Bool.or_eq_false_iff, Bool.or_eq_false_iff, decide_eq_false_iff_not, decide_eq_false_iff_not,
    sticky_le_iff, sticky_le_iff]
  constructor
  · rintro ⟨h1, h2, h3⟩
    rw [anySpecial2, Bool.or_eq_false_iff, ← Bool.not_eq_true, ← Bool.not_eq_true, special_iff,
      special_iff, nat_absBits, nat_absBits] at h1
    refine ⟨⟨h2, ?_⟩, ⟨h3, ?_⟩⟩
    · have : IsFin x.pat := by rw [fin_iff]; omega
      exact this
    · have : IsFin y.pat := by rw [fin_iff]; omega
      exact this
  · rintro ⟨h1, h2⟩
    exact ⟨anySpecial2_false (normal_fin h1) (normal_fin h2), h1.1, h2.1⟩

theorem signif_ge {x : F256} (h : IsNormal x.pat) : 2 ^ 236 ≤ nat256 (signif (absBits x)) := by
  rw [signif_abs]; exact signif_normal h

/-- The result for two normal numbers: the exact sum is correctly rounded, or, if it is just above a
midpoint, possibly the midpoint is rounded instead. -/
theorem sos_spec (x y : F256) (hx : IsNormal x.pat) (hy : IsNormal y.pat) :
    ∃ z q, F256.sumOfSquares x y = some z ∧ IsRNE q z.pat ∧ 0 ≤ q ∧
      (q = val x.pat ^ 2 + val y.pat ^ 2 ∨ ∃ k t : ℕ, k < 2 ^ 237 ∧ (t = 0 ∨ 2 ^ 236 ≤ k) ∧
        q * 2 ^ 262378 = (k + 1 / 2) * 2 ^ t ∧
        q ≤ val x.pat ^ 2 + val y.pat ^ 2 ∧
        (val x.pat ^ 2 + val y.pat ^ 2) * 2 ^ 262378 < (k + 1 / 2 + 1 / 2 ^ 256) * 2 ^ t) := by
  have hn := (anyNonNormal_iff x y).mpr ⟨hx, hy⟩
  have hK : (0 : ℝ) < 2 ^ 262378 := by positivity
  have hval : (val x.pat ^ 2 + val y.pat ^ 2) * 2 ^ 262378 =
      (((mag x.pat) ^ 2 + (mag y.pat) ^ 2 : ℕ) : ℝ) / 2 ^ 262378 := by
    rw [sq_val, sq_val]
    simp only [Nat.cast_add, Nat.cast_pow]
    generalize (2 : ℝ) ^ 262378 = K at *
    field_simp
  obtain ⟨Tx, tx1, tx2, tx3, tx4, tx5, tx6, tx7, tx8⟩ := fma_decode (normal_fin hx)
  obtain ⟨Ty, ty1, ty2, ty3, ty4, ty5, ty6, ty7, ty8⟩ := fma_decode (normal_fin hy)
  have ex := tx7 (signif_ge hx)
  have ey := ty7 (signif_ge hy)
  have main : ∃ r v', F256.sumOfSquares x y = some r ∧ RoundsTo v' r.pat ∧
      v' ≤ (val x.pat ^ 2 + val y.pat ^ 2) * 2 ^ 262378 ∧
      (v' = (val x.pat ^ 2 + val y.pat ^ 2) * 2 ^ 262378 ∨
        ∃ k t : ℕ, k < 2 ^ 237 ∧ (t = 0 ∨ 2 ^ 236 ≤ k) ∧ v' = (k + 1 / 2) * 2 ^ t ∧
        (val x.pat ^ 2 + val y.pat ^ 2) * 2 ^ 262378 < (k + 1 / 2 + 1 / 2 ^ 256) * 2 ^ t) := by
    unfold F256.sumOfSquares
    dsimp only
    rw [hn, if_neg (by decide), cmp256]
    have hexp (u w : F256) (h : nat256 (absBits u) ≤ nat256 (absBits w)) :
        expBits (absBits u) ≤ expBits (absBits w) := by
      have hu := nat256_lt (absBits u)
      rw [expBits_eq, expBits_eq]
      exact Nat.div_le_div_right h
    by_cases hlt : nat256 (absBits x) < nat256 (absBits y)
    · rw [if_pos (by rw [Nat.compare_eq_lt.mpr hlt]; rfl)]
      have := hexp x y hlt.le
      refine sos_normal ty1 (signif_ge hy) ty5 tx1 tx4 tx5 (by omega) ty2 ?_
      rw [hval, tx8, ty8, Nat.add_comm]
    · rw [if_neg (by rw [beq_iff_eq, Nat.compare_eq_lt]; exact hlt)]
      have := hexp y x (not_lt.mp hlt)
      refine sos_normal tx1 (signif_ge hx) tx5 ty1 ty4 ty5 (by omega) tx2 ?_
      rw [hval, tx8, ty8]
  obtain ⟨r, v', h1, h2, h3, h4⟩ := main
  have hv0 : 0 ≤ v' := by
    rcases h4 with h | ⟨k, t, -, -, h, -⟩
    · rw [h, hval]; exact div_nonneg (Nat.cast_nonneg _) hK.le
    · rw [h]; positivity
  have hq : v' / 2 ^ 262378 * 2 ^ 262378 = v' := div_mul_cancel₀ _ hK.ne'
  have hq0 : 0 ≤ v' / 2 ^ 262378 := div_nonneg hv0 hK.le
  refine ⟨r, v' / 2 ^ 262378, h1, ?_, hq0, ?_⟩
  · have := RoundsTo.isRNE (q := v' / 2 ^ 262378) (s := 0)
      (by rw [abs_of_nonneg hq0, hq]; exact h2) (by norm_num) (fun _ => rfl)
      (fun h => absurd h (not_lt.mpr hq0))
    rw [Nat.zero_mul, Nat.zero_add] at this
    exact this
  · rcases h4 with h | ⟨k, t, g1, g2, g3, g4⟩
    · left; rw [div_eq_iff hK.ne']; exact h
    · right
      refine ⟨k, t, g1, g2, by rw [hq]; exact g3, ?_, g4⟩
      rw [div_le_iff₀ hK]; exact h3

/-- C10 (partial: both operands are normal numbers, and the exact sum is not just above a midpoint
between two neighbouring numbers). The sum of squares is correctly rounded.
Without the second hypothesis the property is false, see `C10_counterexample`. -/
theorem C10_sos_partial (x y : F256) (hx : IsNormal x.pat) (hy : IsNormal y.pat)
    (h : ¬ JustAboveMidpoint (val x.pat ^ 2 + val y.pat ^ 2)) :
    ∃ z, F256.sumOfSquares x y = some z ∧ IsRNE (val x.pat ^ 2 + val y.pat ^ 2) z.pat := by
  obtain ⟨z, q, h1, h2, h3, h4⟩ := sos_spec x y hx hy
  have hK : (0 : ℝ) < 2 ^ 262378 := by positivity
  rcases h4 with h4 | ⟨k, t, g1, g2, g3, g4, g5⟩
  · exact ⟨z, h1, h4 ▸ h2⟩
  · rcases g4.lt_or_eq with hlt | he
    · refine absurd ⟨k, t, g1, g2, ?_, g5⟩ h
      rw [← g3]
      exact mul_lt_mul_of_pos_right hlt hK
    · exact ⟨z, h1, he ▸ h2⟩

/-- C10. For all pairs of normal numbers the result is the correctly rounded value of a number which
is at most the exact sum and smaller by a relative error of at most `2^-255`. -/
theorem C10_error (x y : F256) (hx : IsNormal x.pat) (hy : IsNormal y.pat) :
    ∃ z q, F256.sumOfSquares x y = some z ∧ IsRNE q z.pat ∧
      q ≤ val x.pat ^ 2 + val y.pat ^ 2 ∧ val x.pat ^ 2 + val y.pat ^ 2 ≤ q * (1 + 1 / 2 ^ 255) := by
  obtain ⟨z, q, h1, h2, h3, h4⟩ := sos_spec x y hx hy
  refine ⟨z, q, h1, h2, ?_⟩
  rcases h4 with h4 | ⟨k, t, g1, g2, g3, g4, g5⟩
  · rw [← h4]
    exact ⟨le_refl _, le_mul_of_one_le_right h3 (by norm_num)⟩
  · refine ⟨g4, ?_⟩
    have hK : (0 : ℝ) < 2 ^ 262378 := by positivity
    have ht : (0 : ℝ) < 2 ^ t := by positivity
    refine le_of_mul_le_mul_right ?_ hK
    refine g5.le.trans ?_
    rw [mul_assoc, mul_comm (1 + 1 / 2 ^ 255 : ℝ), ← mul_assoc, g3, mul_right_comm]
    refine mul_le_mul_of_nonneg_right ?_ ht.le
    have hk : (0 : ℝ) ≤ k := Nat.cast_nonneg k
    have e : (2 : ℝ) ^ 256 = 2 ^ 255 * 2 := by norm_num
    rw [e]
    have hp : (0 : ℝ) < 2 ^ 255 := by norm_num
    generalize (2 : ℝ) ^ 255 = P at *
    have : (k + 1 / 2) * (1 + 1 / P) = k + 1 / 2 + 1 / (P * 2) + k / P := by field_simp; ring
    rw [this]
    have := div_nonneg hk hp.le
    linarith

/-! ## Operands which are not normal -/

theorem sos_special {x y : F256} (h : ¬ (IsNormal x.pat ∧ IsNormal y.pat)) :
    F256.sumOfSquares x y = some (
      if expField x.pat = 0 ∧ expField y.pat = 0 then F256.ZERO
      else if IsNaN x.pat ∨ IsNaN y.pat then F256.NAN
      else if expField x.pat = 0 then F256.square y
      else if expField y.pat = 0 then F256.square x
      else F256.INFINITY) := by
  have hb : anyNonNormal2 (absBitsSticky (absBits x)) (absBitsSticky (absBits y)) = true := by
    rw [← Bool.not_eq_false, anyNonNormal_iff]; exact h
  unfold F256.sumOfSquares
  dsimp only
  rw [hb, if_pos rfl]
  have sx := (sticky_facts x).2.2.2
  have sy := (sticky_facts y).2.2.2
  have lx := sticky_le_iff x
  have ly := sticky_le_iff y
  have hm : HI_EXP_MASK.toNat = 524287 * 2 ^ 108 := by decide
  simp only [BitVec.lt_def, BitVec.le_def, hm] at *
  have c1 : (if (absBitsSticky (absBits x)).toNat ≤ (absBitsSticky (absBits y)).toNat then
      absBitsSticky (absBits y) else absBitsSticky (absBits x)).toNat ≤ HI_FRACTION_MASK.toNat ↔
      expField x.pat = 0 ∧ expField y.pat = 0 := by
    rw [← lx, ← ly]; split <;> omega
  have c2 : 524287 * 2 ^ 108 < (if (absBitsSticky (absBits x)).toNat ≤
      (absBitsSticky (absBits y)).toNat then
      absBitsSticky (absBits y) else absBitsSticky (absBits x)).toNat ↔
      IsNaN x.pat ∨ IsNaN y.pat := by
    rw [← sx, ← sy]; split <;> omega
  simp only [c1, c2, lx, ly]
  split
  · rfl
  split
  · rfl
  split
  · rfl
  split <;> rfl

/-- C10. The square is the product of the number with itself. -/
theorem C10_square (x : F256) : F256.square x = F256.mul x x := rfl

/-- C10. The sum of squares does not panic, whatever the operands. -/
theorem C10_total (x y : F256) : (F256.sumOfSquares x y).isSome = true := by
  by_cases h : IsNormal x.pat ∧ IsNormal y.pat
  · obtain ⟨z, q, h1, -⟩ := sos_spec x y h.1 h.2
    rw [h1]; rfl
  · rw [sos_special h]; rfl

/-- C10. The order of the operands does not matter. -/
theorem C10_comm (x y : F256) : F256.sumOfSquares x y = F256.sumOfSquares y x := by
  by_cases h : IsNormal x.pat ∧ IsNormal y.pat
  · have h1 := (anyNonNormal_iff x y).mpr h
    have h2 := (anyNonNormal_iff y x).mpr ⟨h.2, h.1⟩
    unfold F256.sumOfSquares
    dsimp only
    rw [h1, h2, if_neg Bool.false_ne_true, if_neg Bool.false_ne_true, cmp256, cmp256]
    rcases Nat.lt_trichotomy (nat256 (absBits x)) (nat256 (absBits y)) with hl | hl | hl
    · rw [Nat.compare_eq_lt.mpr hl, Nat.compare_eq_gt.mpr hl, if_pos (by decide), if_neg (by decide)]
    · rw [nat256_inj hl]
    · rw [Nat.compare_eq_lt.mpr hl, Nat.compare_eq_gt.mpr hl, if_neg (by decide), if_pos (by decide)]
  · rw [sos_special h, sos_special (fun hh => h ⟨hh.2, hh.1⟩)]
    have hc : (IsNaN y.pat ∨ IsNaN x.pat) ↔ (IsNaN x.pat ∨ IsNaN y.pat) := or_comm
    simp only [hc]
    by_cases hx : expField x.pat = 0 <;> by_cases hy : expField y.pat = 0 <;> simp [hx, hy]

/-- C10. A NaN operand gives NaN. -/
theorem C10_nan (x y : F256) (h : IsNaN x.pat ∨ IsNaN y.pat) :
    F256.sumOfSquares x y = some F256.NAN := by
  have e0 : ¬ (expField x.pat = 0 ∧ expField y.pat = 0) := by
    rintro ⟨h1, h2⟩
    rcases h with h | h
    · have := h.1; omega
    · have := h.1; omega
  rw [sos_special, if_neg e0, if_pos h]
  rintro ⟨h1, h2⟩
  rcases h with h | h
  · exact h1.2 h.1
  · exact h2.2 h.1

/-- C10. An infinite operand gives infinity unless the other one is NaN. -/
theorem C10_inf (x y : F256) (hx : ¬ IsNaN x.pat) (hy : ¬ IsNaN y.pat)
    (h : IsInf x.pat ∨ IsInf y.pat) :
    ∃ z, F256.sumOfSquares x y = some z ∧ IsInf z.pat ∧ signBit z.pat = 0 := by
  have sq (w : F256) (hw : IsInf w.pat) :
      IsInf (F256.square w).pat ∧ signBit (F256.square w).pat = 0 := by
    have hz : ¬ IsZero w.pat := fun h => by have h1 := h.1; have h2 := hw.1; omega
    have hn : ¬ IsNaN w.pat := fun h => h.2 hw.2
    have := C05_inf w w hn hn hz hz (Or.inl hw)
    refine ⟨this.1, this.2.trans ?_⟩
    unfold xorSign; omega
  have hnn : ¬ (IsNormal x.pat ∧ IsNormal y.pat) := by
    rintro ⟨h1, h2⟩
    rcases h with h | h
    · exact h1.2 h.1
    · exact h2.2 h.1
  have e0 : ¬ (expField x.pat = 0 ∧ expField y.pat = 0) := by
    rintro ⟨h1, h2⟩
    rcases h with h | h
    · have := h.1; omega
    · have := h.1; omega
  rw [sos_special hnn, if_neg e0, if_neg (by simp [hx, hy])]
  refine ⟨_, rfl, ?_⟩
  split
  · rename_i h1
    exact sq y (h.resolve_left (fun h => by have := h.1; omega))
  split
  · rename_i h1
    exact sq x (h.resolve_right (fun h => by have := h.1; omega))
  exact ⟨by decide, by decide⟩

theorem mag_small {N : ℕ} (h : expField N = 0) : mag N < 2 ^ 236 := by
  unfold mag significandOf
  rw [if_pos h, h, Nat.zero_sub, pow_zero, mul_one]
  exact Nat.mod_lt _ (by norm_num)

/-- C10. If both operands are zero or subnormal, the result is `+0`, and that is the correctly
rounded sum. -/
theorem C10_tiny (x y : F256) (hx : expField x.pat = 0) (hy : expField y.pat = 0) :
    F256.sumOfSquares x y = some F256.ZERO ∧
      IsRNE (val x.pat ^ 2 + val y.pat ^ 2) F256.ZERO.pat := by
  refine ⟨by rw [sos_special (fun h => h.1.1 hx), if_pos ⟨hx, hy⟩], ?_⟩
  have h0 : 0 ≤ val x.pat ^ 2 + val y.pat ^ 2 := add_nonneg (sq_nonneg _) (sq_nonneg _)
  have key : RoundsTo (|val x.pat ^ 2 + val y.pat ^ 2| * 2 ^ 262378) 0 := by
    have hx1 : (mag x.pat : ℝ) < 2 ^ 236 := by exact_mod_cast mag_small hx
    have hy1 : (mag y.pat : ℝ) < 2 ^ 236 := by exact_mod_cast mag_small hy
    have hx0 : (0 : ℝ) ≤ mag x.pat := Nat.cast_nonneg _
    have hy0 : (0 : ℝ) ≤ mag y.pat := Nat.cast_nonneg _
    have hv : |val x.pat ^ 2 + val y.pat ^ 2| * 2 ^ 262378 =
        ((mag x.pat : ℝ) ^ 2 + (mag y.pat : ℝ) ^ 2) / 2 ^ 262378 := by
      rw [abs_of_nonneg h0, sq_val, sq_val]
      have hK : (0 : ℝ) < 2 ^ 262378 := by positivity
      generalize (2 : ℝ) ^ 262378 = K at *
      field_simp
    rw [hv]
    have hb : ((mag x.pat : ℝ) ^ 2 + (mag y.pat : ℝ) ^ 2) / 2 ^ 262378 < 1 / 2 := by
      have e : (2 : ℝ) ^ 262378 = 2 ^ 474 * 2 ^ 261904 := by rw [← pow_add]
      have h1 : (1 : ℝ) ≤ 2 ^ 261904 := one_le_pow₀ (by norm_num)
      rw [div_lt_iff₀ (by positivity), e]
      generalize (2 : ℝ) ^ 261904 = K at *
      have e2 : (2 : ℝ) ^ 474 = 2 ^ 236 * 2 ^ 236 * 4 := by
        rw [show (4 : ℝ) = 2 ^ 2 by norm_num, ← pow_add, ← pow_add]
      rw [e2]
      have hP : (0 : ℝ) < 2 ^ 236 := by positivity
      generalize (2 : ℝ) ^ 236 = P at *
      have b1 : (mag x.pat : ℝ) ^ 2 < P * P := by nlinarith
      have b2 : (mag y.pat : ℝ) ^ 2 < P * P := by nlinarith
      have b3 : P * P * 1 ≤ P * P * K := mul_le_mul_of_nonneg_left h1 (by positivity)
      linarith
    have hb0 : 0 ≤ ((mag x.pat : ℝ) ^ 2 + (mag y.pat : ℝ) ^ 2) / 2 ^ 262378 :=
      div_nonneg (add_nonneg (sq_nonneg _) (sq_nonneg _)) (pow_nonneg (by norm_num) _)
    generalize ((mag x.pat : ℝ) ^ 2 + (mag y.pat : ℝ) ^ 2) / 2 ^ 262378 = v at *
    refine RoundsTo.rne_sub (M := 0) ⟨?_, ?_⟩ (hb.trans ?_)
    rotate_left 2
    · exact lt_of_lt_of_le (by norm_num : (1 / 2 : ℝ) < 1) (one_le_pow₀ (by norm_num))
    · rw [Nat.cast_zero, sub_zero, abs_of_nonneg hb0]; linarith
    · intro; rfl
  have := RoundsTo.isRNE key (s := 0) (by norm_num) (fun _ => rfl)
      (fun h => absurd h (not_lt.mpr h0))
  exact this

/-- C10. If one operand is zero or subnormal and the other one is neither, nor NaN, the result is
the square of the latter. -/
theorem C10_one_tiny (x y : F256) (hx : expField x.pat = 0) (hy : expField y.pat ≠ 0)
    (hn : ¬ IsNaN y.pat) :
    F256.sumOfSquares x y = some (F256.mul y y) ∧ F256.sumOfSquares y x = some (F256.mul y y) := by
  have h1 : F256.sumOfSquares x y = some (F256.mul y y) := by
    have hnx : ¬ IsNaN x.pat := fun h => by have := h.1; omega
    rw [sos_special (fun h => h.1.1 hx), if_neg (fun h => hy h.2), if_neg (by simp [hn, hnx]),
      if_pos hx]
    rfl
  exact ⟨h1, C10_comm y x ▸ h1⟩

/-- C10. If one operand is zero and the square of the other one is in the normal range, the result
is correctly rounded. -/
theorem C10_zero (x y : F256) (hx : IsZero x.pat) (hy : IsFin y.pat)
    (hv : (2 : ℝ) ^ (-262142 : ℤ) ≤ val x.pat ^ 2 + val y.pat ^ 2) :
    ∃ z, F256.sumOfSquares x y = some z ∧ IsRNE (val x.pat ^ 2 + val y.pat ^ 2) z.pat := by
  have e : val x.pat ^ 2 + val y.pat ^ 2 = val y.pat * val y.pat := by
    rw [val_zero hx]; ring
  rw [e] at hv ⊢
  by_cases hy0 : expField y.pat = 0
  · have := C10_tiny x y hx.1 hy0
    rw [e] at this
    exact ⟨_, this⟩
  · refine ⟨_, (C10_one_tiny x y hx.1 hy0 (not_nan_of_fin hy)).1, ?_⟩
    refine (C04_mul_partial y y hy hy (Or.inl ?_)).1
    exact hv.trans (le_abs_self _)

/-- C10. The fused square-add is the fused multiply-add; it is correctly rounded for a normal number
and a finite addend if the exact result is in the normal range. -/
theorem C10_square_add_partial (x a : F256) (hx : IsNormal x.pat) (ha : IsFin a.pat)
    (hv : (2 : ℝ) ^ (-262142 : ℤ) ≤ |val x.pat ^ 2 + val a.pat|) :
    ∃ z, F256.squareAdd x a = some z ∧ IsRNE (val x.pat ^ 2 + val a.pat) z.pat := by
  rw [pow_two] at hv ⊢
  exact C09_mul_add_partial x x a hx.2 hx.2 ha (Or.inr (Or.inr (Or.inr (Or.inl ⟨hx, hx⟩)))) hv

/-! ## The property fails just above a midpoint -/

/-- `2 - 2^-118` -/
def sosX : F256 := ⟨⟨262143 * HI_FRACTION_BIAS + (HI_FRACTION_BIAS - 1), 1023 <<< 118⟩⟩

/-- `2^-500` -/
def sosY : F256 := ⟨⟨261643 * HI_FRACTION_BIAS, 0⟩⟩

theorem sos_wrong : F256.sumOfSquares sosX sosY =
    some ⟨⟨262144 * HI_FRACTION_BIAS + (HI_FRACTION_BIAS - 1), 511 <<< 119⟩⟩ := by decide +kernel

theorem val_at {N S : ℕ} (e : ℕ) (h1 : signBit N = 0) (h2 : significandOf N = S)
    (h3 : expField N - 1 = e) (he : e ≤ 262378) : val N = S / 2 ^ (262378 - e) := by
  rw [val_eq, h1, pow_zero, one_mul]
  unfold mag
  rw [h2, h3, show (2 : ℝ) ^ 262378 = 2 ^ (262378 - e) * 2 ^ e by
    rw [← pow_add, Nat.sub_add_cancel he]]
  simp only [Nat.cast_mul, Nat.cast_pow, Nat.cast_ofNat]
  exact mul_div_mul_right _ _ (pow_ne_zero _ (by norm_num))

/-- The property C10 does not hold in full: the exact sum of the squares of `2 - 2^-118` and
`2^-500` is above the midpoint `4 - 2^-116 + 2^-236`, but the result is `4 - 2^-116`. -/
theorem C10_counterexample : ∃ x y z : F256, IsNormal x.pat ∧ IsNormal y.pat ∧
    F256.sumOfSquares x y = some z ∧ ¬ IsRNE (val x.pat ^ 2 + val y.pat ^ 2) z.pat := by
  refine ⟨sosX, sosY, _, by decide, by decide, sos_wrong, fun h => ?_⟩
  have vx : val sosX.pat = (2 ^ 237 - 2 ^ 118 : ℕ) / 2 ^ (262378 - 262142) :=
    val_at 262142 (by decide) (by decide) (by decide) (by norm_num)
  have vz := val_at (N := (⟨⟨262144 * HI_FRACTION_BIAS + (HI_FRACTION_BIAS - 1), 511 <<< 119⟩⟩ :
    F256).pat) (S := 2 ^ 237 - 2 ^ 119) 262143 (by decide) (by decide) (by decide) (by norm_num)
  have vw := val_at (N := (⟨⟨262144 * HI_FRACTION_BIAS + (HI_FRACTION_BIAS - 1), 511 <<< 119 + 1⟩⟩ :
    F256).pat) (S := 2 ^ 237 - 2 ^ 119 + 1) 262143 (by decide) (by decide) (by decide) (by norm_num)
  have hy : 0 < val sosY.pat ^ 2 := by
    refine sq_pos_of_ne_zero fun h0 => ?_
    exact absurd ((val_eq_zero_iff (N := sosY.pat) (by decide)).mp h0) (by decide)
  have hfin : |val sosX.pat ^ 2 + val sosY.pat ^ 2| < overflowThreshold := by
    by_contra hc
    exact absurd (h.inf (not_lt.mp hc)) (by decide)
  have hn := h.nearest hfin
    (⟨⟨262144 * HI_FRACTION_BIAS + (HI_FRACTION_BIAS - 1), 511 <<< 119 + 1⟩⟩ : F256).pat
    (pat_lt _) (by decide)
  rw [vz, vw, vx] at hn
  generalize val sosY.pat ^ 2 = w at *
  clear h hfin vx vz vw
  norm_num at hn
  have := sq_le_sq.mpr hn
  nlinarith

/-! ## Examples -/

-- the hypotheses of `C10_sos_partial` are satisfiable: one and one, the sum is far from midpoints
example : IsNormal F256.ONE.pat ∧ F256.sumOfSquares F256.ONE F256.ONE = some F256.TWO :=
  ⟨by decide, by decide +kernel⟩
example : ¬ JustAboveMidpoint 2 := by
  rintro ⟨k, t, h1, h2, h3, h4⟩
  rcases h2 with rfl | h2
  · have e : (2 : ℝ) * 2 ^ 262378 = 2 ^ 262142 * 2 ^ 237 := by rw [← pow_succ', ← pow_add]
    rw [pow_zero, mul_one, e] at h4
    have hk : (k : ℝ) + 1 ≤ 2 ^ 237 := by exact_mod_cast h1
    have h5 : (1 : ℝ) ≤ 2 ^ 262142 := one_le_pow₀ (by norm_num)
    have h6 : (1 / 2 ^ 256 : ℝ) ≤ 1 / 2 := by norm_num
    have h7 : (0 : ℝ) < 2 ^ 237 := by norm_num
    generalize (2 : ℝ) ^ 262142 = A at *
    have := mul_le_mul_of_nonneg_right h5 h7.le
    clear h3 e
    linarith
  · -- `2 * 2^262378 = 2^236 * 2^262143` is a multiple of `2^t`, unless `t` is too large
    have hk : (k : ℝ) + 1 ≤ 2 ^ 237 := by exact_mod_cast h1
    have hk2 : (2 : ℝ) ^ 236 ≤ k := by exact_mod_cast h2
    have e : (2 : ℝ) * 2 ^ 262378 = 2 ^ 236 * 2 ^ 262143 := by rw [← pow_succ', ← pow_add]
    rw [e] at h3 h4
    have h6 : (1 / 2 ^ 256 : ℝ) < 1 / 2 := by norm_num
    have hp : (0 : ℝ) < 2 ^ t := by positivity
    rcases Nat.lt_trichotomy t 262143 with ht | ht | ht
    · obtain ⟨d, hd⟩ := Nat.exists_eq_add_of_lt ht
      rw [hd, show t + d + 1 = d + (1 + t) by omega, pow_add (2 : ℝ) d, pow_add (2 : ℝ) 1] at h4
      have h5 : (1 : ℝ) ≤ 2 ^ d := one_le_pow₀ (by norm_num)
      have h8 : (2 : ℝ) ^ 236 * (2 ^ d * (2 ^ 1 * 2 ^ t)) < 2 ^ 237 * 2 ^ t :=
        h4.trans_le (mul_le_mul_of_nonneg_right (by linarith) hp.le)
      rw [show (2 : ℝ) ^ 237 = 2 ^ 236 * 2 by norm_num] at h8
      have h9 : (0 : ℝ) < 2 ^ 236 := by norm_num
      clear e h3 h4 hd h6 hk
      generalize (2 : ℝ) ^ 236 = P at *
      generalize (2 : ℝ) ^ d = D at *
      generalize (2 : ℝ) ^ t = T at *
      have : P * T * 1 ≤ P * T * D := mul_le_mul_of_nonneg_left h5 (by positivity)
      nlinarith
    · rw [ht] at h3 hp
      generalize (2 : ℝ) ^ 262143 = T at *
      have := lt_of_mul_lt_mul_right h3 hp.le
      linarith
    · have h5 : (2 : ℝ) ^ 262143 ≤ 2 ^ t := pow_le_pow_right₀ (by norm_num) ht.le
      have h7 : (0 : ℝ) < 2 ^ 236 := by norm_num
      generalize (2 : ℝ) ^ 262143 = A at *
      generalize (2 : ℝ) ^ t = T at *
      have b1 := mul_le_mul_of_nonneg_left h5 h7.le
      have b2 : (2 : ℝ) ^ 236 * T ≤ (k + 1 / 2) * T :=
        mul_le_mul_of_nonneg_right (by linarith) hp.le
      clear e h4
      linarith
-- 3^2 + 4^2 = 25
example : F256.sumOfSquares ⟨⟨0x40000800000000000000000000000000, 0⟩⟩
    ⟨⟨0x40001000000000000000000000000000, 0⟩⟩ =
    some ⟨⟨0x40003900000000000000000000000000, 0⟩⟩ := by decide +kernel

end Verif.Props
