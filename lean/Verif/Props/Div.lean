import Verif.Proofs.Div
import Verif.Props.Mul

/-!
# Division (C06, C07) and reciprocal (C48)
-/

namespace Verif.Props

open Verif Spec BigUInt

/-- The branch for special operands. -/
theorem div_special {x y : F256}
    (h : IsZero x.pat ∨ IsZero y.pat ∨ ¬ IsFin x.pat ∨ ¬ IsFin y.pat) :
    F256.div x y = some (
      if IsNaN x.pat ∨ IsNaN y.pat ∨ (IsZero x.pat ∧ IsZero y.pat) ∨ (IsInf x.pat ∧ IsInf y.pat) then
        F256.NAN
      else if IsZero x.pat ∨ IsInf y.pat then
        ⟨U256.new ((x.bits.hi ^^^ y.bits.hi) &&& HI_SIGN_MASK) 0⟩
      else ⟨U256.new (((x.bits.hi ^^^ y.bits.hi) &&& HI_SIGN_MASK) ||| INF_HI) 0⟩) := by
  obtain ⟨x1, x2, x3, x4⟩ := sticky_facts x
  obtain ⟨y1, y2, y3, y4⟩ := sticky_facts y
  have hs := anySpecial2_true h
  unfold F256.div
  simp only [hs, if_true, BitVec.le_def, BitVec.lt_def]
  generalize absBitsSticky (absBits x) = a at *
  generalize absBitsSticky (absBits y) = b at *
  have hmax : (if a.toNat ≤ b.toNat then b else a).toNat = max a.toNat b.toNat := by
    split <;> omega
  have hI : HI_EXP_MASK.toNat = 524287 * 2 ^ 108 := by decide
  have c1 : (HI_EXP_MASK.toNat < (if a.toNat ≤ b.toNat then b else a).toNat ∨ a = b) ↔
      IsNaN x.pat ∨ IsNaN y.pat ∨ (IsZero x.pat ∧ IsZero y.pat) ∨ (IsInf x.pat ∧ IsInf y.pat) := by
    rw [← BitVec.toNat_inj, hmax, hI, ← x4, ← y4, ← x1, ← y1, ← x3, ← y3]
    rw [← x1, ← y1, ← x2, ← y2] at h
    omega
  by_cases hn : IsNaN x.pat ∨ IsNaN y.pat ∨ (IsZero x.pat ∧ IsZero y.pat) ∨
      (IsInf x.pat ∧ IsInf y.pat)
  · rw [if_pos (c1.mpr hn), if_pos hn]
  · rw [if_neg (fun hc => hn (c1.mp hc)), if_neg hn]
    have c2 : a.toNat < b.toNat ↔ IsZero x.pat ∨ IsInf y.pat := by
      rw [← x4, ← y4, ← x1, ← y1, ← x3, ← y3] at hn
      rw [← x1, ← y1, ← x2, ← y2] at h
      rw [← x1, ← y3]
      omega
    simp only [c2]
    split <;> rfl

/-- C07. A NaN operand gives NaN. -/
theorem C07_nan (x y : F256) (h : IsNaN x.pat ∨ IsNaN y.pat) : F256.div x y = some F256.NAN := by
  rw [div_special (by rcases h with h | h <;> simp [not_fin_of_nan h]), if_pos]
  rcases h with h | h <;> simp [h]

/-- C07. Zero by zero and infinity by infinity give NaN. -/
theorem C07_invalid (x y : F256)
    (h : (IsZero x.pat ∧ IsZero y.pat) ∨ (IsInf x.pat ∧ IsInf y.pat)) :
    F256.div x y = some F256.NAN := by
  rw [div_special (by rcases h with h | h <;> simp [h, not_fin_of_inf]), if_pos]
  simp [h]

/-- C07. A finite non-zero number by zero, infinity by zero and infinity by a finite number are
infinite, with the exclusive or of the signs. -/
theorem C07_infinite (x y : F256)
    (h : (¬ IsNaN x.pat ∧ ¬ IsZero x.pat ∧ IsZero y.pat) ∨ (IsInf x.pat ∧ IsFin y.pat)) :
    ∃ z, F256.div x y = some z ∧ IsInf z.pat ∧ signBit z.pat = xorSign x.pat y.pat := by
  have hx : ¬ IsNaN x.pat ∧ ¬ IsZero x.pat ∧ IsFin y.pat := by
    rcases h with h | h
    · exact ⟨h.1, h.2.1, fin_of_zero h.2.2⟩
    · exact ⟨not_nan_of_inf h.1, not_zero_of_inf h.1, h.2⟩
  have hs : IsZero x.pat ∨ IsZero y.pat ∨ ¬ IsFin x.pat ∨ ¬ IsFin y.pat := by
    rcases h with h | h
    · exact Or.inr (Or.inl h.2.2)
    · exact Or.inr (Or.inr (Or.inl (not_fin_of_inf h.1)))
  refine ⟨_, div_special hs, ?_⟩
  rw [if_neg (by simp [hx, not_nan_of_fin hx.2.2, not_inf_of_fin hx.2.2]),
    if_neg (by simp [hx, not_inf_of_fin hx.2.2])]
  exact isInf_signed (pat_signed_inf (toNat_xorSign x y)) (xorSign_le _ _)

/-- C07. Zero by a number that is neither zero nor NaN, and finite by infinity, are zeros with the
exclusive or of the signs. -/
theorem C07_zero (x y : F256)
    (h : (IsZero x.pat ∧ ¬ IsZero y.pat ∧ ¬ IsNaN y.pat) ∨ (IsFin x.pat ∧ IsInf y.pat)) :
    ∃ z, F256.div x y = some z ∧ IsZero z.pat ∧ signBit z.pat = xorSign x.pat y.pat := by
  have hs : IsZero x.pat ∨ IsZero y.pat ∨ ¬ IsFin x.pat ∨ ¬ IsFin y.pat := by
    rcases h with h | h
    · exact Or.inl h.1
    · exact Or.inr (Or.inr (Or.inr (not_fin_of_inf h.2)))
  refine ⟨_, div_special hs, ?_⟩
  have h1 : ¬ (IsNaN x.pat ∨ IsNaN y.pat ∨ (IsZero x.pat ∧ IsZero y.pat) ∨
      (IsInf x.pat ∧ IsInf y.pat)) := by
    rcases h with h | h
    · have := fin_of_zero h.1
      simp [h, not_nan_of_fin this, not_inf_of_fin this]
    · simp [not_nan_of_fin h.1, not_nan_of_inf h.2, not_zero_of_inf h.2, not_inf_of_fin h.1]
  rw [if_neg h1, if_pos (by rcases h with h | h <;> simp [h])]
  exact isZero_signed (pat_signed_zero (toNat_xorSign x y)) (xorSign_le _ _)

/-! ## Finite operands -/

theorem sign_div_val (N M : ℕ) :
    (0 < val N / val M → xorSign N M = 0) ∧ (val N / val M < 0 → xorSign N M = 1) := by
  unfold xorSign
  constructor
  · intro h
    rcases div_pos_iff.mp h with ⟨h1, h2⟩ | ⟨h1, h2⟩
    · rw [val_pos_sign h1, val_pos_sign h2]
    · rw [val_neg_sign h1, val_neg_sign h2]
  · intro h
    rcases div_neg_iff.mp h with ⟨h1, h2⟩ | ⟨h1, h2⟩
    · rw [val_pos_sign h1, val_neg_sign h2]
    · rw [val_neg_sign h1, val_pos_sign h2]

theorem abs_div_val (N M : ℕ) : |val N / val M| * 2 ^ 262378 = (mag N : ℝ) / mag M * 2 ^ 262378 := by
  rw [← abs_val, ← abs_val, abs_div, mul_div_mul_right _ _ (pow_ne_zero _ (by norm_num))]

/-- C06. The quotient of a finite number by a finite non-zero number is correctly rounded, with the
exclusive or of the signs; no panic. -/
theorem C06_div (x y : F256) (hx : IsFin x.pat) (hy : IsFin y.pat) (hy0 : ¬ IsZero y.pat) :
    ∃ z, F256.div x y = some z ∧ IsRNE (val x.pat / val y.pat) z.pat ∧
      signBit z.pat = xorSign x.pat y.pat := by
  by_cases hx0 : IsZero x.pat
  · obtain ⟨z, h1, h2, h3⟩ := C07_zero x y (Or.inl ⟨hx0, hy0, not_nan_of_fin hy⟩)
    refine ⟨z, h1, ?_, h3⟩
    rw [val_zero hx0, zero_div]
    exact isRNE_zero (pat_lt _) h2
  have hs := anySpecial2_false (x := x) (y := y) ⟨hx, hx0⟩ ⟨hy, hy0⟩
  have hfx := hx
  have hfy := hy
  rw [fin_iff] at hx hy
  rw [isZero_iff] at hx0 hy0
  rw [← nat_absBits] at hx hy hx0 hy0
  have hv : |val x.pat / val y.pat| * 2 ^ 262378 =
      (mag (nat256 (absBits x)) : ℝ) / mag (nat256 (absBits y)) * 2 ^ 262378 := by
    rw [abs_div_val, nat_absBits, nat_absBits, mag_abs, mag_abs]
  obtain ⟨N, h2, h4⟩ := divFinite_spec hx0 hx hy0 hy hv
  obtain ⟨z, h1, h3⟩ := h4 _ _ (toNat_xorSign x y) (xorSign_le _ _)
  refine ⟨z, ?_, ?_, ?_⟩
  · unfold F256.div
    simp only [hs, Bool.false_eq_true, if_false]
    exact h1
  · rw [h3]
    exact h2.isRNE (xorSign_le _ _) (sign_div_val _ _).1 (sign_div_val _ _).2
  · rw [h3]
    exact signBit_asm (xorSign_le _ _) h2.lt_pow

/-- C06, C07. Division never panics. -/
theorem C06_total (x y : F256) : (F256.div x y).isSome := by
  by_cases h : IsZero x.pat ∨ IsZero y.pat ∨ ¬ IsFin x.pat ∨ ¬ IsFin y.pat
  · rw [div_special h]; rfl
  · simp only [not_or, not_not] at h
    obtain ⟨z, h1, -⟩ := C06_div x y h.2.2.1 h.2.2.2 h.2.1
    rw [h1]; rfl

theorem val_ONE : val F256.ONE.pat = 1 := by
  unfold val quantumExp
  rw [show signBit F256.ONE.pat = 0 by decide, show significandOf F256.ONE.pat = 2 ^ 236 by decide,
    show expField F256.ONE.pat = 262143 by decide, Nat.cast_pow, Nat.cast_ofNat, pow_zero, one_mul,
    if_neg (by norm_num), ← zpow_natCast, ← zpow_add₀ (by norm_num)]
  norm_num

/-- C48. `recip` is the correctly rounded reciprocal, keeping the sign. -/
theorem C48_recip (x : F256) (hx : IsFin x.pat) (h0 : ¬ IsZero x.pat) :
    ∃ z, F256.recip x = some z ∧ IsRNE (1 / val x.pat) z.pat ∧ signBit z.pat = signBit x.pat := by
  obtain ⟨z, h1, h2, h3⟩ := C06_div F256.ONE x (by decide) hx h0
  rw [val_ONE] at h2
  refine ⟨z, h1, h2, h3.trans ?_⟩
  unfold xorSign
  rw [show signBit F256.ONE.pat = 0 by decide]
  rcases signBit_cases x.pat with h | h <;> rw [h]

/-- C48. The reciprocals of zeros, infinities and NaN. -/
theorem C48_special (x : F256) :
    (IsZero x.pat → ∃ z, F256.recip x = some z ∧ IsInf z.pat ∧ signBit z.pat = signBit x.pat) ∧
    (IsInf x.pat → ∃ z, F256.recip x = some z ∧ IsZero z.pat ∧ signBit z.pat = signBit x.pat) ∧
    (IsNaN x.pat → F256.recip x = some F256.NAN) := by
  have hs : xorSign F256.ONE.pat x.pat = signBit x.pat := by
    unfold xorSign
    rw [show signBit F256.ONE.pat = 0 by decide]
    rcases signBit_cases x.pat with h | h <;> rw [h]
  refine ⟨fun h => ?_, fun h => ?_, fun h => C07_nan _ _ (Or.inr h)⟩
  · rw [← hs]
    exact C07_infinite F256.ONE x (Or.inl ⟨by decide, by decide, h⟩)
  · rw [← hs]
    exact C07_zero F256.ONE x (Or.inr ⟨by decide, h⟩)

/-- 3 -/
def THREE : F256 := ⟨⟨0x40000800000000000000000000000000, 0⟩⟩

-- 1/3 rounds down, 2/3 rounds up
example : IsFin THREE.pat ∧ ¬ IsZero THREE.pat ∧ F256.recip THREE =
    some ⟨⟨0x3fffd555555555555555555555555555, 0x55555555555555555555555555555555⟩⟩ := by decide
example : F256.div F256.TWO THREE =
    some ⟨⟨0x3fffe555555555555555555555555555, 0x55555555555555555555555555555555⟩⟩ := by decide
example : F256.div F256.MIN_GT_ZERO F256.TWO = some F256.ZERO := by decide
example : F256.div F256.MAX F256.EPSILON = some F256.INFINITY := by decide
example : F256.div F256.ONE F256.NEG_ZERO = some F256.NEG_INFINITY := by decide

end Verif.Props
