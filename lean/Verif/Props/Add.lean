import Verif.Proofs.Add2
import Verif.Proofs.Round2
import Verif.Props.Basic

/-!
# Addition and subtraction (C01, C02, C03)
-/

namespace Verif.Props

open Verif Spec BigUInt

/-- The bit pattern of an operand is neither zero, nor infinite, nor NaN. -/
def FinNonzero (N : ℕ) : Prop := IsFin N ∧ ¬ IsZero N

theorem anySpecial2_false {x y : F256} (hx : FinNonzero x.pat) (hy : FinNonzero y.pat) :
    anySpecial2 (absBitsSticky (absBits x)) (absBitsSticky (absBits y)) = false := by
  obtain ⟨fx, zx⟩ := hx
  obtain ⟨fy, zy⟩ := hy
  rw [fin_iff] at fx fy
  rw [isZero_iff] at zx zy
  rw [anySpecial2, Bool.or_eq_false_iff, ← Bool.not_eq_true, ← Bool.not_eq_true, special_iff,
    special_iff, nat_absBits, nat_absBits]
  omega

theorem absBits_eq_iff (x y : F256) : absBits x = absBits y ↔ x.pat % 2 ^ 255 = y.pat % 2 ^ 255 := by
  rw [← nat_absBits, ← nat_absBits]
  exact ⟨fun h => by rw [h], nat256_inj⟩

theorem signBitsHi_eq_iff (x y : F256) : signBitsHi x = signBitsHi y ↔
    signBit x.pat = signBit y.pat := by
  have h1 := toNat_signBitsHi x
  have h2 := toNat_signBitsHi y
  have := pat_lt x
  have := pat_lt y
  rw [← BitVec.toNat_inj, h1, h2, signBit_eq (pat_lt x), signBit_eq (pat_lt y)]
  omega

/-- The sum of two signed magnitudes, the first having the larger magnitude. -/
theorem combine_smag {N M : ℕ} (h : mag M ≤ mag N) :
    |((smag N + smag M : ℤ) : ℝ)| =
      combine (decide (signBit N = signBit M)) (mag N) (mag M) ∧
    (0 < smag N + smag M → signBit N = 0) ∧ (smag N + smag M < 0 → signBit N = 1) := by
  have h' : (mag M : ℝ) ≤ mag N := by exact_mod_cast h
  have h0 : (0 : ℝ) ≤ mag M := by positivity
  unfold smag
  rcases signBit_cases N with hN | hN <;> rcases signBit_cases M with hM | hM <;>
    simp only [hN, hM, if_true, if_false, one_ne_zero, zero_ne_one, decide_true, decide_false,
      combine_true, combine_false]
  · refine ⟨?_, fun _ => trivial, fun _ => by omega⟩
    push_cast
    rw [abs_of_nonneg (by linarith)]
  · refine ⟨?_, fun _ => trivial, fun _ => by omega⟩
    push_cast
    rw [abs_of_nonneg (by linarith)]; ring
  · refine ⟨?_, fun _ => by omega, fun _ => trivial⟩
    push_cast
    rw [abs_of_nonpos (by linarith)]; ring
  · refine ⟨?_, fun _ => by omega, fun _ => trivial⟩
    push_cast
    rw [abs_of_nonpos (by linarith)]; ring

/-- The body of the addition for ordered operands. -/
theorem add_core {x y : F256} (hx : FinNonzero x.pat) (hy : FinNonzero y.pat)
    (hle : y.pat % 2 ^ 255 ≤ x.pat % 2 ^ 255)
    (hne : y.pat % 2 ^ 255 = x.pat % 2 ^ 255 → signBit x.pat = signBit y.pat) :
    ∃ z, addAbs (absBits x) (absBits y) (decide (signBitsHi x = signBitsHi y)) = some z ∧
      IsRNE (val x.pat + val y.pat) (nat256 ⟨z.hi ||| signBitsHi x, z.lo⟩) := by
  obtain ⟨fx, zx⟩ := hx
  obtain ⟨fy, zy⟩ := hy
  rw [fin_iff] at fx fy
  rw [isZero_iff] at zx zy
  have a1 : nat256 (absBits x) < INF := by rw [nat_absBits]; exact fx
  have a2 : nat256 (absBits y) ≠ 0 := by rw [nat_absBits]; exact zy
  have a3 : nat256 (absBits y) ≤ nat256 (absBits x) := by rw [nat_absBits, nat_absBits]; exact hle
  have a4 : decide (signBitsHi x = signBitsHi y) = false →
      nat256 (absBits y) ≠ nat256 (absBits x) := by
    intro h he
    rw [nat_absBits, nat_absBits] at he
    rw [decide_eq_false_iff_not, signBitsHi_eq_iff] at h
    exact h (hne he)
  obtain ⟨z, hz, hr⟩ := addAbs_spec (decide (signBitsHi x = signBitsHi y)) a1 a2 a3 a4
  refine ⟨z, hz, ?_⟩
  rw [nat_absBits, nat_absBits, mag_abs, mag_abs] at hr
  have hm : mag y.pat ≤ mag x.pat := by
    rw [← mag_abs y.pat, ← mag_abs x.pat]
    rcases Nat.lt_or_eq_of_le hle with h | h
    · exact (mag_lt_of_lt h fx).le
    · rw [h]
  obtain ⟨h1, h2, h3⟩ := combine_smag hm
  rw [nat_or_sign hr.lt_pow (by rw [toNat_signBitsHi, ← signBit_eq (pat_lt x)])]
  have hK : (0 : ℝ) < 2 ^ 262378 := by positivity
  have hq : val x.pat + val y.pat = ((smag x.pat + smag y.pat : ℤ) : ℝ) / 2 ^ 262378 := by
    rw [val_smag, val_smag, Int.cast_add, add_div]
  rw [hq]
  refine RoundsTo.isRNE ?_ ?_ ?_ ?_
  · rw [abs_div, abs_of_pos hK, div_mul_cancel₀ _ hK.ne', h1,
      decide_eq_decide.mpr (signBitsHi_eq_iff x y).symm]
    exact hr
  · rcases signBit_cases x.pat with h | h <;> omega
  · intro h
    rw [div_pos_iff_of_pos_right hK] at h
    exact h2 (by exact_mod_cast h)
  · intro h
    rw [div_lt_iff₀ hK, zero_mul] at h
    exact h3 (by exact_mod_cast h)

theorem add_finNonzero {x y : F256} (hx : FinNonzero x.pat) (hy : FinNonzero y.pat) :
    ∃ z, F256.add x y = some z ∧ IsRNE (val x.pat + val y.pat) z.pat ∧
      (val x.pat + val y.pat = 0 → z = F256.ZERO) := by
  have hs := anySpecial2_false hx hy
  have hxz : val x.pat ≠ 0 := fun h => hx.2 ((val_eq_zero_iff hx.1).mp h)
  have hyz : val y.pat ≠ 0 := fun h => hy.2 ((val_eq_zero_iff hy.1).mp h)
  unfold F256.add
  simp only [hs, Bool.false_eq_true, if_false]
  by_cases h0 : absBits x = absBits y ∧ signBitsHi x ≠ signBitsHi y
  · rw [if_pos h0]
    refine ⟨_, rfl, ?_, fun _ => rfl⟩
    obtain ⟨h1, h2⟩ := h0
    rw [absBits_eq_iff] at h1
    rw [Ne, signBitsHi_eq_iff] at h2
    have e : val x.pat + val y.pat = 0 := by
      rw [val_eq, val_eq, ← mag_abs, h1, mag_abs]
      rcases signBit_cases x.pat with h | h <;> rcases signBit_cases y.pat with h' | h' <;>
        first
        | exact absurd (h.trans h'.symm) h2
        | (rw [h, h', pow_zero, pow_one]; ring)
    rw [e, ← val_zero (N := F256.ZERO.pat) (by decide)]
    exact isRNE_self (by decide) (by decide)
  · rw [if_neg h0]
    rw [absBits_eq_iff, Ne, signBitsHi_eq_iff] at h0
    rcases Nat.lt_or_ge (x.pat % 2 ^ 255) (y.pat % 2 ^ 255) with hlt | hge
    · have hc : (UInt.cmp (absBits x) (absBits y) == .lt) = true := by
        rw [cmp256, nat_absBits, nat_absBits, beq_iff_eq, Nat.compare_eq_lt]; exact hlt
      obtain ⟨z, hz, hr⟩ := add_core hy hx hlt.le (fun h => by omega)
      simp only [hc, if_true]
      rw [hz]
      refine ⟨_, rfl, ?_, ?_⟩
      · rw [add_comm]; exact hr
      · intro h
        exfalso
        have : val x.pat = - val y.pat := by linarith
        have h3 : |val x.pat| * 2 ^ 262378 = |val y.pat| * 2 ^ 262378 := by rw [this, abs_neg]
        rw [abs_val, abs_val] at h3
        have h4 : mag x.pat = mag y.pat := by exact_mod_cast h3
        have := mag_lt_of_lt hlt ((fin_iff _).mp hy.1)
        rw [mag_abs, mag_abs] at this
        omega
    · have hc : (UInt.cmp (absBits x) (absBits y) == .lt) = false := by
        rw [← Bool.not_eq_true, cmp256, nat_absBits, nat_absBits, beq_iff_eq, Nat.compare_eq_lt]
        omega
      have hne : y.pat % 2 ^ 255 = x.pat % 2 ^ 255 → signBit x.pat = signBit y.pat := by
        intro h; by_contra h'; exact h0 ⟨h.symm, h'⟩
      obtain ⟨z, hz, hr⟩ := add_core hx hy hge hne
      simp only [hc, Bool.false_eq_true, if_false]
      rw [hz]
      refine ⟨_, rfl, hr, ?_⟩
      intro h
      exfalso
      have : val x.pat = - val y.pat := by linarith
      have h3 : |val x.pat| * 2 ^ 262378 = |val y.pat| * 2 ^ 262378 := by rw [this, abs_neg]
      rw [abs_val, abs_val] at h3
      have h4 : mag x.pat = mag y.pat := by exact_mod_cast h3
      have h5 : y.pat % 2 ^ 255 = x.pat % 2 ^ 255 := by
        rcases Nat.lt_or_eq_of_le hge with h6 | h6
        · have := mag_lt_of_lt h6 ((fin_iff _).mp hx.1)
          rw [mag_abs, mag_abs] at this
          omega
        · exact h6
      have h6 := hne h5
      have h7 : val x.pat = val y.pat := by rw [val_eq, val_eq, h4, h6]
      exact hxz (by linarith)

/-! ## Special operands -/

/-- The order of the sticky high words of special operands. -/
theorem sticky_facts (x : F256) :
    ((absBitsSticky (absBits x)).toNat = 0 ↔ IsZero x.pat) ∧
    ((absBitsSticky (absBits x)).toNat < 524287 * 2 ^ 108 ↔ IsFin x.pat) ∧
    ((absBitsSticky (absBits x)).toNat = 524287 * 2 ^ 108 ↔ IsInf x.pat) ∧
    (524287 * 2 ^ 108 < (absBitsSticky (absBits x)).toNat ↔ IsNaN x.pat) := by
  have h0 := sticky_eq_zero (absBits x)
  have h1 := sticky_cmp (absBits x) (524287 * 2 ^ 107)
  rw [nat_absBits] at h0 h1
  rw [isZero_iff, fin_iff, isInf_iff, isNaN_iff]
  unfold INF
  omega

/-- The branch for special operands. -/
theorem add_special {x y : F256}
    (h : IsZero x.pat ∨ IsZero y.pat ∨ ¬ IsFin x.pat ∨ ¬ IsFin y.pat) :
    F256.add x y = some (
      if IsZero x.pat ∧ IsZero y.pat then ⟨U256.new (signBitsHi x &&& signBitsHi y) 0⟩
      else if IsNaN x.pat ∨ IsNaN y.pat ∨
        (IsInf x.pat ∧ IsInf y.pat ∧ signBit x.pat ≠ signBit y.pat) then F256.NAN
      else if (absBitsSticky (absBits y)).toNat < (absBitsSticky (absBits x)).toNat then x else y) := by
  obtain ⟨x1, x2, x3, x4⟩ := sticky_facts x
  obtain ⟨y1, y2, y3, y4⟩ := sticky_facts y
  have hs : anySpecial2 (absBitsSticky (absBits x)) (absBitsSticky (absBits y)) = true := by
    rw [anySpecial2, Bool.or_eq_true, isSpecialHi_iff, isSpecialHi_iff, x1, y1,
      ← not_lt, ← not_lt, x2, y2]
    clear * - h
    rcases h with h | h | h | h
    · exact Or.inl (Or.inl h)
    · exact Or.inr (Or.inl h)
    · exact Or.inl (Or.inr h)
    · exact Or.inr (Or.inr h)
  unfold F256.add
  simp only [hs, if_true, BitVec.le_def, BitVec.lt_def]
  have hmax : (if (absBitsSticky (absBits x)).toNat ≤ (absBitsSticky (absBits y)).toNat then
      absBitsSticky (absBits y) else absBitsSticky (absBits x)).toNat =
      max (absBitsSticky (absBits x)).toNat (absBitsSticky (absBits y)).toNat := by
    split <;> omega
  have c1 : ((if (absBitsSticky (absBits x)).toNat ≤ (absBitsSticky (absBits y)).toNat then
      absBitsSticky (absBits y) else absBitsSticky (absBits x)) = 0) ↔
      IsZero x.pat ∧ IsZero y.pat := by
    rw [← BitVec.toNat_inj, hmax, show (0 : BitVec 128).toNat = 0 by decide, ← x1, ← y1]
    omega
  have c2 : (HI_EXP_MASK.toNat < (if (absBitsSticky (absBits x)).toNat ≤
      (absBitsSticky (absBits y)).toNat then
      absBitsSticky (absBits y) else absBitsSticky (absBits x)).toNat ∨
      absBitsSticky (absBits x) = INF_HI ∧ absBitsSticky (absBits y) = INF_HI ∧
      signBitsHi x ≠ signBitsHi y) ↔ IsNaN x.pat ∨ IsNaN y.pat ∨
        (IsInf x.pat ∧ IsInf y.pat ∧ signBit x.pat ≠ signBit y.pat) := by
    rw [hmax, ← BitVec.toNat_inj, ← BitVec.toNat_inj, Ne, signBitsHi_eq_iff, ← x3, ← y3, ← x4,
      ← y4, show HI_EXP_MASK.toNat = 524287 * 2 ^ 108 by decide,
      show INF_HI.toNat = 524287 * 2 ^ 108 by decide, lt_max_iff, or_assoc]
  simp only [c1, c2]
  split
  · rfl
  · split
    · rfl
    · rfl

theorem not_nan_of_fin {N : ℕ} (h : IsFin N) : ¬ IsNaN N := fun h' => h h'.1
theorem not_inf_of_fin {N : ℕ} (h : IsFin N) : ¬ IsInf N := fun h' => h h'.1
theorem fin_of_zero {N : ℕ} (h : IsZero N) : IsFin N := by unfold IsFin; rw [h.1]; norm_num
theorem not_nan_of_inf {N : ℕ} (h : IsInf N) : ¬ IsNaN N := fun h' => h'.2 h.2
theorem not_fin_of_inf {N : ℕ} (h : IsInf N) : ¬ IsFin N := fun h' => h' h.1
theorem not_fin_of_nan {N : ℕ} (h : IsNaN N) : ¬ IsFin N := fun h' => h' h.1
theorem not_zero_of_inf {N : ℕ} (h : IsInf N) : ¬ IsZero N := fun h' =>
  not_fin_of_inf h (fin_of_zero h')
theorem not_zero_of_nan {N : ℕ} (h : IsNaN N) : ¬ IsZero N := fun h' =>
  not_fin_of_nan h (fin_of_zero h')

/-- C03. A NaN operand gives NaN. -/
theorem C03_nan (x y : F256) (h : IsNaN x.pat ∨ IsNaN y.pat) :
    F256.add x y = some F256.NAN ∧ IsNaN F256.NAN.pat := by
  refine ⟨?_, by decide⟩
  rw [add_special (by rcases h with h | h <;> simp [not_fin_of_nan h]), if_neg, if_pos]
  · rcases h with h | h <;> simp [h]
  · rintro ⟨h1, h2⟩
    rcases h with h | h
    · exact not_zero_of_nan h h1
    · exact not_zero_of_nan h h2

/-- C03. Infinities of opposite sign give NaN. -/
theorem C03_inf_opposite (x y : F256) (hx : IsInf x.pat) (hy : IsInf y.pat)
    (hs : signBit x.pat ≠ signBit y.pat) : F256.add x y = some F256.NAN := by
  rw [add_special (by simp [not_fin_of_inf hx]), if_neg (fun h => not_zero_of_inf hx h.1), if_pos]
  exact Or.inr (Or.inr ⟨hx, hy, hs⟩)

/-- C03. Infinities of equal sign give that infinity. -/
theorem C03_inf_same (x y : F256) (hx : IsInf x.pat) (hy : IsInf y.pat)
    (hs : signBit x.pat = signBit y.pat) : F256.add x y = some x := by
  have e : x = y := by
    apply pat_inj
    rw [pat_split (pat_lt x), pat_split (pat_lt y), hs, (isInf_iff _).mp hx, (isInf_iff _).mp hy]
  subst e
  rw [add_special (by simp [not_fin_of_inf hx]), if_neg (fun h => not_zero_of_inf hx h.1), if_neg,
    if_neg (lt_irrefl _)]
  rintro (h | h | h)
  · exact not_nan_of_inf hx h
  · exact not_nan_of_inf hx h
  · exact h.2.2 rfl

/-- C03. An infinity and a finite number give the infinity. -/
theorem C03_inf_finite (x y : F256) (hx : IsInf x.pat) (hy : IsFin y.pat) :
    F256.add x y = some x ∧ F256.add y x = some x := by
  obtain ⟨x1, x2, x3, x4⟩ := sticky_facts x
  obtain ⟨y1, y2, y3, y4⟩ := sticky_facts y
  have h1 := x3.mpr hx
  have h2 := y2.mpr hy
  constructor
  · rw [add_special (by simp [not_fin_of_inf hx]), if_neg (fun h => not_zero_of_inf hx h.1), if_neg,
      if_pos (by omega)]
    rintro (h | h | h)
    · exact not_nan_of_inf hx h
    · exact not_nan_of_fin hy h
    · exact not_inf_of_fin hy h.2.1
  · rw [add_special (by simp [not_fin_of_inf hx]), if_neg (fun h => not_zero_of_inf hx h.2), if_neg,
      if_neg (by omega)]
    rintro (h | h | h)
    · exact not_nan_of_fin hy h
    · exact not_nan_of_inf hx h
    · exact not_inf_of_fin hy h.1

/-- C03. Adding a zero to a finite non-zero number gives this number. -/
theorem C03_zero_finite (x y : F256) (hx : IsZero x.pat) (hy : IsFin y.pat) (hy0 : ¬ IsZero y.pat) :
    F256.add x y = some y ∧ F256.add y x = some y := by
  obtain ⟨x1, x2, x3, x4⟩ := sticky_facts x
  obtain ⟨y1, y2, y3, y4⟩ := sticky_facts y
  have h1 := x1.mpr hx
  rw [← y1] at hy0
  have hx' := fin_of_zero hx
  constructor
  · rw [add_special (by simp [hx]), if_neg (fun h => hy0 (y1.mpr h.2)), if_neg,
      if_neg (by omega)]
    rintro (h | h | h)
    · exact not_nan_of_fin hx' h
    · exact not_nan_of_fin hy h
    · exact not_inf_of_fin hy h.2.1
  · rw [add_special (by simp [hx]), if_neg (fun h => hy0 (y1.mpr h.1)), if_neg,
      if_pos (by omega)]
    rintro (h | h | h)
    · exact not_nan_of_fin hy h
    · exact not_nan_of_fin hx' h
    · exact not_inf_of_fin hy h.1

/-- C03. The sum of two zeros is -0 if both are -0, else +0. -/
theorem C03_zeros (x y : F256) (hx : IsZero x.pat) (hy : IsZero y.pat) :
    F256.add x y = some (if signBit x.pat = 1 ∧ signBit y.pat = 1 then F256.NEG_ZERO
      else F256.ZERO) := by
  rw [add_special (by simp [hx]), if_pos ⟨hx, hy⟩]
  congr 1
  apply pat_inj
  have h1 := toNat_signBitsHi x
  have h2 := toNat_signBitsHi y
  rw [← signBit_eq (pat_lt _)] at h1 h2
  rw [pat_eq, nat256_new, BitVec.toNat_and, h1, h2]
  rcases signBit_cases x.pat with h | h <;> rcases signBit_cases y.pat with h' | h' <;>
    rw [h, h'] <;> decide

/-- C03. If the exact sum of two finite numbers is zero, then the result is +0, unless both
operands are -0, in which case it is -0. -/
theorem C03_exact_zero (x y : F256) (hx : IsFin x.pat) (hy : IsFin y.pat)
    (h : val x.pat + val y.pat = 0) :
    F256.add x y = some (if x = F256.NEG_ZERO ∧ y = F256.NEG_ZERO then F256.NEG_ZERO
      else F256.ZERO) := by
  by_cases zx : IsZero x.pat
  · have zy : IsZero y.pat := by
      rw [val_zero zx, zero_add] at h; exact (val_eq_zero_iff hy).mp h
    rw [C03_zeros x y zx zy]
    have key : ∀ w : F256, IsZero w.pat → (signBit w.pat = 1 ↔ w = F256.NEG_ZERO) := by
      intro w hw
      constructor
      · intro hs
        apply pat_inj
        rw [pat_split (pat_lt w), hs, (isZero_iff _).mp hw]
        decide
      · rintro rfl; decide
    simp only [key x zx, key y zy]
  · have zy : ¬ IsZero y.pat := fun h' => by
      rw [val_zero h', add_zero] at h; exact zx ((val_eq_zero_iff hx).mp h)
    obtain ⟨z, hz, -, h0⟩ := add_finNonzero ⟨hx, zx⟩ ⟨hy, zy⟩
    rw [hz, h0 h, if_neg]
    rintro ⟨rfl, -⟩
    exact zx (by decide)

/-- C01. Addition of finite numbers is correctly rounded: it does not panic and returns the
binary256 number nearest to the exact real sum, ties to even, overflowing to infinity exactly
from the IEEE overflow threshold on. -/
theorem C01_add (x y : F256) (hx : IsFin x.pat) (hy : IsFin y.pat) :
    ∃ z, F256.add x y = some z ∧ IsRNE (val x.pat + val y.pat) z.pat := by
  by_cases zx : IsZero x.pat
  · by_cases zy : IsZero y.pat
    · have e : val x.pat + val y.pat = 0 := by rw [val_zero zx, val_zero zy, add_zero]
      refine ⟨_, C03_exact_zero x y hx hy e, ?_⟩
      rw [e]
      split
      · rw [← val_zero (N := F256.NEG_ZERO.pat) (by decide)]
        exact isRNE_self (by decide) (by decide)
      · rw [← val_zero (N := F256.ZERO.pat) (by decide)]
        exact isRNE_self (by decide) (by decide)
    · refine ⟨y, (C03_zero_finite x y zx hy zy).1, ?_⟩
      rw [val_zero zx, zero_add]
      exact isRNE_self (pat_lt y) hy
  · by_cases zy : IsZero y.pat
    · refine ⟨x, (C03_zero_finite y x zy hx zx).2, ?_⟩
      rw [val_zero zy, add_zero]
      exact isRNE_self (pat_lt x) hx
    · obtain ⟨z, hz, hr, -⟩ := add_finNonzero ⟨hx, zx⟩ ⟨hy, zy⟩
      exact ⟨z, hz, hr⟩

theorem isFin_negated (x : F256) : IsFin x.negated.pat ↔ IsFin x.pat := by
  unfold IsFin; rw [(C18_class x).1]

/-- C02. Subtraction of finite numbers is correctly rounded. -/
theorem C02_sub (x y : F256) (hx : IsFin x.pat) (hy : IsFin y.pat) :
    ∃ z, F256.sub x y = some z ∧ IsRNE (val x.pat - val y.pat) z.pat := by
  obtain ⟨z, hz, hr⟩ := C01_add x y.negated hx ((isFin_negated y).mpr hy)
  refine ⟨z, hz, ?_⟩
  rwa [C18_neg_val, ← sub_eq_add_neg] at hr

/-- C02. `x - y` and `x + (-y)` are the same bits (for all operands). -/
theorem C02_sub_eq_add_neg (x y : F256) : F256.sub x y = F256.add x y.negated := rfl

/-- C01, C02. Addition and subtraction return for all operands, special or not. -/
theorem C01_total (x y : F256) : (F256.add x y).isSome ∧ (F256.sub x y).isSome := by
  have key : ∀ x y : F256, (F256.add x y).isSome := by
    intro x y
    by_cases h : IsFin x.pat ∧ IsFin y.pat
    · obtain ⟨z, hz, -⟩ := C01_add x y h.1 h.2
      rw [hz]; rfl
    · rw [add_special (by
        rcases not_and_or.mp h with h | h
        · exact Or.inr (Or.inr (Or.inl h))
        · exact Or.inr (Or.inr (Or.inr h)))]
      rfl
  exact ⟨key x y, key x y.negated⟩

/-! Non-trivial instances: operands meeting the hypotheses, with carry, rounding, cancellation,
overflow and subnormal results. -/

example : IsFin F256.MAX.pat ∧ F256.add F256.MAX F256.MAX = some F256.INFINITY := by decide
example : F256.add F256.ONE F256.ONE = some F256.TWO := by decide
example : F256.sub F256.ONE ⟨⟨0x3fffefffffffffffffffffffffffffff, U128_MAX⟩⟩ =
    some ⟨⟨0x3ff12000000000000000000000000000, 0⟩⟩ := by decide
example : F256.add F256.ONE F256.MIN_GT_ZERO = some F256.ONE := by decide
example : F256.sub F256.MIN_POSITIVE F256.MIN_GT_ZERO =
    some ⟨⟨0xfffffffffffffffffffffffffff, U128_MAX⟩⟩ := by decide
example : IsInf F256.INFINITY.pat ∧ IsInf F256.NEG_INFINITY.pat ∧
    signBit F256.INFINITY.pat ≠ signBit F256.NEG_INFINITY.pat := by decide
example : IsNaN F256.NAN.pat ∧ IsZero F256.NEG_ZERO.pat ∧ ¬ IsZero F256.ONE.pat := by decide
example : F256.add F256.NEG_ZERO F256.NEG_ZERO = some F256.NEG_ZERO := by decide

end Verif.Props
