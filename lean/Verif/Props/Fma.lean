import Verif.Proofs.Fma
import Verif.Proofs.Exact
import Verif.Props.Scale

/-!
# Fused multiply-add (C09)
-/

namespace Verif.Props

open Verif Spec BigUInt

theorem fma_decode {x : F256} (hx : FinNonzero x.pat) : ∃ T : ℕ,
    (expBits (absBits x) : ℤ) - normBit (absBits x) = T ∧ T ≤ 524285 ∧
    nat256 (signif (absBits x)) = significandOf x.pat ∧ nat256 (signif (absBits x)) ≠ 0 ∧
    nat256 (signif (absBits x)) < 2 ^ 237 ∧ (T = 0 ∨ 2 ^ 236 ≤ nat256 (signif (absBits x))) ∧
    (2 ^ 236 ≤ nat256 (signif (absBits x)) → (expBits (absBits x) : ℤ) = T + 1) ∧
    mag x.pat = nat256 (signif (absBits x)) * 2 ^ T := by
  obtain ⟨fx, zx⟩ := hx
  rw [fin_iff, ← nat_absBits] at fx
  rw [isZero_iff, ← nat_absBits] at zx
  obtain ⟨h1, h2, h3, h4, h5, h6, h7⟩ := decodedNat fx
  refine ⟨expBits (absBits x) - 1, by omega, by omega, signif_abs x, ?_, h2, h6, ?_, ?_⟩
  · intro h0
    rw [h0, Nat.zero_mul] at h7
    have := mag_pos (Nat.pos_of_ne_zero zx) fx
    omega
  · intro h
    have hn : expBits (absBits x) ≠ 0 := by
      intro h0
      rw [h1, significandOf, ← h3, h0, if_pos rfl] at h
      unfold fracField at h
      have := Nat.mod_lt (nat256 (absBits x)) (show 0 < 2 ^ 236 by positivity)
      omega
    omega
  · rw [nat_absBits, mag_abs] at h7
    exact h7

theorem neg_one_xor (N M : ℕ) : (-1 : ℝ) ^ signBit N * (-1) ^ signBit M = (-1) ^ xorSign N M := by
  unfold xorSign
  rcases signBit_cases N with h | h <;> rcases signBit_cases M with h' | h' <;> rw [h, h'] <;>
    norm_num

/-- The exact result, measured in quanta, in terms of the decoded operands. -/
theorem fma_value {x y a : F256} {X Y S Tx Ty Ta : ℕ} (hx : mag x.pat = X * 2 ^ Tx)
    (hy : mag y.pat = Y * 2 ^ Ty) (ha : mag a.pat = S * 2 ^ Ta) {Ep d : ℤ}
    (hEp : Ep = Tx + Ty - 262142) (hd : d = Ta - Ep) :
    (val x.pat * val y.pat + val a.pat) * 2 ^ 262378 =
      fmaSum (xorSign x.pat y.pat) (signBit a.pat) (4 * (X * Y)) (S * (2 : ℝ) ^ (d + 238)) *
        (2 : ℝ) ^ (Ep - 238) := by
  have hK : (2 : ℝ) ^ 262378 ≠ 0 := by positivity
  have h1 : (val x.pat * val y.pat + val a.pat) * 2 ^ 262378 =
      (-1) ^ xorSign x.pat y.pat * ((X * 2 ^ Tx) * (Y * 2 ^ Ty) / 2 ^ 262378) +
      (-1) ^ signBit a.pat * (S * 2 ^ Ta) := by
    rw [val_eq, val_eq, val_eq, hx, hy, ha, ← neg_one_xor]
    push_cast
    generalize (2 : ℝ) ^ 262378 = K at *
    field_simp
  have e1 : (2 : ℝ) ^ (d + 238) * (2 : ℝ) ^ (Ep - 238) = 2 ^ Ta := by
    rw [← zpow_add₀ (by norm_num), ← zpow_natCast]
    congr 1
    rw [hd]; ring
  have e2 : (4 : ℝ) * (2 : ℝ) ^ (Ep - 238) = 2 ^ Tx * 2 ^ Ty / 2 ^ 262378 := by
    rw [show (4 : ℝ) = (2 : ℝ) ^ (2 : ℤ) by norm_num, ← zpow_natCast, ← zpow_natCast,
      ← zpow_natCast, ← zpow_add₀ (by norm_num), ← zpow_add₀ (by norm_num),
      ← zpow_sub₀ (by norm_num)]
    congr 1
    rw [hEp]; push_cast; ring
  rw [h1, fmaSum, add_mul]
  congr 1
  · push_cast
    rw [show ((-1 : ℝ) ^ xorSign x.pat y.pat * (4 * (X * Y)) * (2 : ℝ) ^ (Ep - 238)) =
      (-1) ^ xorSign x.pat y.pat * (X * Y * (4 * (2 : ℝ) ^ (Ep - 238))) by ring, e2]
    ring
  · rw [mul_assoc, mul_assoc, e1]

/-- A sufficient condition on the factors: both are normal numbers, or product and addend have
the same sign and neither significand is 1. -/
def FactorsOK (x y a : ℕ) : Prop :=
  (IsNormal x ∧ IsNormal y) ∨
    (xorSign x y = signBit a ∧ 2 ≤ significandOf x ∧ 2 ≤ significandOf y)

theorem signif_normal {N : ℕ} (h : IsNormal N) : 2 ^ 236 ≤ significandOf N := by
  unfold significandOf
  rw [if_neg h.1]; omega

theorem fma_signs (x y a : F256) : ((x.bits.hi ^^^ y.bits.hi) &&& HI_SIGN_MASK = signBitsHi a) ↔
    xorSign x.pat y.pat = signBit a.pat := by
  rw [← BitVec.toNat_inj, toNat_xorSign, toNat_signBitsHi, ← signBit_eq (pat_lt a)]
  omega

theorem fma_finNonzero {x y a : F256} (hx : FinNonzero x.pat) (hy : FinNonzero y.pat)
    (ha : FinNonzero a.pat) (hok : FactorsOK x.pat y.pat a.pat)
    (hv : (2 : ℝ) ^ 236 ≤ |(val x.pat * val y.pat + val a.pat) * 2 ^ 262378|) :
    ∃ z, Fma.finite (absBits x) (absBits y) (absBits a) ((x.bits.hi ^^^ y.bits.hi) &&& HI_SIGN_MASK)
      (signBitsHi a) = some z ∧ IsRNE (val x.pat * val y.pat + val a.pat) z.pat := by
  obtain ⟨Tx, tx1, tx2, tx3, tx4, tx5, tx6, tx7, tx8⟩ := fma_decode hx
  obtain ⟨Ty, ty1, ty2, ty3, ty4, ty5, ty6, ty7, ty8⟩ := fma_decode hy
  obtain ⟨Ta, ta1, ta2, ta3, ta4, ta5, ta6, ta7, ta8⟩ := fma_decode ha
  obtain ⟨Ep, hEp⟩ : ∃ Ep : ℤ, Ep = Tx + Ty - 262142 := ⟨_, rfl⟩
  obtain ⟨d, hd⟩ : ∃ d : ℤ, d = Ta - Ep := ⟨_, rfl⟩
  have hval := fma_value tx8 ty8 ta8 hEp hd
  have hEp' : ((expBits (absBits x) : ℤ) - normBit (absBits x)) +
      ((expBits (absBits y) : ℤ) - normBit (absBits y)) + EMIN = Ep := by
    rw [tx1, ty1, hEp, EMIN]; ring
  unfold Fma.finite
  dsimp only
  rw [hEp', ta1, ← hd]
  -- names for the significands
  obtain ⟨Pz, hPz⟩ : ∃ Pz, Pz = Fma.product (signif (absBits x)) (signif (absBits y)) := ⟨_, rfl⟩
  have hPn : nat768 Pz = 4 * (nat256 (signif (absBits x)) * nat256 (signif (absBits y))) := by
    rw [hPz]; exact nat_product ty5
  rw [← hPz]
  rw [← hPn] at hval
  have hprod : nat256 (signif (absBits x)) * nat256 (signif (absBits y)) < 2 ^ 237 * 2 ^ 237 :=
    Nat.mul_lt_mul_of_lt_of_lt tx5 ty5
  have hP476 : nat768 Pz < 2 ^ 476 := by rw [hPn]; rw [← Nat.pow_add] at hprod; omega
  have hP4 : nat768 Pz % 4 = 0 := by rw [hPn]; omega
  obtain ⟨sP, hsP⟩ : ∃ s, s = xorSign x.pat y.pat := ⟨_, rfl⟩
  obtain ⟨sA, hsA⟩ : ∃ s, s = signBit a.pat := ⟨_, rfl⟩
  have hsP1 : sP ≤ 1 := by rw [hsP]; exact xorSign_le _ _
  have hsA1 : sA ≤ 1 := by rw [hsA]; rcases signBit_cases a.pat with h | h <;> omega
  have hgP : ((x.bits.hi ^^^ y.bits.hi) &&& HI_SIGN_MASK).toNat = sP * 2 ^ 127 := by
    rw [hsP]; exact toNat_xorSign x y
  have hgA : (signBitsHi a).toNat = sA * 2 ^ 127 := by
    rw [hsA, toNat_signBitsHi, ← signBit_eq (pat_lt a)]
  have hsame := fma_signs x y a
  rw [← hsP, ← hsA] at hsame hval
  unfold FactorsOK at hok
  rw [← hsP, ← hsA, ← tx3, ← ty3] at hok
  generalize ((x.bits.hi ^^^ y.bits.hi) &&& HI_SIGN_MASK) = gP at *
  generalize signBitsHi a = gA at *
  -- size of the product
  have hPr : (nat768 Pz : ℝ) = 4 * (nat256 (signif (absBits x)) * nat256 (signif (absBits y))) := by
    rw [hPn]; push_cast; rfl
  have hPbig : (IsNormal x.pat ∧ IsNormal y.pat) → 2 ^ 474 ≤ nat768 Pz := by
    rintro ⟨h1, h2⟩
    have g1 := signif_normal h1
    have g2 := signif_normal h2
    rw [← tx3] at g1
    rw [← ty3] at g2
    have := Nat.mul_le_mul g1 g2
    rw [← Nat.pow_add] at this
    rw [hPn]; omega
  obtain ⟨S, hS⟩ : ∃ S, S = nat256 (signif (absBits a)) := ⟨_, rfl⟩
  rw [← hS] at ta3 ta4 ta5 ta6 ta7 ta8 hval
  obtain ⟨A, hA⟩ : ∃ A : ℝ, A = S * (2 : ℝ) ^ (d + 238) := ⟨_, rfl⟩
  rw [← hA] at hval
  have hSr : (S : ℝ) < 2 ^ 237 := by exact_mod_cast ta5
  have hS0 : (0 : ℝ) < S := by exact_mod_cast Nat.pos_of_ne_zero ta4
  have hA0 : 0 < A := by rw [hA]; exact mul_pos hS0 (zpow_pos (by norm_num) _)
  have hPpos : (0 : ℝ) ≤ nat768 Pz := Nat.cast_nonneg _
  have hP476r : (nat768 Pz : ℝ) < 2 ^ 476 := by exact_mod_cast hP476
  have hpU : (0 : ℝ) < (2 : ℝ) ^ (Ep - 238) := zpow_pos (by norm_num) _
  have hAU : A * (2 : ℝ) ^ (Ep - 238) = S * 2 ^ Ta := by
    rw [hA, mul_assoc, ← zpow_add₀ (by norm_num), ← zpow_natCast]
    congr 2
    rw [hd]; ring
  have hv' : (2 : ℝ) ^ 236 ≤ |fmaSum sP sA (nat768 Pz) A| * (2 : ℝ) ^ (Ep - 238) := by
    rw [hval, abs_mul, abs_of_pos hpU] at hv
    exact hv
  have hKpos : (0 : ℝ) < 2 ^ 262378 := by positivity
  have hvabs : |val x.pat * val y.pat + val a.pat| * 2 ^ 262378 =
      |fmaSum sP sA (nat768 Pz) A| * (2 : ℝ) ^ (Ep - 238) := by
    rw [← abs_of_pos hpU, ← abs_mul, ← hval, abs_mul, abs_of_pos hKpos]
  have hsign : (0 < val x.pat * val y.pat + val a.pat → 0 < fmaSum sP sA (nat768 Pz) A) ∧
      (val x.pat * val y.pat + val a.pat < 0 → fmaSum sP sA (nat768 Pz) A < 0) := by
    constructor
    · intro h
      have h1 := mul_pos h hKpos
      rw [hval] at h1
      exact pos_of_mul_pos_left h1 hpU.le
    · intro h
      have h1 := mul_neg_of_neg_of_pos h hKpos
      rw [hval] at h1
      exact neg_of_mul_neg_left h1 hpU.le
  -- a subnormal addend far above the product makes the sum subnormal
  have hnorm : 2 ≤ d → sP ≠ sA ∨ 239 < d → 2 ^ 236 ≤ S := by
    intro h2 hor
    rcases ta6 with h0 | h0
    · by_contra hlt
      have hSlt : (S : ℝ) + 1 ≤ 2 ^ 236 := by exact_mod_cast Nat.lt_of_not_le hlt
      have hEd : Ep = -d := by rw [hd, h0]; simp
      have hAs : A * (2 : ℝ) ^ (Ep - 238) = S := by rw [hAU, h0, pow_zero, mul_one]
      have hPs (k : ℤ) (hk : k ≤ d) : (nat768 Pz : ℝ) * (2 : ℝ) ^ (Ep - 238) < 2 ^ (238 - k) := by
        calc (nat768 Pz : ℝ) * (2 : ℝ) ^ (Ep - 238) < 2 ^ 476 * (2 : ℝ) ^ (Ep - 238) :=
              mul_lt_mul_of_pos_right hP476r hpU
          _ = (2 : ℝ) ^ (238 + Ep) := by
              rw [← zpow_natCast, ← zpow_add₀ (by norm_num)]; congr 1; push_cast; ring
          _ ≤ _ := zpow_le_zpow_right₀ (by norm_num) (by omega)
      by_cases hs : sP = sA
      · have hgt := hor.resolve_left (not_not.mpr hs)
        rw [(fmaSum_same (P := nat768 Pz) (A := A) hs hsP1 hA0.le).1, add_mul, hAs] at hv'
        have := hPs 240 (by omega)
        have h3 : (2 : ℝ) ^ ((238 : ℤ) - 240) < 1 := zpow_lt_one_of_neg₀ (by norm_num) (by norm_num)
        linarith
      · have := hPs 2 (by omega)
        rw [show (238 : ℤ) - 2 = ((236 : ℕ) : ℤ) by norm_num, zpow_natCast] at this
        rcases le_total A (nat768 Pz) with h | h
        · rw [(fmaSum_p hs hsP1 hsA1 h).1, sub_mul, hAs] at hv'
          linarith
        · rw [(fmaSum_a hs hsP1 hsA1 h).1, sub_mul, hAs] at hv'
          have := mul_nonneg hPpos hpU.le
          linarith
    · exact h0
  by_cases hbigd : d ≤ 239
  · obtain ⟨z, t, b, hal, hZ⟩ := fma_sum (Pz := Pz) (Sz := signif (absBits a)) (sP := sP) (sA := sA)
      hbigd hP4 hP476 (by rw [← hS]; exact ta4) (by rw [← hS]; exact ta5) hsP1 hsA1
      (by
        intro hle
        rcases hok with h | ⟨h1, h2, h3⟩
        · left
          have := hPbig h
          have : 2 ^ 240 ≤ 2 ^ 474 := Nat.pow_le_pow_right (by norm_num) (by norm_num)
          omega
        · right
          refine ⟨h1, ?_⟩
          rw [hPn]
          rcases tx6 with hx0 | hx0
          · rcases ty6 with hy0 | hy0
            · omega
            · have := Nat.mul_le_mul h2 hy0
              omega
          · have := Nat.mul_le_mul hx0 h3
            omega)
      (by
        intro hne
        rw [← hS, ← hA]
        constructor
        · intro hle
          have h := hPbig (hok.resolve_right (fun h => hne h.1))
          have h' : (2 : ℝ) ^ 474 ≤ nat768 Pz := by exact_mod_cast h
          have : A < 2 ^ 474 := by
            rw [hA]
            calc (S : ℝ) * (2 : ℝ) ^ (d + 238) ≤ S * (2 : ℝ) ^ (237 : ℤ) :=
                  mul_le_mul_of_nonneg_left (zpow_le_zpow_right₀ (by norm_num) (by omega)) hS0.le
              _ < 2 ^ 237 * (2 : ℝ) ^ (237 : ℤ) :=
                  mul_lt_mul_of_pos_right hSr (zpow_pos (by norm_num) _)
              _ = 2 ^ 474 := by
                  rw [show (237 : ℤ) = ((237 : ℕ) : ℤ) by norm_num, zpow_natCast, ← pow_add]
          linarith
        · intro h2
          have h := hnorm h2 (Or.inl hne)
          have h' : (2 : ℝ) ^ 236 ≤ S := by exact_mod_cast h
          have : (2 : ℝ) ^ 476 ≤ A := by
            rw [hA]
            calc (2 : ℝ) ^ 476 = 2 ^ 236 * (2 : ℝ) ^ (240 : ℤ) := by
                  rw [show (240 : ℤ) = ((240 : ℕ) : ℤ) by norm_num, zpow_natCast, ← pow_add]
              _ ≤ S * (2 : ℝ) ^ (240 : ℤ) :=
                  mul_le_mul_of_nonneg_right h' (zpow_nonneg (by norm_num) _)
              _ ≤ S * (2 : ℝ) ^ (d + 238) :=
                  mul_le_mul_of_nonneg_left (zpow_le_zpow_right₀ (by norm_num) (by omega)) hS0.le
          linarith)
    rw [hal, Option.bind_some]
    dsimp only
    obtain ⟨Z, hZdef⟩ : ∃ Z, Z = (if gP = gA then U768.iadd z t else U768.isub z t) := ⟨_, rfl⟩
    rw [← hZdef]
    have hZ' := hZ Z (by rw [hZdef]; simp only [hsame])
    rw [← hS, ← hA] at hZ'
    obtain ⟨z1, z2, z3, z4⟩ := hZ'
    have hz0 : nat768 Z ≠ 0 := by
      intro h0
      rcases z1 with h | ⟨h, -⟩
      · rw [h, h0, Nat.cast_zero, zero_mul] at hv'
        have : (0 : ℝ) < 2 ^ 236 := by positivity
        linarith
      · rw [h0] at h
        have := Nat.two_pow_pos 239
        omega
    obtain ⟨N, r, hr1, hr2, hr3⟩ := fma_finish (z := Z) (d := d) (Ep := Ep)
      (Ea := expBits (absBits a)) (sg := if b = true then gA else gP)
      (s := if b = true then sA else sP) hz0 z2 hbigd (by split <;> assumption)
      (by split <;> assumption) z1 rfl hv'
    refine ⟨r, hr2, ?_⟩
    rw [hr3]
    refine RoundsTo.isRNE ?_ (by split <;> assumption) (fun h => z3 (hsign.1 h))
      (fun h => z4 (hsign.2 h))
    rw [hvabs]; exact hr1
  · -- the addend dominates
    have hdg : 239 < d := by omega
    have hS236 := hnorm (by omega) (Or.inr hdg)
    have hEa : (expBits (absBits a) : ℤ) = Ta + 1 := ta7 hS236
    rw [hEa]
    obtain ⟨zA, hzA, hzAn⟩ := fromShifted_exact (signif (absBits a)) (s := 0) (by norm_num)
    have hal : Fma.align Pz (signif (absBits a)) d = some (zA, Pz, true) := by
      unfold Fma.align
      have hl1 : Fma.ADDEND_TOO_SMALL_UPPER_LIMIT = -473 := by decide
      have hl2 : Fma.ADDEND_ANCHORED_UPPER_LIMIT = 239 := by decide
      rw [hl1, hl2, if_neg (by omega), if_neg (by omega), if_neg (by omega), if_neg (by omega), hzA]
      rfl
    rw [hal, Option.bind_some]
    dsimp only
    rw [if_pos rfl]
    rw [← hS, Nat.sub_zero] at hzAn
    have h476 : (2 : ℕ) ^ 476 < 2 ^ 511 := Nat.pow_lt_pow_right (by norm_num) (by norm_num)
    have hSlo : 2 ^ 512 ≤ S * 2 ^ 512 := Nat.le_mul_of_pos_left _ (by omega)
    have hShi : (S + 1) * 2 ^ 512 ≤ 2 ^ 237 * 2 ^ 512 :=
      Nat.mul_le_mul_right _ (Nat.succ_le_of_lt ta5)
    have hShi' : S * 2 ^ 512 + 2 ^ 512 < 2 ^ 768 := by
      refine lt_of_le_of_lt (b := 2 ^ 749) ?_ (Nat.pow_lt_pow_right (by norm_num) (by norm_num))
      have e749 : (2 : ℕ) ^ 749 = 2 ^ 237 * 2 ^ 512 := by rw [← Nat.pow_add]
      rw [e749]
      rw [Nat.add_mul, Nat.one_mul] at hShi
      exact hShi
    have h512 : (2 : ℕ) ^ 511 < 2 ^ 512 := Nat.pow_lt_pow_right (by norm_num) (by norm_num)
    have hadd : nat768 zA + nat768 Pz < 2 ^ 768 := by
      rw [hzAn]
      generalize (2 : ℕ) ^ 476 = a1 at *
      generalize (2 : ℕ) ^ 511 = a2 at *
      generalize S * (2 : ℕ) ^ 512 = a5 at *
      generalize (2 : ℕ) ^ 512 = a3 at *
      generalize (2 : ℕ) ^ 768 = a4 at *
      clear * - hShi' h512 h476 hP476
      omega
    have hsub : nat768 Pz ≤ nat768 zA := by
      rw [hzAn]
      exact (hP476.trans (h476.trans h512)).le.trans hSlo
    obtain ⟨f, hf⟩ : ∃ f : ℝ, f = (nat768 Pz : ℝ) * (2 : ℝ) ^ (Ep - 238) / 2 ^ Ta := ⟨_, rfl⟩
    have hTa : (0 : ℝ) < 2 ^ Ta := by positivity
    have hf0 : 0 ≤ f := by rw [hf]; exact div_nonneg (mul_nonneg hPpos hpU.le) hTa.le
    have hfm : f * 2 ^ Ta = (nat768 Pz : ℝ) * (2 : ℝ) ^ (Ep - 238) := by
      rw [hf, div_mul_cancel₀ _ hTa.ne']
    have hf4 : f < 1 / 4 := by
      rw [hf, div_lt_iff₀ hTa]
      calc (nat768 Pz : ℝ) * (2 : ℝ) ^ (Ep - 238) < 2 ^ 476 * (2 : ℝ) ^ (Ep - 238) :=
            mul_lt_mul_of_pos_right hP476r hpU
        _ = (2 : ℝ) ^ (238 + Ep) := by
            rw [← zpow_natCast, ← zpow_add₀ (by norm_num)]; congr 1; push_cast; ring
        _ ≤ (2 : ℝ) ^ ((-2 : ℤ) + Ta) := zpow_le_zpow_right₀ (by norm_num) (by omega)
        _ = 1 / 4 * 2 ^ Ta := by
            rw [zpow_add₀ (by norm_num), zpow_natCast]; norm_num
    have hPA : (nat768 Pz : ℝ) ≤ A := by
      have h1 : (nat768 Pz : ℝ) * (2 : ℝ) ^ (Ep - 238) ≤ A * (2 : ℝ) ^ (Ep - 238) := by
        rw [← hfm, hAU]
        have hS1 : (1 : ℝ) ≤ S := by exact_mod_cast Nat.one_le_iff_ne_zero.mpr ta4
        exact mul_le_mul_of_nonneg_right (by linarith) hTa.le
      exact le_of_mul_le_mul_right h1 hpU
    obtain ⟨Z, hZdef⟩ : ∃ Z, Z = (if gP = gA then U768.iadd zA Pz else U768.isub zA Pz) := ⟨_, rfl⟩
    rw [← hZdef]
    have hcase : ((nat768 Z = S * 2 ^ 512 + nat768 Pz ∧
        |fmaSum sP sA (nat768 Pz) A| * (2 : ℝ) ^ (Ep - 238) = (S + f) * 2 ^ Ta) ∨
        (nat768 Z = S * 2 ^ 512 - nat768 Pz ∧
        |fmaSum sP sA (nat768 Pz) A| * (2 : ℝ) ^ (Ep - 238) = (S - f) * 2 ^ Ta)) ∧
        (0 < fmaSum sP sA (nat768 Pz) A → sA = 0) ∧ (fmaSum sP sA (nat768 Pz) A < 0 → sA = 1) := by
      by_cases hs : sP = sA
      · obtain ⟨e1, e2, e3⟩ := fmaSum_same (P := nat768 Pz) (A := A) hs hsP1 hA0.le
        refine ⟨Or.inl ⟨?_, ?_⟩, hs ▸ e2, hs ▸ e3⟩
        · rw [hZdef, if_pos (hsame.mpr hs), iadd768 hadd, hzAn]
        · rw [e1, add_mul, add_mul, hAU, hfm, add_comm]
      · obtain ⟨e1, e2, e3⟩ := fmaSum_a hs hsP1 hsA1 hPA
        refine ⟨Or.inr ⟨?_, ?_⟩, e2, e3⟩
        · rw [hZdef, if_neg (fun h => hs (hsame.mp h)), isub768 hsub, hzAn]
        · rw [e1, sub_mul, sub_mul, hAU, hfm]
    obtain ⟨hcase, c1, c2⟩ := hcase
    obtain ⟨N, r, hr1, hr2, hr3⟩ := fma_big (z := Z) (d := d) (Ep := Ep) (e := Ta) hdg hsA1 hgA ta2
      hS236 ta5 hf0 hf4 (lt_trans hP476 h476) hcase
    refine ⟨r, hr2, ?_⟩
    rw [hr3]
    refine RoundsTo.isRNE ?_ hsA1 (fun h => c1 (hsign.1 h)) (fun h => c2 (hsign.2 h))
    rw [hvabs]; exact hr1

/-! ## Special operands -/

theorem anySpecial3_false {x y a : F256} (hx : FinNonzero x.pat) (hy : FinNonzero y.pat)
    (ha : FinNonzero a.pat) :
    anySpecial3 (absBitsSticky (absBits x)) (absBitsSticky (absBits y))
      (absBitsSticky (absBits a)) = false := by
  obtain ⟨fa, za⟩ := ha
  have h := anySpecial2_false hx hy
  rw [fin_iff] at fa
  rw [isZero_iff] at za
  rw [anySpecial2] at h
  rw [anySpecial3, h, Bool.false_or, ← Bool.not_eq_true, special_iff, nat_absBits]
  omega

theorem anySpecial3_true {x y a : F256}
    (h : ¬ (FinNonzero x.pat ∧ FinNonzero y.pat ∧ FinNonzero a.pat)) :
    anySpecial3 (absBitsSticky (absBits x)) (absBitsSticky (absBits y))
      (absBitsSticky (absBits a)) = true := by
  unfold FinNonzero at h
  simp only [fin_iff, isZero_iff] at h
  rw [anySpecial3, Bool.or_eq_true, Bool.or_eq_true, special_iff, special_iff, special_iff,
    nat_absBits, nat_absBits, nat_absBits]
  omega

theorem mul_nonspecial {x y : F256} (hx : FinNonzero x.pat) (hy : FinNonzero y.pat) :
    F256.mul x y = finalRound ⟨(mulAbsFinite (absBits x) (absBits y)).1.hi |||
      ((x.bits.hi ^^^ y.bits.hi) &&& HI_SIGN_MASK), (mulAbsFinite (absBits x) (absBits y)).1.lo⟩
      (mulAbsFinite (absBits x) (absBits y)).2 := by
  have hs := anySpecial2_false hx hy
  unfold F256.mul
  simp only [hs, Bool.false_eq_true, if_false]

theorem special_tree {α : Type} {p q r I : ℕ} {e : Prop} [Decidable e] (n z m m' a i u : α)
    (h : p = 0 ∨ q = 0 ∨ r = 0 ∨ I ≤ p ∨ I ≤ q ∨ I ≤ r) (hI : 0 < I)
    (hm : p ≠ 0 → q ≠ 0 → p < I → q < I → m = m') :
    (if I < max p q ∨ I < r then n
      else if r = 0 ∧ min p q = 0 ∧ max p q < I then z
      else if r = 0 ∧ min p q = 0 ∧ max p q = I then n
      else if r = 0 ∧ max p q < I then m
      else if r = I then
        if max p q = I then if min p q = 0 then n else if e then a else n
        else a
      else if min p q = 0 ∧ max p q < I then a
      else if min p q = 0 ∧ max p q = I then n
      else if max p q = I then i else u) =
    (if I < p ∨ I < q ∨ I < r then n
      else if (p = 0 ∨ q = 0) ∧ (p = I ∨ q = I) then n
      else if p = I ∨ q = I then if r = I ∧ ¬ e then n else if r = I then a else i
      else if r = I then a
      else if r = 0 then if p = 0 ∨ q = 0 then z else m'
      else a) := by
  by_cases h1 : I < max p q ∨ I < r
  · simp (disch := omega) only [if_pos]
  have hp : p = 0 ∨ p = I ∨ (0 < p ∧ p < I) := by omega
  have hq : q = 0 ∨ q = I ∨ (0 < q ∧ q < I) := by omega
  have hr : r = 0 ∨ r = I ∨ (0 < r ∧ r < I) := by omega
  rcases hp with hp | hp | hp <;> rcases hq with hq | hq | hq <;> rcases hr with hr | hr | hr <;>
    by_cases he : e <;>
    simp (disch := omega) only [he, not_true_eq_false, not_false_eq_true, and_true, and_false,
      if_pos, if_neg, if_false, if_true] <;>
    exact hm (by omega) (by omega) (by omega) (by omega)

/-- The branch for special operands. -/
theorem mulAdd_special {x y a : F256}
    (h : ¬ (FinNonzero x.pat ∧ FinNonzero y.pat ∧ FinNonzero a.pat)) :
    F256.mulAdd x y a =
      if IsNaN x.pat ∨ IsNaN y.pat ∨ IsNaN a.pat then some F256.NAN
      else if (IsZero x.pat ∨ IsZero y.pat) ∧ (IsInf x.pat ∨ IsInf y.pat) then some F256.NAN
      else if IsInf x.pat ∨ IsInf y.pat then
        if IsInf a.pat ∧ xorSign x.pat y.pat ≠ signBit a.pat then some F256.NAN
        else if IsInf a.pat then some a
        else some ⟨U256.new (((x.bits.hi ^^^ y.bits.hi) &&& HI_SIGN_MASK) ||| INF_HI) 0⟩
      else if IsInf a.pat then some a
      else if IsZero a.pat then
        if IsZero x.pat ∨ IsZero y.pat then
          some ⟨U256.new (((x.bits.hi ^^^ y.bits.hi) &&& HI_SIGN_MASK) &&& signBitsHi a) 0⟩
        else some (F256.mul x y)
      else some a := by
  have hs := anySpecial3_true h
  have hsg := fma_signs x y a
  have hmul := @mul_nonspecial x y
  unfold FinNonzero at h hmul
  obtain ⟨x1, x2, x3, x4⟩ := sticky_facts x
  obtain ⟨y1, y2, y3, y4⟩ := sticky_facts y
  obtain ⟨a1, a2, a3, a4⟩ := sticky_facts a
  unfold F256.mulAdd
  simp only [hs, if_true, BitVec.le_def, BitVec.lt_def, ← BitVec.toNat_inj (x := absBitsSticky _)]
  generalize absBitsSticky (absBits x) = p at *
  generalize absBitsSticky (absBits y) = q at *
  generalize absBitsSticky (absBits a) = r at *
  have hmax : (if p.toNat ≤ q.toNat then q else p).toNat = max p.toNat q.toNat := by
    split <;> omega
  have hmin : (if p.toNat ≤ q.toNat then p else q).toNat = min p.toNat q.toNat := by
    split <;> omega
  have hI : INF_HI.toNat = 524287 * 2 ^ 108 := by decide
  have h0 : (0 : BitVec 128).toNat = 0 := by decide
  simp only [← BitVec.toNat_inj (x := if _ then _ else _), hmax, hmin, hI, h0, ne_eq, ← hsg]
  simp only [← x1, ← x2, ← x3, ← x4, ← y1, ← y2, ← y3, ← y4, ← a1, ← a2, ← a3, ← a4] at h hmul ⊢
  have hI0 : 0 < 524287 * 2 ^ 108 := by decide
  generalize 524287 * 2 ^ 108 = I at *
  exact special_tree _ _ _ _ _ _ _ (by omega) hI0 (fun h1 h2 h3 h4 => by
    rw [hmul ⟨h3, h1⟩ ⟨h4, h2⟩])

/-- C09. A NaN operand gives NaN. -/
theorem C09_nan (x y a : F256) (h : IsNaN x.pat ∨ IsNaN y.pat ∨ IsNaN a.pat) :
    F256.mulAdd x y a = some F256.NAN := by
  rw [mulAdd_special, if_pos h]
  rintro ⟨h1, h2, h3⟩
  rcases h with h | h | h
  · exact not_fin_of_nan h h1.1
  · exact not_fin_of_nan h h2.1
  · exact not_fin_of_nan h h3.1

/-- C09. Infinity times zero plus anything is NaN. -/
theorem C09_inf_zero (x y a : F256)
    (h : (IsInf x.pat ∧ IsZero y.pat) ∨ (IsZero x.pat ∧ IsInf y.pat)) :
    F256.mulAdd x y a = some F256.NAN := by
  rw [mulAdd_special]
  · by_cases hn : IsNaN x.pat ∨ IsNaN y.pat ∨ IsNaN a.pat
    · rw [if_pos hn]
    · rw [if_neg hn, if_pos]
      rcases h with h | h
      · exact ⟨Or.inr h.2, Or.inl h.1⟩
      · exact ⟨Or.inl h.1, Or.inr h.2⟩
  · rintro ⟨h1, h2, -⟩
    rcases h with h | h
    · exact not_fin_of_inf h.1 h1.1
    · exact not_fin_of_inf h.2 h2.1

/-- C09. An infinite product (of operands that are not NaN) plus an infinity of the opposite sign
is NaN, plus anything else it is an infinity with the sign of the product. -/
theorem C09_inf_product (x y a : F256) (hx : ¬ IsNaN x.pat) (hy : ¬ IsNaN y.pat)
    (ha : ¬ IsNaN a.pat) (zx : ¬ IsZero x.pat) (zy : ¬ IsZero y.pat)
    (h : IsInf x.pat ∨ IsInf y.pat) :
    (IsInf a.pat ∧ signBit a.pat ≠ xorSign x.pat y.pat → F256.mulAdd x y a = some F256.NAN) ∧
    (¬ (IsInf a.pat ∧ signBit a.pat ≠ xorSign x.pat y.pat) →
      ∃ z, F256.mulAdd x y a = some z ∧ IsInf z.pat ∧ signBit z.pat = xorSign x.pat y.pat) := by
  rw [mulAdd_special (by
    rintro ⟨h1, h2, -⟩
    rcases h with h | h
    · exact not_fin_of_inf h h1.1
    · exact not_fin_of_inf h h2.1), if_neg (by simp [*]), if_neg (by simp [*]), if_pos h]
  constructor
  · rintro ⟨h1, h2⟩
    rw [if_pos ⟨h1, h2.symm⟩]
  · intro h1
    rw [if_neg (fun h2 => h1 ⟨h2.1, h2.2.symm⟩)]
    by_cases h3 : IsInf a.pat
    · rw [if_pos h3]
      exact ⟨a, rfl, h3, by_contra fun hc => h1 ⟨h3, hc⟩⟩
    · rw [if_neg h3]
      exact ⟨_, rfl, isInf_signed (pat_signed_inf (toNat_xorSign x y)) (xorSign_le _ _)⟩

/-- C09. A finite product plus an infinity is that infinity. -/
theorem C09_inf_addend (x y a : F256) (hx : IsFin x.pat) (hy : IsFin y.pat) (ha : IsInf a.pat) :
    F256.mulAdd x y a = some a := by
  have nx := not_nan_of_fin hx
  have ny := not_nan_of_fin hy
  have ix := not_inf_of_fin hx
  have iy := not_inf_of_fin hy
  have na : ¬ IsNaN a.pat := not_nan_of_inf ha
  rw [mulAdd_special (fun h => not_fin_of_inf ha h.2.2.1), if_neg (by simp [*]), if_neg (by simp [*]),
    if_neg (by simp [*]), if_pos ha]

/-- C09. A zero product plus a number other than zero is that number. -/
theorem C09_zero_product (x y a : F256) (hx : IsFin x.pat) (hy : IsFin y.pat)
    (h : IsZero x.pat ∨ IsZero y.pat) (ha : ¬ IsNaN a.pat) (za : ¬ IsZero a.pat) :
    F256.mulAdd x y a = some a := by
  have nx := not_nan_of_fin hx
  have ny := not_nan_of_fin hy
  have ix := not_inf_of_fin hx
  have iy := not_inf_of_fin hy
  rw [mulAdd_special (fun hh => h.elim hh.1.2 hh.2.1.2), if_neg (by simp [*]), if_neg (by simp [*]),
    if_neg (by simp [*]), if_neg za]
  split <;> rfl

/-- C09. Adding a zero to the product of finite non-zero numbers gives the result of the
multiplication. -/
theorem C09_zero_addend (x y a : F256) (hx : FinNonzero x.pat) (hy : FinNonzero y.pat)
    (ha : IsZero a.pat) : F256.mulAdd x y a = some (F256.mul x y) := by
  have nx := not_nan_of_fin hx.1
  have ny := not_nan_of_fin hy.1
  have na := not_nan_of_fin (fin_of_zero ha)
  have ia := not_inf_of_fin (fin_of_zero ha)
  have ix := not_inf_of_fin hx.1
  have iy := not_inf_of_fin hy.1
  have zx := hx.2
  have zy := hy.2
  rw [mulAdd_special (fun h => h.2.2.2 ha), if_neg (by simp [*]), if_neg (by simp [*]),
    if_neg (by simp [*]), if_neg ia, if_pos ha, if_neg (by simp [*])]

/-- C09. A zero product plus a zero is a zero; it is negative if both are. -/
theorem C09_zero_zero (x y a : F256) (hx : IsFin x.pat) (hy : IsFin y.pat)
    (h : IsZero x.pat ∨ IsZero y.pat) (ha : IsZero a.pat) :
    ∃ z, F256.mulAdd x y a = some z ∧ IsZero z.pat ∧
      (signBit z.pat = 1 ↔ xorSign x.pat y.pat = 1 ∧ signBit a.pat = 1) := by
  have nx := not_nan_of_fin hx
  have ny := not_nan_of_fin hy
  have na := not_nan_of_fin (fin_of_zero ha)
  have ia := not_inf_of_fin (fin_of_zero ha)
  have ix := not_inf_of_fin hx
  have iy := not_inf_of_fin hy
  refine ⟨_, by rw [mulAdd_special (fun h => h.2.2.2 ha), if_neg (by simp [*]), if_neg (by simp [*]),
    if_neg (by simp [*]), if_neg ia, if_pos ha, if_pos h], ?_⟩
  obtain ⟨s, hs, e, hs'⟩ : ∃ s, s ≤ 1 ∧ (((x.bits.hi ^^^ y.bits.hi) &&& HI_SIGN_MASK) &&&
      signBitsHi a).toNat = s * 2 ^ 127 ∧ (s = 1 ↔ xorSign x.pat y.pat = 1 ∧ signBit a.pat = 1) := by
    have h1 := toNat_xorSign x y
    have h2 := toNat_signBitsHi a
    rw [← signBit_eq (pat_lt a)] at h2
    rw [BitVec.toNat_and, h1, h2]
    have h3 := xorSign_le x.pat y.pat
    rcases Nat.le_one_iff_eq_zero_or_eq_one.mp h3 with h | h <;>
      rcases signBit_cases a.pat with h' | h' <;> rw [h, h']
    · exact ⟨0, by norm_num, by decide, by decide⟩
    · exact ⟨0, by norm_num, by decide, by decide⟩
    · exact ⟨0, by norm_num, by decide, by decide⟩
    · exact ⟨1, by norm_num, by decide, by decide⟩
  obtain ⟨h1, h2⟩ := isZero_signed (pat_signed_zero e) hs
  exact ⟨h1, by rw [h2]; exact hs'⟩

/-! ## Finite operands -/

theorem mulAdd_finite {x y a : F256} (hx : FinNonzero x.pat) (hy : FinNonzero y.pat)
    (ha : FinNonzero a.pat) : F256.mulAdd x y a =
      Fma.finite (absBits x) (absBits y) (absBits a) ((x.bits.hi ^^^ y.bits.hi) &&& HI_SIGN_MASK)
        (signBitsHi a) := by
  have hs := anySpecial3_false hx hy ha
  unfold F256.mulAdd
  simp only [hs, Bool.false_eq_true, if_false]

/-- C09 (partial). For finite operands the fused multiply-add is correctly rounded if the exact
result is in the normal range and the factors are normal numbers (or zero, or the addend is zero;
or product and addend have the same sign and the significands of the factors are at least 2).
The full property has neither restriction; it fails then, see `C09_counterexample` (a subnormal
result) and `C09_panics`. -/
theorem C09_mul_add_partial (x y a : F256) (hx : IsFin x.pat) (hy : IsFin y.pat) (ha : IsFin a.pat)
    (hok : IsZero x.pat ∨ IsZero y.pat ∨ IsZero a.pat ∨ FactorsOK x.pat y.pat a.pat)
    (hv : (2 : ℝ) ^ (-262142 : ℤ) ≤ |val x.pat * val y.pat + val a.pat|) :
    ∃ z, F256.mulAdd x y a = some z ∧ IsRNE (val x.pat * val y.pat + val a.pat) z.pat := by
  by_cases hxy : IsZero x.pat ∨ IsZero y.pat
  · have e : val x.pat * val y.pat = 0 := by
      rcases hxy with h | h
      · rw [val_zero h, zero_mul]
      · rw [val_zero h, mul_zero]
    rw [e, zero_add] at hv ⊢
    have za : ¬ IsZero a.pat := by
      intro h
      rw [val_zero h, abs_zero] at hv
      exact absurd hv (not_le.mpr (zpow_pos (by norm_num) _))
    exact ⟨a, C09_zero_product x y a hx hy hxy (not_nan_of_fin ha) za, isRNE_self (pat_lt _) ha⟩
  rw [not_or] at hxy
  by_cases hza : IsZero a.pat
  · refine ⟨_, C09_zero_addend x y a ⟨hx, hxy.1⟩ ⟨hy, hxy.2⟩ hza, ?_⟩
    rw [val_zero hza, add_zero] at hv ⊢
    exact (C04_mul_partial x y hx hy (Or.inl hv)).1
  rw [mulAdd_finite ⟨hx, hxy.1⟩ ⟨hy, hxy.2⟩ ⟨ha, hza⟩]
  refine fma_finNonzero ⟨hx, hxy.1⟩ ⟨hy, hxy.2⟩ ⟨ha, hza⟩ ((hok.resolve_left hxy.1).resolve_left hxy.2 |>.resolve_left hza) ?_
  have hK : (0 : ℝ) < 2 ^ 262378 := by positivity
  rw [abs_mul, abs_of_pos hK]
  have h1 := mul_le_mul_of_nonneg_right hv hK.le
  have e : (2 : ℝ) ^ (-262142 : ℤ) * 2 ^ 262378 = 2 ^ 236 := by
    rw [show (2 : ℝ) ^ 262378 = (2 : ℝ) ^ ((262378 : ℕ) : ℤ) by rw [zpow_natCast],
      ← zpow_add₀ (by norm_num), show (-262142 : ℤ) + ((262378 : ℕ) : ℤ) = ((236 : ℕ) : ℤ) by norm_num,
      zpow_natCast]
  rw [e] at h1
  exact h1

/-- C09. If product and addend, both finite and not zero, cancel exactly, the result is `+0`. -/
theorem C09_cancel (x y a : F256) (hx : FinNonzero x.pat) (hy : FinNonzero y.pat)
    (ha : FinNonzero a.pat) (h : val x.pat * val y.pat + val a.pat = 0) :
    F256.mulAdd x y a = some F256.ZERO := by
  rw [mulAdd_finite hx hy ha]
  obtain ⟨Tx, tx1, tx2, tx3, tx4, tx5, tx6, tx7, tx8⟩ := fma_decode hx
  obtain ⟨Ty, ty1, ty2, ty3, ty4, ty5, ty6, ty7, ty8⟩ := fma_decode hy
  obtain ⟨Ta, ta1, ta2, ta3, ta4, ta5, ta6, ta7, ta8⟩ := fma_decode ha
  obtain ⟨Ep, hEp⟩ : ∃ Ep : ℤ, Ep = Tx + Ty - 262142 := ⟨_, rfl⟩
  obtain ⟨d, hd⟩ : ∃ d : ℤ, d = Ta - Ep := ⟨_, rfl⟩
  have hval := fma_value tx8 ty8 ta8 hEp hd
  have hEp' : ((expBits (absBits x) : ℤ) - normBit (absBits x)) +
      ((expBits (absBits y) : ℤ) - normBit (absBits y)) + EMIN = Ep := by
    rw [tx1, ty1, hEp, EMIN]; ring
  unfold Fma.finite
  dsimp only
  rw [hEp', ta1, ← hd]
  obtain ⟨Pz, hPz⟩ : ∃ Pz, Pz = Fma.product (signif (absBits x)) (signif (absBits y)) := ⟨_, rfl⟩
  have hPn : nat768 Pz = 4 * (nat256 (signif (absBits x)) * nat256 (signif (absBits y))) := by
    rw [hPz]; exact nat_product ty5
  rw [← hPz]
  rw [← hPn, h, zero_mul] at hval
  have hprod : nat256 (signif (absBits x)) * nat256 (signif (absBits y)) < 2 ^ 237 * 2 ^ 237 :=
    Nat.mul_lt_mul_of_lt_of_lt tx5 ty5
  have hP476 : nat768 Pz < 2 ^ 476 := by rw [hPn]; rw [← Nat.pow_add] at hprod; omega
  have hP4 : nat768 Pz % 4 = 0 := by rw [hPn]; omega
  obtain ⟨sP, hsP⟩ : ∃ s, s = xorSign x.pat y.pat := ⟨_, rfl⟩
  obtain ⟨sA, hsA⟩ : ∃ s, s = signBit a.pat := ⟨_, rfl⟩
  have hsP1 : sP ≤ 1 := by rw [hsP]; exact xorSign_le _ _
  have hsA1 : sA ≤ 1 := by rw [hsA]; rcases signBit_cases a.pat with h | h <;> omega
  have hsame := fma_signs x y a
  rw [← hsP, ← hsA] at hsame hval
  generalize ((x.bits.hi ^^^ y.bits.hi) &&& HI_SIGN_MASK) = gP at *
  generalize signBitsHi a = gA at *
  obtain ⟨S, hS⟩ : ∃ S, S = nat256 (signif (absBits a)) := ⟨_, rfl⟩
  rw [← hS] at ta3 ta4 ta5 ta6 ta7 ta8 hval
  have hpU : (0 : ℝ) < (2 : ℝ) ^ (Ep - 238) := zpow_pos (by norm_num) _
  have hF : fmaSum sP sA (nat768 Pz) (S * (2 : ℝ) ^ (d + 238)) = 0 := by
    rcases mul_eq_zero.mp hval.symm with h1 | h1
    · exact h1
    · exact absurd h1 hpU.ne'
  have hS0 : (1 : ℝ) ≤ S := by exact_mod_cast Nat.one_le_iff_ne_zero.mpr ta4
  have hSr : (S : ℝ) < 2 ^ 237 := by exact_mod_cast ta5
  have hzp : (0 : ℝ) < (2 : ℝ) ^ (d + 238) := zpow_pos (by norm_num) _
  have hne : sP ≠ sA := by
    intro hs
    have := (fmaSum_same (P := nat768 Pz) (A := S * (2 : ℝ) ^ (d + 238)) hs hsP1
      (mul_nonneg (by linarith) hzp.le)).1
    rw [hF, abs_zero] at this
    have h1 := mul_pos (by linarith : (0 : ℝ) < S) hzp
    have h2 : (0 : ℝ) ≤ nat768 Pz := Nat.cast_nonneg _
    linarith
  have hPA : (nat768 Pz : ℝ) = S * (2 : ℝ) ^ (d + 238) := by
    rcases le_total (nat768 Pz : ℝ) (S * (2 : ℝ) ^ (d + 238)) with hle | hle
    · have := (fmaSum_a hne hsP1 hsA1 hle).1
      rw [hF, abs_zero] at this
      linarith
    · have := (fmaSum_p hne hsP1 hsA1 hle).1
      rw [hF, abs_zero] at this
      linarith
  have hP476r : (nat768 Pz : ℝ) < 2 ^ 476 := by exact_mod_cast hP476
  have hdle : d ≤ 239 := by
    by_contra hc
    have : (2 : ℝ) ^ 476 ≤ (2 : ℝ) ^ (d + 238) := by
      rw [← zpow_natCast]
      exact zpow_le_zpow_right₀ (by norm_num) (by push_cast; omega)
    have h2 : (2 : ℝ) ^ (d + 238) ≤ S * (2 : ℝ) ^ (d + 238) := by
      have := mul_le_mul_of_nonneg_right hS0 hzp.le
      linarith
    linarith
  have hdge : ¬ d ≤ -239 := by
    intro hc
    have h1 : 2 ^ 238 ≤ nat768 Pz := by
      rw [hPn]
      have hx1 := Nat.one_le_iff_ne_zero.mpr tx4
      have hy1 := Nat.one_le_iff_ne_zero.mpr ty4
      rcases tx6 with hx0 | hx0
      · rcases ty6 with hy0 | hy0
        · omega
        · have := Nat.mul_le_mul hx1 hy0
          omega
      · have := Nat.mul_le_mul hx0 hy1
        omega
    have h1' : (2 : ℝ) ^ 238 ≤ nat768 Pz := by exact_mod_cast h1
    have h2 : (2 : ℝ) ^ (d + 238) ≤ (2 : ℝ) ^ (-1 : ℤ) :=
      zpow_le_zpow_right₀ (by norm_num) (by omega)
    have h3 : (S : ℝ) * (2 : ℝ) ^ (d + 238) ≤ 2 ^ 237 * (2 : ℝ) ^ (-1 : ℤ) :=
      mul_le_mul hSr.le h2 hzp.le (by positivity)
    have h4 : (2 : ℝ) ^ 237 * (2 : ℝ) ^ (-1 : ℤ) < 2 ^ 238 := by norm_num
    linarith
  obtain ⟨z, t, b, hal, hZ⟩ := fma_sum (Pz := Pz) (Sz := signif (absBits a)) (sP := sP) (sA := sA)
      hdle hP4 hP476 (by rw [← hS]; exact ta4) (by rw [← hS]; exact ta5) hsP1 hsA1
      (fun h => absurd h hdge)
      (fun _ => by rw [← hS]; exact ⟨fun _ => hPA.ge, fun _ => hPA.le⟩)
  rw [hal, Option.bind_some]
  dsimp only
  obtain ⟨Z, hZdef⟩ : ∃ Z, Z = (if gP = gA then U768.iadd z t else U768.isub z t) := ⟨_, rfl⟩
  rw [← hZdef]
  have hZ' := (hZ Z (by rw [hZdef]; simp only [hsame])).1
  rw [← hS, hF, abs_zero] at hZ'
  have hz0 : nat768 Z = 0 := by
    rcases hZ' with h1 | ⟨h1, h2⟩
    · exact_mod_cast h1.symm
    · have h3 := Near.ge (w := 0) (Or.inr ⟨h1, h2⟩) (by norm_num) h1
      have : (0 : ℝ) < 2 ^ 239 := by positivity
      linarith
  unfold Fma.finish
  dsimp only
  rw [lz768, if_pos hz0, if_pos (show (768 : ℕ) = U768.BITS by decide)]


/-! ## Where the property fails -/

/-- `2^-131072` -/
def fmaX : F256 := ⟨⟨131071 * HI_FRACTION_BIAS, 0⟩⟩
/-- `-2^-262378`, the negative number closest to zero -/
def fmaA : F256 := ⟨⟨HI_SIGN_MASK, 1⟩⟩

/-- Fused multiply-add can panic although all operands are finite and the factors are normal:
`2^-131072 * 2^-131072 - 2^-262378`. The borrow of the subtraction leaves a number without leading
zeros, the shift distance (`nlz - EXP_BITS`) wraps and the assertion in `u768::shl_assign` fails. -/
theorem C09_panics : IsNormal fmaX.pat ∧ IsFin fmaA.pat ∧ F256.mulAdd fmaX fmaX fmaA = none := by
  decide

/-- `2^-131071` -/
def fmaY : F256 := ⟨⟨131072 * HI_FRACTION_BIAS, 0⟩⟩

theorem fma_wrong : F256.mulAdd fmaX fmaY F256.MIN_GT_ZERO =
    some ⟨⟨HI_FRACTION_BIAS, 2⟩⟩ := by decide

/-- The property C09 does not hold for subnormal results: the exact value of
`2^-131072 * 2^-131071 + 2^-262378` is the representable number `(2^235 + 1) * 2^-262378`, but
`(2^236 + 2) * 2^-262378` is returned. -/
theorem C09_counterexample : ∃ x y a z : F256, IsFin x.pat ∧ IsFin y.pat ∧ IsFin a.pat ∧
    F256.mulAdd x y a = some z ∧ ¬ IsRNE (val x.pat * val y.pat + val a.pat) z.pat := by
  refine ⟨fmaX, fmaY, F256.MIN_GT_ZERO, _, by decide, by decide, by decide, fma_wrong, fun h => ?_⟩
  have mx : mag fmaX.pat = 2 ^ 236 * 2 ^ 131070 := by
    unfold mag
    rw [show significandOf fmaX.pat = 2 ^ 236 by decide,
      show expField fmaX.pat - 1 = 131070 by decide]
  have my : mag fmaY.pat = 2 ^ 236 * 2 ^ 131071 := by
    unfold mag
    rw [show significandOf fmaY.pat = 2 ^ 236 by decide,
      show expField fmaY.pat - 1 = 131071 by decide]
  have ma : mag F256.MIN_GT_ZERO.pat = 1 := by decide
  have mr : mag (2 ^ 235 + 1) = 2 ^ 235 + 1 := by decide
  have hv : val fmaX.pat * val fmaY.pat + val F256.MIN_GT_ZERO.pat = val (2 ^ 235 + 1) := by
    rw [val_eq, val_eq, val_eq, val_eq, mx, my, ma, mr, show signBit fmaX.pat = 0 by decide,
      show signBit fmaY.pat = 0 by decide, show signBit F256.MIN_GT_ZERO.pat = 0 by decide,
      show signBit (2 ^ 235 + 1) = 0 by decide]
    have e : (2 : ℝ) ^ 262378 = 2 ^ 131070 * 2 ^ 131071 * 2 ^ 236 * 2 := by
      rw [← pow_add, ← pow_add, ← pow_succ]
    rw [e]
    simp only [Nat.cast_mul, Nat.cast_add, Nat.cast_pow, Nat.cast_ofNat, Nat.cast_one]
    have h1 : (2 : ℝ) ^ 131070 ≠ 0 := pow_ne_zero _ (by norm_num)
    have h2 : (2 : ℝ) ^ 131071 ≠ 0 := pow_ne_zero _ (by norm_num)
    generalize (2 : ℝ) ^ 131070 = A at *
    generalize (2 : ℝ) ^ 131071 = B at *
    field_simp
  have hI : IsRNE (val (2 ^ 235 + 1)) (2 ^ 235 + 1) := isRNE_self (by norm_num) (by decide)
  have hne : val (2 ^ 235 + 1) ≠ 0 := by
    intro h0
    have := (val_eq_zero_iff (N := 2 ^ 235 + 1) (by decide)).mp h0
    exact absurd this (by decide)
  rw [hv] at h
  exact absurd (IsRNE.unique h hI hne) (by decide)

/-! ## Examples -/

-- 2 * 2 + 1 = 5
example : F256.mulAdd F256.TWO F256.TWO F256.ONE =
    some ⟨⟨0x40001400000000000000000000000000, 0⟩⟩ := by decide
-- (1 + 2^-130)^2 - 1 = 2^-129 + 2^-260, which `*` followed by `-` cannot deliver
example : F256.mulAdd ⟨⟨262143 * HI_FRACTION_BIAS, 2 ^ 106⟩⟩ ⟨⟨262143 * HI_FRACTION_BIAS, 2 ^ 106⟩⟩
    F256.NEG_ONE = some ⟨⟨262014 * HI_FRACTION_BIAS, 2 ^ 105⟩⟩ := by decide +kernel
-- exact cancellation
example : F256.mulAdd F256.TWO F256.TWO ⟨⟨0xc0001000000000000000000000000000, 0⟩⟩ =
    some F256.ZERO := by decide
example : F256.mulAdd F256.MAX F256.TWO ⟨⟨0xffffefffffffffffffffffffffffffff, 0xffffffffffffffffffffffffffffffff⟩⟩ =
    some F256.MAX := by decide
example : F256.mulAdd F256.MAX F256.TWO F256.ONE = some F256.INFINITY := by decide
example : FinNonzero F256.TWO.pat ∧ FactorsOK F256.TWO.pat F256.TWO.pat F256.ONE.pat ∧
    IsNormal F256.TWO.pat ∧ xorSign F256.TWO.pat F256.TWO.pat = 0 := by
  unfold FinNonzero FactorsOK IsNormal; decide
example : F256.mulAdd F256.NEG_ZERO F256.TWO F256.NEG_ZERO = some F256.NEG_ZERO := by decide
example : F256.mulAdd F256.INFINITY F256.TWO F256.NEG_INFINITY = some F256.NAN := by decide

end Verif.Props
