import Verif.Proofs.Near
import Verif.Model.FromStr
import Verif.Props.Mul
import Verif.Props.Div
import Verif.Props.Conv
import Verif.Props.Log

/-!
# `fast_exact`: small significand, small exponent
-/

namespace Verif

open Spec Props

/-- Correct rounding in terms of `RoundsTo`, for positive numbers -/
theorem roundsTo_of_isRNE {q : ℝ} {N : ℕ} (hq : 0 < q) (h : IsRNE q N) : RoundsTo (q * 2 ^ 262378) N := by
  obtain ⟨L, hL⟩ := exists_roundsTo (v := q * 2 ^ 262378) (by positivity)
  have h2 : IsRNE q (0 * 2 ^ 255 + L) := by
    apply RoundsTo.isRNE _ (by norm_num) (fun _ => rfl) (fun h => absurd h (not_lt.mpr hq.le))
    rwa [abs_of_pos hq]
  have := IsRNE.unique h h2 hq.ne'
  rw [this, Nat.zero_mul, Nat.zero_add]
  exact hL

theorem RoundsTo.scale_up {v : ℝ} {N : ℕ} (k : ℕ) (h : RoundsTo v N) (hv : 2 ^ 236 ≤ v)
    (hk : v * 2 ^ k < 2 ^ (237 + 524285)) : RoundsTo (v * 2 ^ k) (N + k * 2 ^ 236) := by
  obtain ⟨t, M, h1, h2, h3, h4, h5⟩ := h
  have hp : (0 : ℝ) < 2 ^ k := by positivity
  have hlow : (2 : ℝ) ^ (236 + t) ≤ v := by
    rcases h2 with rfl | h2
    · exact hv
    · exact h2
  have e : v * 2 ^ k - M * 2 ^ (t + k) = (v - M * 2 ^ t) * 2 ^ k := by rw [pow_add]; ring
  have habs : |v * 2 ^ k - M * 2 ^ (t + k)| = |v - M * 2 ^ t| * 2 ^ k := by
    rw [e, abs_mul, abs_of_pos hp]
  have htk : t + k ≤ 524285 := by
    have h6 : (2 : ℝ) ^ (236 + t + k) < 2 ^ (237 + 524285) := by
      rw [pow_add]
      exact lt_of_le_of_lt (mul_le_mul_of_nonneg_right hlow hp.le) hk
    have := (pow_lt_pow_iff_right₀ (show (1 : ℝ) < 2 by norm_num)).mp h6
    omega
  refine ⟨t + k, M, ?_, Or.inr ?_, ?_, ?_, ?_⟩
  · rw [← add_assoc, pow_add]; exact mul_lt_mul_of_pos_right h1 hp
  · rw [← add_assoc, pow_add]; exact mul_le_mul_of_nonneg_right hlow hp.le
  · rw [habs, pow_add]
    calc _ ≤ 2 ^ t / 2 * 2 ^ k := mul_le_mul_of_nonneg_right h3 hp.le
      _ = _ := by ring
  · intro he
    rw [habs, pow_add, mul_div_right_comm] at he
    exact h4 (mul_right_cancel₀ hp.ne' he)
  · rw [h5, if_neg (by omega), if_neg (by omega)]; ring

theorem RoundsTo.scale_down {v : ℝ} {N : ℕ} (k : ℕ) (h : RoundsTo v N) (hv : 2 ^ (236 + k) ≤ v)
    (hv' : v < 2 ^ (237 + 524285)) : k * 2 ^ 236 ≤ N ∧ RoundsTo (v / 2 ^ k) (N - k * 2 ^ 236) := by
  obtain ⟨t, M, h1, h2, h3, h4, h5⟩ := h
  have hp : (0 : ℝ) < 2 ^ k := by positivity
  have htk : k ≤ t := by
    have := (pow_lt_pow_iff_right₀ (show (1 : ℝ) < 2 by norm_num)).mp (lt_of_le_of_lt hv h1)
    omega
  obtain ⟨j, rfl⟩ := Nat.exists_eq_add_of_le' htk
  have ht : j + k ≤ 524285 := by
    rcases h2 with h2 | h2
    · omega
    · have := (pow_lt_pow_iff_right₀ (show (1 : ℝ) < 2 by norm_num)).mp (lt_of_le_of_lt h2 hv')
      omega
  have e : v / 2 ^ k - M * 2 ^ j = (v - M * 2 ^ (j + k)) / 2 ^ k := by
    rw [pow_add, sub_div]; congr 1; field_simp
  have habs : |v / 2 ^ k - M * 2 ^ j| = |v - M * 2 ^ (j + k)| / 2 ^ k := by
    rw [e, abs_div, abs_of_pos hp]
  have hN : N = (j + k) * 2 ^ 236 + M := by rw [h5, if_neg (by omega)]
  refine ⟨by rw [hN, add_mul]; omega, j, M, ?_, ?_, ?_, ?_, ?_⟩
  · rw [div_lt_iff₀ hp, ← pow_add]; rwa [add_assoc]
  · rcases h2 with h2 | h2
    · left; omega
    · right; rw [le_div_iff₀ hp, ← pow_add]; rwa [add_assoc]
  · rw [habs, div_le_iff₀ hp]
    calc _ ≤ _ := h3
      _ = _ := by rw [pow_add]; ring
  · intro he
    apply h4
    rw [habs, div_eq_iff hp.ne'] at he
    rw [he, pow_add]; ring
  · rw [hN, if_neg (by omega), add_mul]; omega

/-- The exact number `w * 10^e`, in units of the smallest subnormal number -/
noncomputable def decU (w : ℕ) (e : ℤ) : ℝ := (w : ℝ) * (10 : ℝ) ^ e * 2 ^ 262378

theorem toNat_sign {s : ℕ} (hs : s ≤ 1) :
    (BitVec.ofNat 128 s <<< HI_SIGN_SHIFT).toNat = s * 2 ^ 127 := by
  rcases Nat.le_one_iff_eq_zero_or_eq_one.mp hs with rfl | rfl <;> rfl

theorem toNat_k {k : ℕ} (hk : k ≤ 102) : (BitVec.ofNat 128 k <<< HI_FRACTION_BITS).toNat = k * 2 ^ 108 := by
  rw [BitVec.toNat_shiftLeft, BitVec.toNat_ofNat, Nat.shiftLeft_eq]
  unfold HI_FRACTION_BITS
  omega

theorem fastExactOk_iff (e : ℤ) (w : U256) :
    fastExactOk e w = true ↔ nat256 w < 2 ^ 237 ∧ e.natAbs ≤ 102 := by
  unfold fastExactOk
  rw [Bool.and_eq_true, decide_eq_true_iff, decide_eq_true_iff, BitVec.le_def,
    show (HI_FRACTION_BIAS + HI_FRACTION_MASK).toNat = 2 ^ 109 - 1 by decide]
  have := w.lo.isLt
  unfold nat256
  constructor
  · rintro ⟨h1, h2⟩; exact ⟨by omega, h2⟩
  · rintro ⟨h1, h2⟩; exact ⟨by omega, h2⟩

theorem sub_pat {h l k : ℕ} (hl : l < 2 ^ 128) (hle : k * 2 ^ 236 ≤ h * 2 ^ 128 + l) :
    k * 2 ^ 108 ≤ h ∧ (h - k * 2 ^ 108) * 2 ^ 128 + l = h * 2 ^ 128 + l - k * 2 ^ 236 := by
  omega

theorem pow5_lt : (5 : ℝ) ^ 102 < 2 ^ 237 := by norm_num

/-- Under the conditions of the fast path the result is correctly rounded. -/
theorem exactCore_spec {sign : ℕ} {e : ℤ} {w : U256} (hs : sign ≤ 1) (h0 : nat256 w ≠ 0)
    (hw : nat256 w < 2 ^ 237) (he : e.natAbs ≤ 102) :
    ∃ f A, exactCore sign e w = some f ∧ f.pat = sign * 2 ^ 255 + A ∧
      RoundsTo (decU (nat256 w) e) A := by
  have hx := C28_u256 w hw
  obtain ⟨hxf, hxv, -⟩ := hx
  obtain ⟨hyf, hyv⟩ := C47_table.2 e.natAbs he
  set x := F256.fromU256 w with hxdef
  set y := powerOfFive e.natAbs with hydef
  set k := e.natAbs with hk
  have hW : (1 : ℝ) ≤ nat256 w := by exact_mod_cast Nat.one_le_iff_ne_zero.mpr h0
  have hxv' : val x.pat = (nat256 w : ℝ) := by rw [hxv]; simp [nat256]
  have h5 : (1 : ℝ) ≤ 5 ^ k := one_le_pow₀ (by norm_num)
  have h5' : (5 : ℝ) ^ k < 2 ^ 237 := lt_of_le_of_lt (pow_le_pow_right₀ (by norm_num) he) pow5_lt
  have hWlt : (nat256 w : ℝ) < 2 ^ 237 := by exact_mod_cast hw
  have hKpos : (0 : ℝ) < 2 ^ 262378 := by positivity
  unfold exactCore
  simp only [Option.bind_eq_bind, Option.pure_def]
  by_cases hneg : e < 0
  · rw [if_pos hneg]
    have hy0 : ¬ IsZero y.pat := by
      intro hz
      have := val_zero hz
      rw [hyv] at this
      exact absurd this (by positivity)
    obtain ⟨z, hz, hr, -⟩ := C06_div x y hxf hyf hy0
    rw [hz, Option.bind_some]
    rw [hxv', hyv] at hr
    have hq : (0 : ℝ) < nat256 w / 5 ^ k := by positivity
    have hR := roundsTo_of_isRNE hq hr
    have hq1 : (nat256 w : ℝ) / 5 ^ k ≤ nat256 w := div_le_self (by positivity) h5
    have hlow : (2 : ℝ) ^ (236 + k) ≤ nat256 w / 5 ^ k * 2 ^ 262378 := by
      have h1 : (1 : ℝ) / 2 ^ 237 ≤ nat256 w / 5 ^ k := by
        rw [div_le_div_iff₀ (by positivity) (by positivity), one_mul]
        nlinarith
      calc (2 : ℝ) ^ (236 + k) ≤ 1 / 2 ^ 237 * 2 ^ 262378 := by
            rw [show 262378 = 237 + 262141 from rfl, pow_add 2 237, ← mul_assoc,
              one_div_mul_cancel (by positivity), one_mul]
            exact pow_le_pow_right₀ (by norm_num) (by omega)
        _ ≤ _ := mul_le_mul_of_nonneg_right h1 hKpos.le
    have hhigh : (nat256 w : ℝ) / 5 ^ k * 2 ^ 262378 < 2 ^ (237 + 524285) := by
      calc (nat256 w : ℝ) / 5 ^ k * 2 ^ 262378 < 2 ^ 237 * 2 ^ 262378 :=
            mul_lt_mul_of_pos_right (lt_of_le_of_lt hq1 hWlt) hKpos
        _ ≤ _ := by rw [← pow_add]; exact pow_le_pow_right₀ (by norm_num) (by norm_num)
    obtain ⟨hle, hR2⟩ := hR.scale_down k hlow hhigh
    refine ⟨_, z.pat - k * 2 ^ 236, rfl, ?_, ?_⟩
    · have hz255 := hR.lt_pow
      have hsub : (z.bits.hi - (BitVec.ofNat 128 k <<< HI_FRACTION_BITS)).toNat =
          z.bits.hi.toNat - k * 2 ^ 108 := by
        rw [BitVec.toNat_sub, toNat_k he]
        have h1 := z.bits.hi.isLt
        have h3 := (sub_pat z.bits.lo.isLt hle).1
        omega
      have hn : nat256 ⟨z.bits.hi - (BitVec.ofNat 128 k <<< HI_FRACTION_BITS), z.bits.lo⟩ =
          z.pat - k * 2 ^ 236 := by
        rw [nat256_mk, hsub]
        exact (sub_pat z.bits.lo.isLt hle).2
      have := nat_or_sign (z := ⟨z.bits.hi - (BitVec.ofNat 128 k <<< HI_FRACTION_BITS), z.bits.lo⟩)
        (by rw [hn]; exact lt_of_le_of_lt (Nat.sub_le _ _) hz255) (toNat_sign hs)
      rw [hn] at this
      exact this
    · convert hR2 using 1
      unfold decU
      have : e = -(k : ℤ) := by omega
      rw [this, zpow_neg, zpow_natCast, show (10 : ℝ) = 5 * 2 by norm_num, mul_pow]
      field_simp
  · rw [if_neg hneg]
    have hprod : (1 : ℝ) ≤ nat256 w * 5 ^ k := by nlinarith
    have hr := (C04_mul_partial x y hxf hyf (Or.inl (by
      rw [hxv', hyv, abs_of_pos (by positivity)]
      refine le_trans ?_ hprod
      exact zpow_le_one_of_nonpos₀ (by norm_num) (by norm_num)))).1
    rw [hxv', hyv] at hr
    have hq : (0 : ℝ) < nat256 w * 5 ^ k := by positivity
    have hR := roundsTo_of_isRNE hq hr
    have hhi : (nat256 w : ℝ) * 5 ^ k < 2 ^ 474 := by
      calc (nat256 w : ℝ) * 5 ^ k < 2 ^ 237 * 2 ^ 237 :=
            mul_lt_mul'' hWlt h5' (by positivity) (by positivity)
        _ = _ := by rw [← pow_add]
    have hlow : (2 : ℝ) ^ 236 ≤ nat256 w * 5 ^ k * 2 ^ 262378 := by
      calc (2 : ℝ) ^ 236 ≤ 1 * 2 ^ 262378 := by
            rw [one_mul]; exact pow_le_pow_right₀ (by norm_num) (by norm_num)
        _ ≤ _ := mul_le_mul_of_nonneg_right hprod hKpos.le
    have hhigh : (nat256 w : ℝ) * 5 ^ k * 2 ^ 262378 * 2 ^ k < 2 ^ (237 + 524285) := by
      rw [mul_assoc, ← pow_add]
      calc (nat256 w : ℝ) * 5 ^ k * 2 ^ (262378 + k) < 2 ^ 474 * 2 ^ (262378 + k) :=
            mul_lt_mul_of_pos_right hhi (by positivity)
        _ ≤ _ := by rw [← pow_add]; exact pow_le_pow_right₀ (by norm_num) (by omega)
    have hR2 := hR.scale_up k hlow hhigh
    refine ⟨_, (F256.mul x y).pat + k * 2 ^ 236, rfl, ?_, ?_⟩
    · have hz255 := hR2.lt_pow
      have hadd : ((F256.mul x y).bits.hi + (BitVec.ofNat 128 k <<< HI_FRACTION_BITS)).toNat =
          (F256.mul x y).bits.hi.toNat + k * 2 ^ 108 := by
        rw [BitVec.toNat_add, toNat_k he, Nat.mod_eq_of_lt]
        have h2 := (F256.mul x y).bits.lo.isLt
        rw [pat_eq] at hz255
        unfold nat256 at hz255
        omega
      have hn : nat256 ⟨(F256.mul x y).bits.hi + (BitVec.ofNat 128 k <<< HI_FRACTION_BITS),
          (F256.mul x y).bits.lo⟩ = (F256.mul x y).pat + k * 2 ^ 236 := by
        rw [nat256_mk, hadd, pat_eq]
        unfold nat256
        omega
      have := nat_or_sign (z := ⟨(F256.mul x y).bits.hi + (BitVec.ofNat 128 k <<< HI_FRACTION_BITS),
        (F256.mul x y).bits.lo⟩) (by rw [hn]; exact hz255) (toNat_sign hs)
      rw [hn] at this
      exact this
    · convert hR2 using 1
      unfold decU
      have : e = (k : ℤ) := by omega
      rw [this, zpow_natCast, show (10 : ℝ) = 5 * 2 by norm_num, mul_pow]
      ring

end Verif
