import Verif.Proofs.Feynman
import Verif.Proofs.MulDiv
import Mathlib.Analysis.Complex.ExponentialBounds

/-!
# The logarithm of an `f256` as a fixed point number
-/

namespace Verif.Ln

open FP492 Spec

set_option exponentiation.threshold 2000

theorem decode_pos {x : F256} (h0 : x.pat ≠ 0) (h1 : x.pat < INF) :
    ∃ (e : ℤ) (m : ℕ), nat256 (normSignif x.bits).1 = m ∧ 2 ^ 236 ≤ m ∧ m < 2 ^ 237 ∧
      exp x.bits - ((normSignif x.bits).2 : ℤ) = e ∧ -262378 ≤ e ∧ e ≤ 262143 ∧
      val x.pat = (m / 2 ^ 236 : ℝ) * (2 : ℝ) ^ e := by
  obtain ⟨d1, d2, d3⟩ := decoded (A := x.bits) h0 h1
  obtain ⟨n1, n2, n3⟩ := normSignif_spec d1 d2
  obtain ⟨sh, hsh⟩ : ∃ sh, (normSignif x.bits).2 = sh := ⟨_, rfl⟩
  rw [hsh] at n3 ⊢
  have hsh236 : sh ≤ 236 := by
    by_contra hc
    have a1 : 2 ^ 237 ≤ 2 ^ sh := Nat.pow_le_pow_right (by norm_num) (by omega)
    have a2 : 1 * 2 ^ sh ≤ nat256 (signif x.bits) * 2 ^ sh := Nat.mul_le_mul_right _ (by omega)
    omega
  have hE := expBits_eq x.bits
  have hnb := normBit_eq x.bits
  have hexp : exp x.bits = (expBits x.bits : ℤ) - normBit x.bits - 262142 := by
    have : exp x.bits = (expBits x.bits : ℤ) + ((decide ((expBits x.bits : ℤ) = 0)).toNat : ℤ) - 262143 := rfl
    rw [this]
    by_cases hz : expBits x.bits = 0
    · rw [hz] at hE ⊢
      rw [hnb, if_neg (by omega)]; rfl
    · rw [decide_eq_false (by omega), hnb, if_pos (by omega)]
      simp only [Bool.toNat_false]
      omega
  have hEr : -1 < (expBits x.bits : ℤ) - normBit x.bits ∧ (expBits x.bits : ℤ) - normBit x.bits ≤ 524285 := by
    have h1' : nat256 x.bits < INF := h1
    unfold INF at h1'
    rw [hE, hnb]
    split <;> omega
  have hsb : signBit x.pat = 0 := by
    unfold INF at h1
    unfold signBit; omega
  have hv := val_eq x.pat
  rw [hsb, pow_zero, one_mul, pat_eq, d3] at hv
  obtain ⟨k, hk⟩ : ∃ k : ℤ, (expBits x.bits : ℤ) - normBit x.bits = k := ⟨_, rfl⟩
  rw [hk] at hexp hEr hv
  refine ⟨_, _, rfl, n1, n2, rfl, by omega, by omega, ?_⟩
  rw [hexp, pat_eq, hv, n3, Nat.cast_mul, Nat.cast_pow, Nat.cast_ofNat]
  have e1 : (2 : ℝ) ^ (k - 262142 - (sh : ℤ)) = 2 ^ k / 2 ^ (262142 : ℕ) / 2 ^ sh := by
    rw [zpow_sub₀ (by norm_num), zpow_sub₀ (by norm_num), zpow_natCast,
      show (262142 : ℤ) = ((262142 : ℕ) : ℤ) by norm_num, zpow_natCast]
  have e2 : (2 : ℝ) ^ 262378 = 2 ^ 262142 * 2 ^ 236 := by rw [← pow_add]
  rw [e1, e2]
  have q1 : (2 : ℝ) ^ 262142 ≠ 0 := by positivity
  have q2 : (2 : ℝ) ^ sh ≠ 0 := by positivity
  have q3 : (2 : ℝ) ^ 236 ≠ 0 := by positivity
  generalize (2 : ℝ) ^ 262142 = K at *
  generalize (2 : ℝ) ^ sh = s at *
  generalize (2 : ℝ) ^ 236 = t at *
  field_simp

theorem nat_LN_2 : sval LN_2 = limbs LN_2 ∧ limbs LN_2 < 2 ^ 491 + 2 ^ 490 ∧ limbs LN_2 * 10 ≤ 7 * 2 ^ 492 := by
  have h : limbs LN_2 < 2 ^ 491 + 2 ^ 490 := by decide +kernel
  refine ⟨?_, h, by decide +kernel⟩
  rw [limbs_eq] at h ⊢
  exact sval_of_lt (by omega)

/-- Bounds of a product with one factor of unknown sign -/
theorem mul_range {l e C : ℤ} {a b : ℤ} (hl : 0 ≤ l) (h : l * 10 ≤ C) (ha : 0 ≤ a) (hb : 0 ≤ b) (h1 : -a ≤ e) (h2 : e ≤ b) :
    l * e * 10 ≤ C * b ∧ -(C * a) ≤ l * e * 10 := by
  constructor
  · calc l * e * 10 = l * 10 * e := by ring
      _ ≤ l * 10 * b := mul_le_mul_of_nonneg_left h2 (by positivity)
      _ ≤ C * b := mul_le_mul_of_nonneg_right h hb
  · have : l * 10 * (-e) ≤ C * a := by
      calc l * 10 * (-e) ≤ l * 10 * a := mul_le_mul_of_nonneg_left (by linarith) (by positivity)
        _ ≤ C * a := mul_le_mul_of_nonneg_right h ha
    linarith

/-- The multiple of `ln 2` is computed without rounding. -/
theorem mul_LN_2 {e : ℤ} (h1 : -262378 ≤ e) (h2 : e ≤ 262143) :
    sval (imulRound LN_2 (ofInt e)) = limbs LN_2 * e := by
  obtain ⟨hs, hlt, -⟩ := nat_LN_2
  have hof := sval_ofInt (i := e) (by omega)
  have hnat : (sval LN_2).natAbs * (sval (ofInt e)).natAbs = 2 ^ 492 * (limbs LN_2 * e.natAbs) := by
    rw [hs, hof, Int.natAbs_natCast, Int.natAbs_mul, show ((2 : ℤ) ^ 492).natAbs = 2 ^ 492 from rfl]
    ring
  have hpos : 0 < limbs LN_2 := by decide +kernel
  obtain ⟨R, r1, -, -, r4⟩ := imulRound_spec (x := LN_2) (y := ofInt e) (by
    rw [hnat]
    calc 2 ^ 492 * (limbs LN_2 * e.natAbs) < 2 ^ 492 * ((2 ^ 491 + 2 ^ 490) * 2 ^ 19) :=
          Nat.mul_lt_mul_of_pos_left (Nat.mul_lt_mul'' hlt (by omega)) (by positivity)
      _ = 2 ^ 1002 + 2 ^ 1001 := by norm_num)
  rw [hnat, Nat.mul_mod_right, Nat.mul_div_cancel_left _ (by positivity)] at r4
  rw [r1, r4 rfl, hs, hof, Int.sign_eq_one_of_pos (by exact_mod_cast hpos), one_mul, Int.sign_mul,
    Int.sign_eq_one_of_pos (a := (2 : ℤ) ^ 492) (by positivity), mul_one, Nat.cast_mul]
  rw [mul_left_comm, Int.sign_mul_natAbs]

theorem range_core {y F : ℤ} (h1 : y * 10 ≤ 7 * 2 ^ 492 * 262143) (h2 : -(7 * 2 ^ 492 * 262378) ≤ y * 10)
    (h3 : F < 2 ^ 493) (h4 : -1725 < F) : (y + F).natAbs < 2 ^ 509 + 2 ^ 508 := by
  have a : y + F < 2 ^ 509 + 2 ^ 508 := by linarith
  have b : -(2 ^ 509 + 2 ^ 508) < y + F := by linarith
  generalize y + F = z at *
  have := abs_lt.mpr ⟨b, a⟩
  rw [Int.abs_eq_natAbs] at this
  exact_mod_cast this

/-- The fixed point logarithm: the error is at most `|e| + 1724` units. -/
theorem lnFP_abs {x : F256} (h0 : x.pat ≠ 0) (h1 : x.pat < INF) :
    ∃ (e : ℤ) (m : ℕ), 2 ^ 236 ≤ m ∧ m < 2 ^ 237 ∧ -262378 ≤ e ∧ e ≤ 262143 ∧
      val x.pat = (m / 2 ^ 236 : ℝ) * (2 : ℝ) ^ e ∧
      Real.log (val x.pat) = e * Real.log 2 + Real.log (m / 2 ^ 236) ∧
      |(sval (lnFP x) : ℝ) - 2 ^ 492 * Real.log (val x.pat)| ≤ |(e : ℝ)| + 1724 ∧
      (e = 0 → m = 2 ^ 236 → sval (lnFP x) = 0) ∧ (sval (lnFP x)).natAbs < 2 ^ 509 + 2 ^ 508 := by
  obtain ⟨e, m, hm, m1, m2, he, e1, e2, hv⟩ := decode_pos h0 h1
  have hmpos : (0 : ℝ) < m / 2 ^ 236 := by
    have : 0 < m := by omega
    have : (0 : ℝ) < m := by exact_mod_cast this
    positivity
  have hlog : Real.log (val x.pat) = e * Real.log 2 + Real.log (m / 2 ^ 236) := by
    rw [hv, Real.log_mul hmpos.ne' (by positivity), Real.log_zpow, add_comm]
  obtain ⟨M, hM⟩ : ∃ M : FP492, (⟨(normSignif x.bits).1, UInt.zero⟩ : FP492) = M := ⟨_, rfl⟩
  have hMn : UInt.nat M = m * 2 ^ 256 := by
    rw [← hM, ← hm]
    show nat256 (normSignif x.bits).1 * 2 ^ 256 + nat256 UInt.zero = _
    rw [show nat256 UInt.zero = 0 from rfl, Nat.add_zero]
  obtain ⟨f1, f2⟩ := feynman_err (x := M) (by rw [hMn]; omega) (by rw [hMn]; omega)
  have hmm : (UInt.nat M : ℝ) / 2 ^ 492 = m / 2 ^ 236 := by
    rw [hMn, Nat.cast_mul, Nat.cast_pow, Nat.cast_ofNat, show (492 : ℕ) = 236 + 256 by norm_num, pow_add]
    rw [mul_div_mul_right _ _ (by positivity)]
  rw [hmm] at f1
  have hmul := mul_LN_2 e1 e2
  have hdef : lnFP x = add (imulRound LN_2 (ofInt e)) (feynman M) := by
    rw [← hM, ← he]; rfl
  obtain ⟨F, hF⟩ : ∃ F, feynman M = F := ⟨_, rfl⟩
  obtain ⟨P, hP⟩ : ∃ P, imulRound LN_2 (ofInt e) = P := ⟨_, rfl⟩
  rw [hF] at f1 f2 hdef
  rw [hP] at hmul hdef
  -- bounds on the logarithm of the significand
  have hl0 : 0 ≤ Real.log (m / 2 ^ 236) := by
    apply Real.log_nonneg
    rw [le_div_iff₀ (by positivity), one_mul]
    exact_mod_cast m1
  have hl1 : Real.log (m / 2 ^ 236) ≤ 1 := by
    have h3 := Real.log_le_sub_one_of_pos hmpos
    have : (m / 2 ^ 236 : ℝ) ≤ 2 := by
      rw [div_le_iff₀ (by positivity)]
      have : (m : ℝ) < 2 ^ 237 := by exact_mod_cast m2
      have e : (2 : ℝ) ^ 237 = 2 * 2 ^ 236 := by norm_num
      linarith
    linarith
  have f1b := abs_le.mp f1
  have hFlt : sval F < 2 ^ 493 := by
    have : (sval F : ℝ) < 2 ^ 493 := by
      have a := mul_le_mul_of_nonneg_left hl1 (show (0 : ℝ) ≤ 2 ^ 492 by positivity)
      have b : (2 : ℝ) ^ 492 + 1724 < 2 ^ 493 := by norm_num
      linarith [f1b.2]
    exact_mod_cast this
  have hFgt : -1725 < sval F := by
    have : -1725 < (sval F : ℝ) := by
      have a := mul_nonneg (show (0 : ℝ) ≤ 2 ^ 492 by positivity) hl0
      linarith [f1b.1]
    exact_mod_cast this
  obtain ⟨hs, -, hlt⟩ := nat_LN_2
  obtain ⟨l, hl⟩ : ∃ l, limbs LN_2 = l := ⟨_, rfl⟩
  have hlr := LN_2_err
  rw [hl] at hmul hlr hlt
  have hltZ : (l : ℤ) * 10 ≤ 7 * 2 ^ 492 := by exact_mod_cast hlt
  obtain ⟨hP1, hP2⟩ := mul_range (l := l) (e := e) (Int.natCast_nonneg l) hltZ (show (0 : ℤ) ≤ 262378 by norm_num)
    (show (0 : ℤ) ≤ 262143 by norm_num) e1 e2
  have hsum : sval (lnFP x) = l * e + sval F := by
    rw [hdef, sval_add, hmul] <;> rw [hmul]
    · generalize (l : ℤ) * e = y at *
      omega
    · generalize (l : ℤ) * e = y at *
      omega
  refine ⟨e, m, m1, m2, e1, e2, hv, hlog, ?_, ?_, ?_⟩
  · rw [hsum, hlog, Int.cast_add, Int.cast_mul, Int.cast_natCast]
    have key : (l : ℝ) * e + sval F - 2 ^ 492 * (e * Real.log 2 + Real.log (m / 2 ^ 236)) =
        (l - 2 ^ 492 * Real.log 2) * e + (sval F - 2 ^ 492 * Real.log (m / 2 ^ 236)) := by ring
    rw [key]
    refine (abs_add_le _ _).trans (add_le_add ?_ f1)
    rw [abs_mul]
    exact mul_le_of_le_one_left (abs_nonneg _) hlr
  · intro he0 hm0
    rw [hsum, he0, mul_zero, zero_add]
    apply f2
    rw [hMn, hm0]; norm_num
  · rw [hsum]
    exact range_core hP1 hP2 hFlt hFgt

theorem abs_ge_of_unit {L : ℝ} (h : 1 / 2 ^ 237 ≤ |L|) : 1 ≤ 2 ^ 237 * |L| := by
  have := mul_le_mul_of_nonneg_left h (show (0 : ℝ) ≤ 2 ^ 237 by positivity)
  rwa [mul_one_div_cancel (by positivity)] at this

/-- just below one -/
theorem log_below {m : ℝ} {L : ℝ} (hm : m ≤ 2 ^ 237 - 1) (h0 : 0 < m) (hL : L = Real.log (m / 2 ^ 237)) :
    1 / 2 ^ 237 ≤ |L| := by
  have h3 := Real.log_le_sub_one_of_pos (show 0 < m / 2 ^ 237 by positivity)
  have h4 : m / 2 ^ 237 ≤ 1 - 1 / 2 ^ 237 := by
    rw [div_le_iff₀ (by positivity), sub_mul, one_div_mul_cancel (by positivity)]
    linarith
  rw [← hL] at h3
  have h5 : (0 : ℝ) < 1 / 2 ^ 237 := by positivity
  rw [abs_of_nonpos (by linarith)]
  linarith

/-- just above one -/
theorem log_above {m : ℝ} {L : ℝ} (hm : 2 ^ 236 + 1 ≤ m) (hm2 : m ≤ 2 ^ 237 - 1) (hL : L = Real.log (m / 2 ^ 236)) :
    1 / 2 ^ 237 ≤ |L| := by
  have h0 : 0 < m := lt_of_lt_of_le (by positivity) hm
  have h3 := Real.one_sub_inv_le_log_of_pos (show 0 < m / 2 ^ 236 by positivity)
  have h4 : 1 / 2 ^ 237 ≤ 1 - (m / 2 ^ 236 : ℝ)⁻¹ := by
    rw [inv_div, le_sub_comm, div_le_iff₀ h0, sub_mul, one_mul, div_mul_eq_mul_div, one_mul]
    have : (m : ℝ) / 2 ^ 237 ≤ 1 := by rw [div_le_one (by positivity)]; linarith
    linarith
  rw [← hL] at h3
  exact (h4.trans h3).trans (le_abs_self _)

theorem log_large {e l L : ℝ} (hl0 : 0 ≤ l) (hl : l ≤ Real.log 2) (hL : L = e * Real.log 2 + l) (he : e ≤ -2 ∨ 1 ≤ e) :
    1 ≤ 2 ^ 237 * |L| ∧ |e| + 1724 ≤ 1725 * (2 ^ 237 * |L|) := by
  have hl2 : 0.5 ≤ Real.log 2 := by have := Real.log_two_gt_d9; linarith
  have h6 : 1000 * |L| ≤ 2 ^ 237 * |L| := mul_le_mul_of_nonneg_right (by norm_num) (abs_nonneg _)
  have h5 : |e| / 4 ≤ |L| ∧ 1 ≤ |e| := by
    rcases he with he | he
    · have h7 : (-(e + 1)) * 0.5 ≤ -(e + 1) * Real.log 2 := mul_le_mul_of_nonneg_left hl2 (by linarith)
      have h8 : L ≤ (e + 1) * 0.5 := by rw [hL]; linarith
      rw [abs_of_nonpos (show e ≤ 0 by linarith), abs_of_nonpos (show L ≤ 0 by linarith)]
      constructor <;> linarith
    · have h7 : e * 0.5 ≤ e * Real.log 2 := mul_le_mul_of_nonneg_left hl2 (by linarith)
      have h8 : e * 0.5 ≤ L := by rw [hL]; linarith
      rw [abs_of_nonneg (show 0 ≤ e by linarith), abs_of_nonneg (show 0 ≤ L by linarith)]
      constructor <;> linarith
  obtain ⟨h5, h9⟩ := h5
  generalize (2 : ℝ) ^ 237 * |L| = y at *
  constructor <;> linarith

theorem log_le_max {e l L : ℝ} (hl0 : 0 ≤ l) (hl : l ≤ Real.log 2) (hL : L = e * Real.log 2 + l) (h1 : -262378 ≤ e)
    (h2 : e ≤ 262143) : |L| ≤ 262378 := by
  have a := Real.log_two_gt_d9
  have b := Real.log_two_lt_d9
  have c : e * Real.log 2 ≤ 262143 * Real.log 2 := mul_le_mul_of_nonneg_right h2 (by linarith)
  have d : -262378 * Real.log 2 ≤ e * Real.log 2 := mul_le_mul_of_nonneg_right h1 (by linarith)
  rw [abs_le, hL]
  constructor <;> linarith

/-- The relative error of the fixed point logarithm -/
theorem lnFP_rel {x : F256} (h0 : x.pat ≠ 0) (h1 : x.pat < INF) :
    |(sval (lnFP x) : ℝ) - 2 ^ 492 * Real.log (val x.pat)| ≤ 1725 * (2 ^ 237 * |Real.log (val x.pat)|) ∧
      (sval (lnFP x)).natAbs < 2 ^ 509 + 2 ^ 508 ∧
      (Real.log (val x.pat) = 0 ∨ 1 ≤ 2 ^ 237 * |Real.log (val x.pat)|) ∧ |Real.log (val x.pat)| ≤ 262378 ∧
      0 < val x.pat := by
  obtain ⟨e, m, m1, m2, e1, e2, hv, hlog, herr, hone, hnat⟩ := lnFP_abs h0 h1
  have hm1R : (2 : ℝ) ^ 236 ≤ m := by exact_mod_cast m1
  have hm2R : (m : ℝ) ≤ 2 ^ 237 - 1 := by
    have : m + 1 ≤ 2 ^ 237 := m2
    have : (m : ℝ) + 1 ≤ 2 ^ 237 := by exact_mod_cast this
    linarith
  have hm0 : (0 : ℝ) < m := lt_of_lt_of_le (by positivity) hm1R
  have hmpos : (0 : ℝ) < m / 2 ^ 236 := by positivity
  have hl0 : 0 ≤ Real.log (m / 2 ^ 236) := by
    apply Real.log_nonneg
    rw [le_div_iff₀ (by positivity), one_mul]
    exact hm1R
  have hlle : Real.log (m / 2 ^ 236) ≤ Real.log 2 := by
    apply Real.log_le_log hmpos
    rw [div_le_iff₀ (by positivity)]
    have e : (2 : ℝ) ^ 237 = 2 * 2 ^ 236 := by norm_num
    linarith
  have e1R : (-262378 : ℝ) ≤ e := by exact_mod_cast e1
  have e2R : (e : ℝ) ≤ 262143 := by exact_mod_cast e2
  have hup := log_le_max hl0 hlle hlog e1R e2R
  have hvpos : 0 < val x.pat := by rw [hv]; positivity
  have hsuff : (Real.log (val x.pat) = 0 ∧ sval (lnFP x) = 0) ∨ (1 ≤ 2 ^ 237 * |Real.log (val x.pat)| ∧
      |(e : ℝ)| + 1724 ≤ 1725 * (2 ^ 237 * |Real.log (val x.pat)|)) := by
    by_cases hm : e = -1
    · right
      have hv' : val x.pat = m / 2 ^ 237 := by
        rw [hv, hm, show (2 : ℝ) ^ 237 = 2 ^ 236 * 2 by norm_num, div_mul_eq_div_div, zpow_neg_one]
        ring
      have h6 := abs_ge_of_unit (log_below (L := Real.log (val x.pat)) hm2R hm0 (by rw [hv']))
      refine ⟨h6, ?_⟩
      rw [hm, Int.cast_neg, Int.cast_one, abs_neg, abs_one]
      generalize (2 : ℝ) ^ 237 * |Real.log (val x.pat)| = y at *
      linarith
    · by_cases hc : e = 0
      · rw [hc, Int.cast_zero, zero_mul, zero_add] at hlog
        by_cases hm : m = 2 ^ 236
        · left
          refine ⟨?_, hone hc hm⟩
          rw [hlog, hm, Nat.cast_pow, Nat.cast_ofNat, div_self (by positivity), Real.log_one]
        · right
          have h2 : 2 ^ 236 + 1 ≤ m := by omega
          have h2R : (2 : ℝ) ^ 236 + 1 ≤ m := by exact_mod_cast h2
          have h6 := abs_ge_of_unit (log_above h2R hm2R hlog)
          refine ⟨h6, ?_⟩
          rw [hc, Int.cast_zero, abs_zero]
          generalize (2 : ℝ) ^ 237 * |Real.log (val x.pat)| = y at *
          linarith
      · right
        refine log_large hl0 hlle hlog ?_
        rcases lt_or_gt_of_ne hc with h | h
        · left
          have : e ≤ -2 := by omega
          exact_mod_cast this
        · right
          exact_mod_cast h
  rcases hsuff with ⟨a, b⟩ | ⟨a, b⟩
  · refine ⟨?_, hnat, Or.inl a, hup, hvpos⟩
    rw [a, b]; simp
  · exact ⟨herr.trans b, hnat, Or.inr a, hup, hvpos⟩

/-- The rounded product is within one unit of the exact one, and zero only if that is zero. -/
theorem imulRound_real {x y : FP492} (h : (sval x).natAbs * (sval y).natAbs < 2 ^ 1002 + 2 ^ 1001) :
    |(sval (imulRound x y) : ℝ) - sval x * sval y / 2 ^ 492| ≤ 1 ∧ (sval x = 0 → sval (imulRound x y) = 0) := by
  obtain ⟨R, h1, h2, h3, -⟩ := imulRound_spec h
  refine ⟨?_, fun h0 => by rw [h1, h0]; simp⟩
  have hx : (sval x : ℝ) = (sval x).sign * (sval x).natAbs := by
    have := congrArg (Int.cast : ℤ → ℝ) (Int.sign_mul_natAbs (sval x))
    rw [Int.cast_mul, Int.cast_natCast] at this
    exact this.symm
  have hy : (sval y : ℝ) = (sval y).sign * (sval y).natAbs := by
    have := congrArg (Int.cast : ℤ → ℝ) (Int.sign_mul_natAbs (sval y))
    rw [Int.cast_mul, Int.cast_natCast] at this
    exact this.symm
  obtain ⟨Q, hQ⟩ : ∃ Q, (sval x).natAbs * (sval y).natAbs = Q := ⟨_, rfl⟩
  rw [hQ] at h2 h3
  have hQR : ((sval x).natAbs : ℝ) * (sval y).natAbs = Q := by exact_mod_cast hQ
  have hpos : (0 : ℝ) < 2 ^ 492 := by positivity
  have a1 : Q < (R + 1) * 2 ^ 492 := by
    have := Nat.lt_div_mul_add (a := Q) (b := 2 ^ 492) (by positivity)
    have h4 : (Q / 2 ^ 492 + 1) * 2 ^ 492 ≤ (R + 1) * 2 ^ 492 := Nat.mul_le_mul_right _ (Nat.succ_le_succ h2)
    rw [Nat.add_mul, Nat.one_mul] at h4
    exact lt_of_lt_of_le this h4
  have a2 : R * 2 ^ 492 ≤ Q + 2 ^ 492 := by
    have := Nat.div_mul_le_self Q (2 ^ 492)
    have h4 : R * 2 ^ 492 ≤ (Q / 2 ^ 492 + 1) * 2 ^ 492 := Nat.mul_le_mul_right _ h3
    rw [Nat.add_mul, Nat.one_mul] at h4
    exact h4.trans (Nat.add_le_add_right this _)
  have a1R : (Q : ℝ) < (R + 1) * 2 ^ 492 := by exact_mod_cast a1
  have a2R : (R : ℝ) * 2 ^ 492 ≤ Q + 2 ^ 492 := by exact_mod_cast a2
  have hs : |((sval x).sign : ℝ) * (sval y).sign| ≤ 1 := by
    rcases sign_cases (sval x) with u | u | u <;> rcases sign_cases (sval y) with w | w | w <;> rw [u, w] <;> norm_num
  have key : |(R : ℝ) - Q / 2 ^ 492| ≤ 1 := by
    generalize (2 : ℝ) ^ 492 = W at *
    rw [abs_le]
    constructor
    · have : (Q : ℝ) / W ≤ R + 1 := (div_le_iff₀ hpos).mpr a1R.le
      linarith
    · have : (R : ℝ) - 1 ≤ Q / W := (le_div_iff₀ hpos).mpr (by linarith)
      linarith
  have e : (sval (imulRound x y) : ℝ) - sval x * sval y / 2 ^ 492 =
      ((sval x).sign * (sval y).sign) * (R - Q / 2 ^ 492) := by
    rw [h1, ← hQR]
    generalize (2 : ℝ) ^ 492 = W at *
    rw [Int.cast_mul, Int.cast_mul, Int.cast_natCast]
    rw [hx, hy]
    ring
  rw [e, abs_mul]
  calc _ ≤ 1 * 1 := mul_le_mul hs key (abs_nonneg _) (by norm_num)
    _ = 1 := by norm_num

/-- Multiplication with a constant, in relative terms -/
theorem mul_const {L κ S c T W y : ℝ} (hW : 0 < W) (hκ : 0.43 ≤ κ) (hc : |c - W * κ| ≤ 1)
    (hS : |S - W * L| ≤ 1725 * y) (hy : y = 2 ^ 237 * |L|) (hy1 : 1 ≤ y) (hyW : 1725 * y ≤ W * |L|)
    (hT : |T - S * c / W| ≤ 1) : |T - W * (L * κ)| ≤ 2048 * (y * κ) := by
  have h1 : |S| ≤ 2 * (W * |L|) := by
    have : |S| ≤ |S - W * L| + |W * L| := by
      have := abs_add_le (S - W * L) (W * L); rwa [sub_add_cancel] at this
    rw [abs_mul, abs_of_pos hW] at this
    linarith
  have e : T - W * (L * κ) = (T - S * c / W) + ((S - W * L) * κ + S / W * (c - W * κ)) := by
    field_simp; ring
  rw [e]
  have h2 : |S / W * (c - W * κ)| ≤ 2 * |L| := by
    rw [abs_mul, abs_div, abs_of_pos hW]
    have : |S| / W ≤ 2 * |L| := by rw [div_le_iff₀ hW]; linarith
    calc _ ≤ 2 * |L| * 1 := mul_le_mul this hc (abs_nonneg _) (by positivity)
      _ = _ := mul_one _
  have h3 : |(S - W * L) * κ| ≤ 1725 * y * κ := by
    rw [abs_mul, abs_of_pos (by linarith : 0 < κ)]
    exact mul_le_mul_of_nonneg_right hS (by linarith)
  have h4 : |L| ≤ y := by
    rw [hy]; exact le_mul_of_one_le_left (abs_nonneg _) (one_le_pow₀ (by norm_num))
  have h5 : y * 0.43 ≤ y * κ := mul_le_mul_of_nonneg_left hκ (by linarith)
  have t1 := abs_add_le (T - S * c / W) ((S - W * L) * κ + S / W * (c - W * κ))
  have t2 := abs_add_le ((S - W * L) * κ) (S / W * (c - W * κ))
  linarith

end Verif.Ln
