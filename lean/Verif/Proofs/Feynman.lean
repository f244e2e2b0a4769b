import Verif.Proofs.LogTable

/-!
# Feynman's algorithm for the logarithm: error bound
-/

namespace Verif.Ln

open FP492

set_option exponentiation.threshold 2000

/-- `2^492` as a real number, kept opaque. -/
theorem exists_unit : ∃ W : ℝ, (2 : ℝ) ^ 492 = W := ⟨_, rfl⟩

theorem limbs_eq (x : FP492) : limbs x = UInt.nat x := (nat_limbs x).symm

/-- The logarithm changes by at most one unit when its argument does. -/
theorem log_sub_le {W a b : ℝ} (hW : 0 < W) (ha : W ≤ a) (hb : W ≤ b) (δ : ℝ) (h : |a - b| ≤ δ) :
    |W * Real.log (a / W) - W * Real.log (b / W)| ≤ δ := by
  have ha0 : 0 < a := lt_of_lt_of_le hW ha
  have hb0 : 0 < b := lt_of_lt_of_le hW hb
  have key : ∀ a b : ℝ, 0 < a → 0 < b → W ≤ b → a - b ≤ δ → 0 ≤ δ → W * (Real.log a - Real.log b) ≤ δ := by
    intro a b ha0 hb0 hb hab hδ
    rw [← Real.log_div ha0.ne' hb0.ne']
    have h1 := Real.log_le_sub_one_of_pos (div_pos ha0 hb0)
    have h2 : a / b - 1 = (a - b) / b := by field_simp
    rw [h2] at h1
    have h3 : (a - b) / b ≤ δ / W := by
      rw [div_le_div_iff₀ hb0 hW]
      calc (a - b) * W ≤ δ * W := mul_le_mul_of_nonneg_right hab hW.le
        _ ≤ δ * b := mul_le_mul_of_nonneg_left hb hδ
    have := mul_le_mul_of_nonneg_left (h1.trans h3) hW.le
    rwa [mul_div_cancel₀ _ hW.ne'] at this
  have hδ : 0 ≤ δ := (abs_nonneg _).trans h
  rw [Real.log_div ha0.ne' hW.ne', Real.log_div hb0.ne' hW.ne', ← mul_sub, sub_sub_sub_cancel_right]
  have hab := abs_le.mp h
  rw [abs_le]
  constructor
  · have := key b a hb0 ha0 ha (by linarith [hab.1]) hδ
    linarith
  · exact key a b ha0 hb0 hb hab.2 hδ

/-- One multiplication of the loop -/
theorem step_mul {p f : FP492} {n : ℕ} (hn : 1 ≤ n) (hn2 : n ≤ 492) (hp1 : 2 ^ 492 ≤ sval p) (hp2 : sval p < 2 ^ 493)
    (hf : limbs f = 2 ^ 492 + 2 ^ (492 - n)) :
    |(sval (imulRound p f) : ℝ) - sval p * (1 + 1 / 2 ^ n)| ≤ 1 ∧ sval p ≤ sval (imulRound p f) := by
  have hpw : 2 ^ (492 - n) ≤ 2 ^ 491 := Nat.pow_le_pow_right (by norm_num) (by omega)
  have hfn : UInt.nat f = 2 ^ 492 + 2 ^ (492 - n) := by rw [← limbs_eq, hf]
  have hfs : sval f = (2 ^ 492 + 2 ^ (492 - n) : ℕ) := by
    rw [sval_of_lt, hfn]
    rw [hfn]
    generalize 2 ^ (492 - n) = g at *
    omega
  obtain ⟨F, hF⟩ : ∃ F : ℕ, 2 ^ 492 + 2 ^ (492 - n) = F := ⟨_, rfl⟩
  have hFlt : F < 2 ^ 493 := by
    rw [← hF]
    generalize 2 ^ (492 - n) = g at *
    omega
  have hF0 : 0 < F := by
    rw [← hF]; positivity
  have hFR : (F : ℝ) = 2 ^ 492 * (1 + 1 / 2 ^ n) := by
    rw [← hF, Nat.cast_add, Nat.cast_pow, Nat.cast_pow, Nat.cast_ofNat, mul_add, mul_one, mul_one_div]
    congr 1
    rw [eq_div_iff (by positivity), ← pow_add, Nat.sub_add_cancel hn2]
  rw [hF] at hfs
  obtain ⟨P, hP⟩ : ∃ P : ℕ, sval p = P := ⟨(sval p).natAbs, by omega⟩
  rw [hP] at hp1 hp2 ⊢
  have hPlt : P < 2 ^ 493 := by omega
  have hP0 : 0 < P := by omega
  have hprod : P * F < 2 ^ 1002 + 2 ^ 1001 := by
    calc P * F < 2 ^ 493 * 2 ^ 493 := Nat.mul_lt_mul'' hPlt hFlt
      _ ≤ 2 ^ 1002 + 2 ^ 1001 := by norm_num
  obtain ⟨R, h1, h2, h3, -⟩ := imulRound_spec (x := p) (y := f) (by
    rw [hP, hfs, Int.natAbs_natCast, Int.natAbs_natCast]; exact hprod)
  rw [hP, hfs, Int.natAbs_natCast, Int.natAbs_natCast] at h2 h3
  rw [hP, hfs, Int.sign_eq_one_of_pos (by exact_mod_cast hP0), Int.sign_eq_one_of_pos (by exact_mod_cast hF0),
    one_mul, one_mul] at h1
  have hPR : P ≤ R := by
    refine le_trans ?_ h2
    rw [Nat.le_div_iff_mul_le (by positivity)]
    exact Nat.mul_le_mul_left _ (hF ▸ Nat.le_add_right _ _)
  refine ⟨?_, by rw [h1]; exact_mod_cast hPR⟩
  rw [h1, Int.cast_natCast, Int.cast_natCast]
  have e : (P : ℝ) * (1 + 1 / 2 ^ n) = (P * F : ℕ) / 2 ^ 492 := by
    rw [Nat.cast_mul, hFR, eq_div_iff (by positivity)]; ring
  rw [e]
  obtain ⟨Q, hQ⟩ : ∃ Q, P * F = Q := ⟨_, rfl⟩
  rw [hQ] at h2 h3 ⊢
  have hpos : (0 : ℝ) < 2 ^ 492 := by positivity
  have a1 : Q < (R + 1) * 2 ^ 492 := by
    have := Nat.lt_div_mul_add (a := Q) (b := 2 ^ 492) (by positivity)
    have h4 : (Q / 2 ^ 492 + 1) * 2 ^ 492 ≤ (R + 1) * 2 ^ 492 := Nat.mul_le_mul_right _ (Nat.succ_le_succ h2)
    rw [Nat.add_mul, Nat.one_mul] at h4
    exact lt_of_lt_of_le this h4
  have a2 : R * 2 ^ 492 ≤ Q + 2 ^ 492 := by
    have := Nat.div_mul_le_self Q (2 ^ 492)
    have h4 : R * 2 ^ 492 ≤ (Q / 2 ^ 492 + 1) * 2 ^ 492 := Nat.mul_le_mul_right _ h3
    rw [Nat.add_mul, Nat.one_mul] at h4
    exact h4.trans (Nat.add_le_add_right this _)
  have a1R : (Q : ℝ) < (R + 1) * 2 ^ 492 := by exact_mod_cast a1
  have a2R : (R : ℝ) * 2 ^ 492 ≤ Q + 2 ^ 492 := by exact_mod_cast a2
  generalize (2 : ℝ) ^ 492 = W at *
  rw [abs_le]
  constructor
  · have : (Q : ℝ) / W ≤ R + 1 := (div_le_iff₀ hpos).mpr a1R.le
    linarith
  · have : (R : ℝ) - 1 ≤ Q / W := (le_div_iff₀ hpos).mpr (by linarith)
    linarith

theorem log_1p_bounds (n : ℕ) : 0 ≤ Real.log (1 + 1 / 2 ^ n) ∧ Real.log (1 + 1 / 2 ^ n) ≤ 1 := by
  have h1 : (0 : ℝ) < 1 / 2 ^ n := by positivity
  have h2 : (1 : ℝ) / 2 ^ n ≤ 1 := by
    rw [div_le_one (by positivity)]; exact one_le_pow₀ (by norm_num)
  refine ⟨Real.log_nonneg (by linarith), ?_⟩
  have := Real.log_le_sub_one_of_pos (x := 1 + 1 / 2 ^ n) (by linarith)
  linarith

/-- Adding a table entry -/
theorem step_add {ln l : FP492} {n : ℕ} {Λ ε : ℝ} (hl : |(limbs l : ℝ) - 2 ^ 492 * Real.log (1 + 1 / 2 ^ n)| ≤ 1)
    (hln : |(sval ln : ℝ) - Λ| ≤ ε) (hε : ε ≤ 2000) (hΛ : |Λ| ≤ 2 ^ 493) :
    |(sval (add ln l) : ℝ) - (Λ + 2 ^ 492 * Real.log (1 + 1 / 2 ^ n))| ≤ ε + 1 := by
  have hb := log_1p_bounds n
  have hlb := abs_le.mp hl
  have hp : (0 : ℝ) < 2 ^ 492 := by positivity
  have h1 : 2 ^ 492 * Real.log (1 + 1 / 2 ^ n) ≤ 2 ^ 492 := by
    have := mul_le_mul_of_nonneg_left hb.2 hp.le; linarith
  have h0 : 0 ≤ 2 ^ 492 * Real.log (1 + 1 / 2 ^ n) := mul_nonneg hp.le hb.1
  have h2 : (limbs l : ℝ) < 2 ^ 500 := by
    have : (2 : ℝ) ^ 492 + 1 < 2 ^ 500 := by norm_num
    linarith [hlb.2]
  have h3 : limbs l < 2 ^ 500 := by exact_mod_cast h2
  have hls : sval l = limbs l := by rw [limbs_eq] at h3 ⊢; exact sval_of_lt (by omega)
  have h4 := abs_le.mp hln
  have h5 := abs_le.mp hΛ
  have h6 : (sval ln : ℝ) < 2 ^ 500 := by
    have : (2 : ℝ) ^ 493 + 2000 < 2 ^ 500 := by norm_num
    linarith [h4.2, h5.2]
  have h7 : -2 ^ 500 < (sval ln : ℝ) := by
    have : (2 : ℝ) ^ 493 + 2000 < 2 ^ 500 := by norm_num
    linarith [h4.1, h5.1]
  have h6' : sval ln < 2 ^ 500 := by exact_mod_cast h6
  have h7' : -2 ^ 500 < sval ln := by exact_mod_cast h7
  rw [sval_add (by rw [hls]; omega) (by rw [hls]; omega), hls, Int.cast_add, Int.cast_natCast]
  rw [abs_le]
  constructor <;> linarith [h4.1, h4.2, hlb.1, hlb.2]

theorem tableOk_length : ∀ (rows : List (FP492 × FP492)) (n : ℕ), tableOk n rows = true → n + rows.length = 493
  | [], n, h => Nat.eq_of_beq_eq_true (show Nat.beq n 493 = true from h)
  | (f, l) :: rest, n, h => by
    rw [tableOk, Bool.and_eq_true] at h
    have := tableOk_length rest (n + 1) h.2
    rw [List.length_cons]; omega

theorem loop_end {p x ln : FP492} (hp : 2 ^ 492 ≤ sval p) (hpx : sval p < sval x) (hx2 : sval x < 2 ^ 493)
    (hx : (sval x : ℝ) ≤ sval p * (1 + 1 / 2 ^ 492) + 3 / 2 * 492)
    (hln : |(sval ln : ℝ) - 2 ^ 492 * Real.log (sval p / 2 ^ 492)| ≤ 2 * 492) :
    |(sval ln : ℝ) - 2 ^ 492 * Real.log (sval x / 2 ^ 492)| ≤ 1724 := by
  have hpR : (sval p : ℝ) < 2 ^ 493 := by exact_mod_cast lt_trans hpx hx2
  have hpW : (2 : ℝ) ^ 492 ≤ (sval p : ℝ) := by exact_mod_cast hp
  have hpxR : (sval p : ℝ) < sval x := by exact_mod_cast hpx
  have e : (2 : ℝ) ^ 493 = 2 * 2 ^ 492 := by norm_num
  rw [e] at hpR
  clear hp hpx hx2 e
  have hW0 : (0 : ℝ) < 2 ^ 492 := by positivity
  generalize (2 : ℝ) ^ 492 = W at *
  have h1 : |(sval x : ℝ) - sval p| ≤ 740 := by
    rw [abs_of_pos (by linarith)]
    have : (sval p : ℝ) * (1 / W) ≤ 2 := by
      rw [mul_one_div, div_le_iff₀ hW0]
      linarith
    rw [mul_add] at hx
    linarith
  have h2 := log_sub_le hW0 (by linarith) hpW 740 h1
  have h3 := abs_le.mp h2
  have h4 := abs_le.mp hln
  rw [abs_le]
  constructor <;> linarith [h3.1, h3.2, h4.1, h4.2]

/-- The loop, started at row `m + 1` with `1 ≤ p < x ≤ p (1 + 2^-m)` up to rounding errors -/
theorem loop_err {x : FP492} (hx2 : sval x < 2 ^ 493) :
    ∀ (rows : List (FP492 × FP492)) (m : ℕ) (p ln : FP492), tableOk (m + 1) rows = true → m ≤ 492 →
      2 ^ 492 ≤ sval p → sval p < sval x → (sval x : ℝ) ≤ sval p * (1 + 1 / 2 ^ m) + 3 / 2 * m →
      |(sval ln : ℝ) - 2 ^ 492 * Real.log (sval p / 2 ^ 492)| ≤ 2 * (m : ℝ) →
      |(sval (feynmanLoop x rows p ln) : ℝ) - 2 ^ 492 * Real.log (sval x / 2 ^ 492)| ≤ 1724 := by
  obtain ⟨W, hW⟩ := exists_unit
  have hW0 : 0 < W := by rw [← hW]; positivity
  intro rows
  induction rows with
  | nil =>
    intro m p ln hok hm hp hpx hx hln
    have hm' : m = 492 := by
      have := Nat.eq_of_beq_eq_true (show Nat.beq (m + 1) 493 = true from hok); exact Nat.succ.inj this
    rw [feynmanLoop]
    rw [hm'] at hx hln
    exact loop_end hp hpx hx2 (by rw [Nat.cast_ofNat] at hx; exact hx) (by rw [Nat.cast_ofNat] at hln; exact hln)
  | cons r rest ih =>
    obtain ⟨f, l⟩ := r
    intro m p ln hok hm hp hpx hx hln
    rw [tableOk, Bool.and_eq_true] at hok
    obtain ⟨hrow, hrest⟩ := hok
    obtain ⟨hf, hl⟩ := rowOk_spec hrow
    have hm2 : m + 1 ≤ 492 := by
      have := tableOk_length _ _ hrest
      clear * - this
      omega
    have hp493 : sval p < 2 ^ 493 := lt_trans hpx hx2
    obtain ⟨hmul, hpt⟩ := step_mul (Nat.succ_le_succ (Nat.zero_le m)) hm2 hp hp493 hf
    have hmb := abs_le.mp hmul
    have hpW : W ≤ (sval p : ℝ) := by rw [← hW]; exact_mod_cast hp
    have hpR : (sval p : ℝ) < 2 ^ 493 := by exact_mod_cast hp493
    have hpos : (0 : ℝ) < 1 / 2 ^ (m + 1) := by positivity
    have hhalf : (1 : ℝ) / 2 ^ (m + 1) ≤ 1 / 2 := by
      apply one_div_le_one_div_of_le (by norm_num)
      calc (2 : ℝ) = 2 ^ 1 := by norm_num
        _ ≤ 2 ^ (m + 1) := pow_le_pow_right₀ (by norm_num) (Nat.succ_le_succ (Nat.zero_le m))
    have hdbl : (1 : ℝ) / 2 ^ m = 2 * (1 / 2 ^ (m + 1)) := by rw [pow_succ]; field_simp
    have hΛ0 : 0 ≤ Real.log (sval p / W) := Real.log_nonneg (by rw [le_div_iff₀ hW0]; linarith)
    have hΛ : |2 ^ 492 * Real.log (sval p / 2 ^ 492)| ≤ 2 ^ 493 := by
      rw [hW, abs_of_nonneg (mul_nonneg hW0.le hΛ0)]
      have h1 := Real.log_le_sub_one_of_pos (x := sval p / W) (by positivity)
      have h2 : (sval p : ℝ) / W ≤ 2 := by
        rw [div_le_iff₀ hW0, ← hW]
        have : (2 : ℝ) * 2 ^ 492 = 2 ^ 493 := by norm_num
        linarith
      have h3 := mul_le_mul_of_nonneg_left (show Real.log (sval p / W) ≤ 1 by linarith) hW0.le
      have h4 : (2 : ℝ) ^ 493 = 2 * W := by rw [← hW]; norm_num
      linarith
    have hm2R : (m : ℝ) + 1 ≤ 492 := by exact_mod_cast hm2
    have hadd := step_add hl hln (by linarith) hΛ
    -- the sum of the logarithms is the logarithm of the product
    have hsum : 2 ^ 492 * Real.log (sval p / 2 ^ 492) + 2 ^ 492 * Real.log (1 + 1 / 2 ^ (m + 1)) =
        W * Real.log (sval p * (1 + 1 / 2 ^ (m + 1)) / W) := by
      rw [hW, ← mul_add, ← Real.log_mul (by positivity) (by positivity)]
      congr 2
      ring
    rw [hsum] at hadd
    obtain ⟨q, hq⟩ : ∃ q : ℝ, (sval p : ℝ) * (1 + 1 / 2 ^ (m + 1)) = q := ⟨_, rfl⟩
    rw [hq] at hadd hmul hmb
    have hqW : W ≤ q := by
      rw [← hq]
      have := mul_nonneg (le_trans hW0.le hpW) hpos.le
      linarith
    obtain ⟨t, ht⟩ : ∃ t, imulRound p f = t := ⟨_, rfl⟩
    rw [ht] at hmul hmb hpt
    have htW : 2 ^ 492 ≤ sval t := hp.trans hpt
    have htWR : W ≤ (sval t : ℝ) := by rw [← hW]; exact_mod_cast htW
    have hlt := log_sub_le hW0 htWR hqW 1 hmul
    have hnew : |(sval (add ln l) : ℝ) - W * Real.log (sval t / W)| ≤ 2 * ((m + 1 : ℕ) : ℝ) := by
      have h1 := abs_le.mp hlt
      have h2 := abs_le.mp hadd
      rw [abs_le]
      push_cast
      constructor <;> linarith [h1.1, h1.2, h2.1, h2.2]
    rw [feynmanLoop, ht]
    rcases lt_trichotomy (sval t) (sval x) with hc | hc | hc
    · rw [cmp_lt hc]
      dsimp only
      refine ih (m + 1) t _ hrest hm2 htW hc ?_ (by rw [hW]; exact hnew)
      have h1 : (sval p : ℝ) * (1 + 1 / 2 ^ m) ≤ q * (1 + 1 / 2 ^ (m + 1)) := by
        rw [← hq, hdbl, mul_assoc]
        apply mul_le_mul_of_nonneg_left _ (le_trans hW0.le hpW)
        nlinarith
      have h2 : q * (1 + 1 / 2 ^ (m + 1)) ≤ (sval t + 1) * (1 + 1 / 2 ^ (m + 1)) :=
        mul_le_mul_of_nonneg_right (by linarith [hmb.1]) (by linarith)
      push_cast
      linarith
    · rw [cmp_same hc]
      dsimp only
      rw [← hc, hW]
      refine hnew.trans ?_
      push_cast
      linarith
    · rw [cmp_gt hc]
      dsimp only
      refine ih (m + 1) p ln hrest hm2 hp hpx ?_ (hln.trans (by push_cast; linarith))
      have : (sval x : ℝ) < sval t := by exact_mod_cast hc
      rw [hq]
      have hm0 : (0 : ℝ) ≤ m := Nat.cast_nonneg m
      push_cast
      linarith [hmb.2]

theorem nat_one : UInt.nat ONE = 2 ^ 492 := by
  rw [nat_limbs]; decide +kernel

/-- The logarithm of a number between 1 and 2: the error is at most 1724 units of `2^-492`. -/
theorem feynman_err {x : FP492} (h1 : 2 ^ 492 ≤ UInt.nat x) (h2 : UInt.nat x < 2 ^ 493) :
    |(sval (feynman x) : ℝ) - 2 ^ 492 * Real.log (UInt.nat x / 2 ^ 492)| ≤ 1724 ∧
      (UInt.nat x = 2 ^ 492 → sval (feynman x) = 0) := by
  have hs : sval x = UInt.nat x := sval_of_lt (by omega)
  have hone : sval ONE = 2 ^ 492 := by
    rw [sval_of_lt (by rw [nat_one]; norm_num), nat_one]; norm_num
  have hzero : sval ZERO = 0 := by
    have : UInt.nat ZERO = 0 := by rw [nat_limbs]; rfl
    rw [sval_of_lt (by rw [this]; norm_num), this]; rfl
  have hb : UInt.beq x ONE = decide (UInt.nat x = UInt.nat ONE) := UInt.beq_eq x ONE
  rw [nat_one] at hb
  unfold feynman
  rw [hb]
  by_cases h : UInt.nat x = 2 ^ 492
  · rw [decide_eq_true h, if_pos rfl, hzero]
    refine ⟨?_, fun _ => rfl⟩
    rw [h, Nat.cast_pow, Nat.cast_ofNat, div_self (by positivity), Real.log_one, mul_zero]
    norm_num
  · rw [decide_eq_false h, if_neg (by simp)]
    refine ⟨?_, fun hc => absurd hc h⟩
    have hx2 : sval x < 2 ^ 493 := by rw [hs]; exact_mod_cast h2
    have := loop_err hx2 LUT 0 ONE ZERO LUT_ok (by norm_num) (le_of_eq hone.symm) (by rw [hone, hs]; omega)
      (by
        rw [hone, Nat.cast_zero, mul_zero, add_zero, pow_zero]
        have : (sval x : ℝ) < 2 ^ 493 := by exact_mod_cast hx2
        push_cast
        linarith)
      (by
        rw [hone, hzero, Int.cast_pow, show ((2 : ℤ) : ℝ) = 2 by norm_num, div_self (by positivity), Real.log_one]
        simp)
    rw [hs, Int.cast_natCast] at this
    exact this

end Verif.Ln
