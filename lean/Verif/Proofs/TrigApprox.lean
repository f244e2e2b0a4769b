import Verif.Model.Trig
import Verif.Proofs.FP492
import Verif.Proofs.Ln
import Mathlib.Analysis.SpecialFunctions.Trigonometric.Bounds
import Mathlib.Analysis.SpecialFunctions.Trigonometric.Series
import Mathlib.Analysis.SpecificLimits.Normed

/-!
# The approximations of sine and cosine by polynomials
-/

set_option exponentiation.threshold 2000

namespace Verif.Trig

open FP492 Finset Nat

/-- The coefficients of the series of the sine -/
noncomputable def sinA (i : ℕ) : ℝ := (-1) ^ i / (2 * i + 1)!

/-- The coefficients of the series of the cosine -/
noncomputable def cosA (i : ℕ) : ℝ := (-1) ^ i / (2 * i)!

theorem sin_taylor {x : ℝ} (h0 : 0 ≤ x) (h1 : x ≤ 1) :
    |Real.sin x - x * ∑ i ∈ range 31, sinA i * (x ^ 2) ^ i| ≤ x / 2 ^ 280 := by
  have ht := (Real.hasSum_sin x).tendsto_sum_nat
  have ha : Antitone fun i : ℕ => x ^ (2 * i + 1) / (2 * i + 1)! := by
    refine antitone_nat_of_succ_le fun i => ?_
    have h2 : x ^ (2 * (i + 1) + 1) ≤ x ^ (2 * i + 1) := pow_le_pow_of_le_one h0 h1 (by omega)
    have h3 : ((2 * i + 1)! : ℝ) ≤ (2 * (i + 1) + 1)! := by exact_mod_cast Nat.factorial_le (by omega)
    have h4 : (0 : ℝ) < (2 * i + 1)! := by exact_mod_cast Nat.factorial_pos _
    gcongr
  have ht' : Filter.Tendsto (fun n => ∑ i ∈ range n, (-1) ^ i * (x ^ (2 * i + 1) / (2 * i + 1)!))
      Filter.atTop (nhds (Real.sin x)) := by
    refine ht.congr fun n => sum_congr rfl fun i _ => ?_
    ring
  have hs : x * ∑ i ∈ range 31, sinA i * (x ^ 2) ^ i = ∑ i ∈ range 31, (-1) ^ i * (x ^ (2 * i + 1) / (2 * i + 1)!) := by
    rw [mul_sum]
    refine sum_congr rfl fun i _ => ?_
    rw [sinA, ← pow_mul, pow_succ]
    ring
  have e1 := ha.tendsto_le_alternating_series ht' 15
  have e2 := ha.alternating_series_le_tendsto ht' 16
  rw [show 2 * 15 + 1 = 31 by norm_num, ← hs] at e1
  rw [show 2 * 16 = 31 + 1 by norm_num, sum_range_succ, ← hs] at e2
  have e3 : x ^ (2 * 31 + 1) / ((2 * 31 + 1)! : ℕ) ≤ x / 2 ^ 280 := by
    have h5 : (2 : ℝ) ^ 280 ≤ ((2 * 31 + 1)! : ℕ) := by
      have : 2 ^ 280 ≤ (2 * 31 + 1)! := by decide +kernel
      exact_mod_cast this
    have h6 : x ^ (2 * 31 + 1) ≤ x := pow_le_of_le_one h0 h1 (by norm_num)
    gcongr
  rw [abs_le]
  constructor
  · have : (-1 : ℝ) ^ 31 = -1 := by norm_num
    rw [this] at e2
    linarith
  · have : 0 ≤ x / 2 ^ 280 := by positivity
    linarith

theorem cos_taylor {x : ℝ} (h0 : 0 ≤ x) (h1 : x ≤ 1) :
    |Real.cos x - ∑ i ∈ range 33, cosA i * (x ^ 2) ^ i| ≤ 1 / 2 ^ 280 := by
  have ht := (Real.hasSum_cos x).tendsto_sum_nat
  have ha : Antitone fun i : ℕ => x ^ (2 * i) / (2 * i)! := by
    refine antitone_nat_of_succ_le fun i => ?_
    have h2 : x ^ (2 * (i + 1)) ≤ x ^ (2 * i) := pow_le_pow_of_le_one h0 h1 (by omega)
    have h3 : ((2 * i)! : ℝ) ≤ (2 * (i + 1))! := by exact_mod_cast Nat.factorial_le (by omega)
    have h4 : (0 : ℝ) < (2 * i)! := by exact_mod_cast Nat.factorial_pos _
    gcongr
  have ht' : Filter.Tendsto (fun n => ∑ i ∈ range n, (-1) ^ i * (x ^ (2 * i) / (2 * i)!))
      Filter.atTop (nhds (Real.cos x)) := by
    refine ht.congr fun n => sum_congr rfl fun i _ => ?_
    ring
  have hs : ∑ i ∈ range 33, cosA i * (x ^ 2) ^ i = ∑ i ∈ range 33, (-1) ^ i * (x ^ (2 * i) / (2 * i)!) := by
    refine sum_congr rfl fun i _ => ?_
    rw [cosA, pow_mul]
    ring
  have e1 := ha.tendsto_le_alternating_series ht' 16
  have e2 := ha.alternating_series_le_tendsto ht' 17
  rw [show 2 * 16 + 1 = 33 by norm_num, ← hs] at e1
  rw [show 2 * 17 = 33 + 1 by norm_num, sum_range_succ, ← hs] at e2
  have e3 : x ^ (2 * 33) / ((2 * 33)! : ℕ) ≤ 1 / 2 ^ 280 := by
    have h5 : (2 : ℝ) ^ 280 ≤ ((2 * 33)! : ℕ) := by
      have : 2 ^ 280 ≤ (2 * 33)! := by decide +kernel
      exact_mod_cast this
    have h6 : x ^ (2 * 33) ≤ 1 := pow_le_one₀ h0 h1
    gcongr
  rw [abs_le]
  constructor
  · have : (-1 : ℝ) ^ 33 = -1 := by norm_num
    rw [this] at e2
    linarith
  · have : (0 : ℝ) ≤ 1 / 2 ^ 280 := by positivity
    linarith

/-- The coefficients of the tables, the highest power first -/
def CoeffsOk (a : ℕ → ℝ) : List FP492 → Prop
  | [] => True
  | c :: rest => |(sval c : ℝ) - a rest.length * 2 ^ 492| ≤ 1 ∧ CoeffsOk a rest

/-- The same, computably, for coefficients `(-1)^i / (f i)` -/
def coeffsCheck (f : ℕ → ℕ) : List FP492 → Bool
  | [] => true
  | c :: rest => decide ((sval c * f rest.length - (-1) ^ rest.length * 2 ^ 492).natAbs ≤ f rest.length) &&
      coeffsCheck f rest

theorem coeffsCheck_sound {f : ℕ → ℕ} (hf : ∀ i, 0 < f i) : ∀ {l : List FP492}, coeffsCheck f l = true →
    CoeffsOk (fun i => (-1) ^ i / f i) l
  | [], _ => trivial
  | c :: rest, h => by
    rw [coeffsCheck, Bool.and_eq_true, decide_eq_true_iff] at h
    refine ⟨?_, coeffsCheck_sound hf h.2⟩
    obtain ⟨h1, -⟩ := h
    have hp : (0 : ℝ) < f rest.length := by exact_mod_cast hf _
    have h2 : |(sval c : ℝ) * f rest.length - (-1) ^ rest.length * 2 ^ 492| ≤ (f rest.length : ℝ) := by
      have h3 : |sval c * f rest.length - (-1) ^ rest.length * 2 ^ 492| ≤ (f rest.length : ℤ) := by
        rw [Int.abs_eq_natAbs]; exact_mod_cast h1
      exact_mod_cast h3
    have e : (sval c : ℝ) - (-1) ^ rest.length / f rest.length * 2 ^ 492 =
        ((sval c : ℝ) * f rest.length - (-1) ^ rest.length * 2 ^ 492) / f rest.length := by
      field_simp
    show |(sval c : ℝ) - (-1) ^ rest.length / f rest.length * 2 ^ 492| ≤ 1
    rw [e, abs_div, abs_of_pos hp, div_le_one hp]
    exact h2

theorem sinCoeffs_ok : CoeffsOk sinA sinCoeffs := by
  have h : coeffsCheck (fun i => (2 * i + 1)!) sinCoeffs = true := by decide +kernel
  exact coeffsCheck_sound (fun i => Nat.factorial_pos _) h

theorem cosCoeffs_ok : CoeffsOk cosA cosCoeffs := by
  have h : coeffsCheck (fun i => (2 * i)!) cosCoeffs = true := by decide +kernel
  exact coeffsCheck_sound (fun i => Nat.factorial_pos _) h

theorem abs_le_one_of {n : ℕ} (i : ℕ) (h : 0 < n) : |(-1 : ℝ) ^ i / n| ≤ 1 := by
  rw [abs_div, abs_pow, abs_neg, abs_one, one_pow, Nat.abs_cast]
  rw [div_le_one (by exact_mod_cast h)]
  exact_mod_cast h

theorem sinA_le (i : ℕ) : |sinA i| ≤ 1 := abs_le_one_of i (Nat.factorial_pos _)

theorem cosA_le (i : ℕ) : |cosA i| ≤ 1 := abs_le_one_of i (Nat.factorial_pos _)

/-- The error of one step, in units of the last place of the fixed point numbers -/
theorem step_real {s t p c A a u W : ℝ} (hW : 2 ^ 20 ≤ W) (hs : |s - A * W| ≤ 15) (hA : |A| ≤ 3) (hu0 : 0 ≤ u)
    (hu : u ≤ 16 / 25) (ht : |t - u * W| ≤ 1) (hp : |p - s * t / W| ≤ 1) (hc : |c - a * W| ≤ 1) (ha : |a| ≤ 1) :
    |p + c - (A * u + a) * W| ≤ 15 ∧ |A * u + a| ≤ 3 := by
  have hW0 : 0 < W := by linarith [show (0 : ℝ) < 2 ^ 20 by norm_num]
  constructor
  · have e : p + c - (A * u + a) * W = (p - s * t / W) + (c - a * W) + (s - A * W) * (t / W) + A * (t - u * W) := by
      field_simp; ring
    have h1 : |t / W| ≤ 16 / 25 + 1 / 2 ^ 20 := by
      rw [abs_div, abs_of_pos hW0, div_le_iff₀ hW0]
      have h2 : |t| ≤ u * W + 1 := by
        have := abs_add_le (t - u * W) (u * W)
        rw [sub_add_cancel, abs_of_nonneg (mul_nonneg hu0 hW0.le)] at this
        linarith
      have h3 : u * W ≤ 16 / 25 * W := mul_le_mul_of_nonneg_right hu hW0.le
      have h4 : (1 : ℝ) ≤ 1 / 2 ^ 20 * W := by
        rw [div_mul_eq_mul_div, one_mul, le_div_iff₀ (by norm_num)]; linarith
      linarith
    have h5 : |(s - A * W) * (t / W)| ≤ 15 * (16 / 25 + 1 / 2 ^ 20) := by
      rw [abs_mul]; exact mul_le_mul hs h1 (abs_nonneg _) (by norm_num)
    have h6 : |A * (t - u * W)| ≤ 3 * 1 := by
      rw [abs_mul]; exact mul_le_mul hA ht (abs_nonneg _) (by norm_num)
    rw [e]
    have e1 := abs_add_le ((p - s * t / W) + (c - a * W) + (s - A * W) * (t / W)) (A * (t - u * W))
    have e2 := abs_add_le ((p - s * t / W) + (c - a * W)) ((s - A * W) * (t / W))
    have e3 := abs_add_le (p - s * t / W) (c - a * W)
    have h7 : (15 : ℝ) * (16 / 25 + 1 / 2 ^ 20) ≤ 10 := by norm_num
    linarith
  · have h1 : |A * u| ≤ 3 * (16 / 25) := by
      rw [abs_mul, abs_of_nonneg hu0]; exact mul_le_mul hA hu hu0 (by norm_num)
    have := abs_add_le (A * u) a
    linarith

theorem natAbs_le_of {z : ℤ} {n : ℕ} {r : ℝ} (h : |(z : ℝ)| ≤ r) (hr : r ≤ n) : z.natAbs ≤ n := by
  have h1 : |(z : ℝ)| ≤ n := h.trans hr
  have h2 : |z| ≤ (n : ℤ) := by exact_mod_cast h1
  rw [Int.abs_eq_natAbs] at h2
  exact_mod_cast h2

theorem acc_bound {s A : ℝ} (h1 : |s - A * 2 ^ 492| ≤ 15) (h2 : |A| ≤ 3) : |s| ≤ 15 + 3 * 2 ^ 492 := by
  have e1 := abs_add_le (s - A * 2 ^ 492) (A * 2 ^ 492)
  rw [sub_add_cancel, abs_mul A, abs_of_pos (by positivity : (0 : ℝ) < 2 ^ 492)] at e1
  have e2 : |A| * (2 : ℝ) ^ 492 ≤ 3 * 2 ^ 492 := mul_le_mul_of_nonneg_right h2 (by positivity)
  linarith

theorem sval_add_small {x y : FP492} (h : (sval x + sval y).natAbs ≤ 2 ^ 494) :
    sval (FP492.add x y) = sval x + sval y := by
  refine sval_add ?_ ?_ <;> omega

theorem horner_step {acc x2 c : FP492} {A a u : ℝ} (hu0 : 0 ≤ u) (hu : u ≤ 16 / 25)
    (hx2 : |(sval x2 : ℝ) - u * 2 ^ 492| ≤ 1) (h1 : |(sval acc : ℝ) - A * 2 ^ 492| ≤ 15) (h2 : |A| ≤ 3)
    (hc : |(sval c : ℝ) - a * 2 ^ 492| ≤ 1) (ha : |a| ≤ 1) :
    |(sval (FP492.add (imulRound acc x2) c) : ℝ) - (A * u + a) * 2 ^ 492| ≤ 15 ∧ |A * u + a| ≤ 3 := by
  have b1 : (sval acc).natAbs ≤ 2 ^ 494 := natAbs_le_of (acc_bound h1 h2) (by norm_num)
  have b2 : (sval x2).natAbs ≤ 2 ^ 492 := by
    refine natAbs_le_of (r := 1 + 16 / 25 * 2 ^ 492) ?_ (by norm_num)
    have e1 := abs_add_le ((sval x2 : ℝ) - u * 2 ^ 492) (u * 2 ^ 492)
    rw [sub_add_cancel, abs_of_nonneg (a := u * 2 ^ 492) (by positivity)] at e1
    have e2 : u * (2 : ℝ) ^ 492 ≤ 16 / 25 * 2 ^ 492 := mul_le_mul_of_nonneg_right hu (by positivity)
    linarith
  have hm : (sval acc).natAbs * (sval x2).natAbs < 2 ^ 1002 + 2 ^ 1001 :=
    (Nat.mul_le_mul b1 b2).trans_lt (by norm_num)
  obtain ⟨hp, -⟩ := Ln.imulRound_real hm
  obtain ⟨s1, s2⟩ := step_real (W := 2 ^ 492) (by norm_num) h1 h2 hu0 hu hx2 hp hc ha
  have hr2 : (sval (imulRound acc x2) + sval c).natAbs ≤ 2 ^ 494 := by
    refine natAbs_le_of (r := 15 + 3 * 2 ^ 492) ?_ (by norm_num)
    rw [Int.cast_add]; exact acc_bound s1 s2
  rw [sval_add_small hr2, Int.cast_add]
  exact ⟨s1, s2⟩

theorem horner_spec {a : ℕ → ℝ} (ha : ∀ i, |a i| ≤ 1) {x2 : FP492} {u : ℝ} (hu0 : 0 ≤ u) (hu : u ≤ 16 / 25)
    (hx2 : |(sval x2 : ℝ) - u * 2 ^ 492| ≤ 1) (l : List FP492) : ∀ (acc : FP492) (A : ℝ), CoeffsOk a l →
    |(sval acc : ℝ) - A * 2 ^ 492| ≤ 15 → |A| ≤ 3 →
    |(sval (horner x2 acc l) : ℝ) - (A * u ^ l.length + ∑ i ∈ range l.length, a i * u ^ i) * 2 ^ 492| ≤ 15 ∧
      |A * u ^ l.length + ∑ i ∈ range l.length, a i * u ^ i| ≤ 3 := by
  induction l with
  | nil =>
    intro acc A _ h1 h2
    rw [List.length_nil, pow_zero, mul_one, range_zero, sum_empty, add_zero]
    exact ⟨h1, h2⟩
  | cons c rest ih =>
    intro acc A h h1 h2
    obtain ⟨hc, hr⟩ := h
    obtain ⟨s1, s2⟩ := horner_step hu0 hu hx2 h1 h2 hc (ha _)
    have := ih _ _ hr s1 s2
    have e : A * u ^ (c :: rest).length + ∑ i ∈ range (c :: rest).length, a i * u ^ i =
        (A * u + a rest.length) * u ^ rest.length + ∑ i ∈ range rest.length, a i * u ^ i := by
      rw [List.length_cons, sum_range_succ, pow_succ]; ring
    rw [e]
    exact this

theorem hornerAll_spec {a : ℕ → ℝ} (ha : ∀ i, |a i| ≤ 1) {x2 : FP492} {u : ℝ} (hu0 : 0 ≤ u) (hu : u ≤ 16 / 25)
    (hx2 : |(sval x2 : ℝ) - u * 2 ^ 492| ≤ 1) {l : List FP492} (hl : l ≠ []) (h : CoeffsOk a l) :
    |(sval (hornerAll l x2) : ℝ) - (∑ i ∈ range l.length, a i * u ^ i) * 2 ^ 492| ≤ 15 ∧
      |∑ i ∈ range l.length, a i * u ^ i| ≤ 3 := by
  cases l with
  | nil => exact absurd rfl hl
  | cons c rest =>
    obtain ⟨h1, h2⟩ := h
    have := horner_spec ha hu0 hu hx2 rest c (a rest.length) h2 (h1.trans (by norm_num)) ((ha _).trans (by norm_num))
    rw [add_comm, ← sum_range_succ] at this
    exact this

theorem le_iff {x y : FP492} : FP492.le x y = true ↔ sval x ≤ sval y := by
  unfold FP492.le
  rcases lt_trichotomy (sval x) (sval y) with h | h | h
  · rw [cmp_lt h]; simp [h.le]
  · rw [cmp_same h]; simp [h]
  · rw [cmp_gt h]; simp [h]

theorem sval_iabs {x : FP492} (h : (sval x).natAbs ≤ 2 ^ 492) : sval (iabs x) = |sval x| := by
  have h1 := nat_iabs x
  rw [sval_of_lt (h1 ▸ h.trans_lt (by norm_num)), h1, Int.abs_eq_natAbs]

theorem natAbs_of_le {x : FP492} (h : |(sval x : ℝ) / 2 ^ 492| ≤ 4 / 5) : (sval x).natAbs ≤ 2 ^ 492 := by
  refine natAbs_le_of (r := 4 / 5 * 2 ^ 492) ?_ (by norm_num)
  rw [abs_div, abs_of_pos (by positivity : (0 : ℝ) < 2 ^ 492), div_le_iff₀ (by positivity)] at h
  exact h

/-- The square of the argument -/
theorem square_spec {x : FP492} (h : |(sval x : ℝ) / 2 ^ 492| ≤ 4 / 5) :
    |(sval (imulRound (iabs x) (iabs x)) : ℝ) - ((sval x : ℝ) / 2 ^ 492) ^ 2 * 2 ^ 492| ≤ 1 ∧
      ((sval x : ℝ) / 2 ^ 492) ^ 2 ≤ 16 / 25 := by
  have hn := natAbs_of_le h
  have ha := sval_iabs hn
  constructor
  · have hm : (sval (iabs x)).natAbs * (sval (iabs x)).natAbs < 2 ^ 1002 + 2 ^ 1001 := by
      rw [ha, Int.natAbs_abs]
      exact (Nat.mul_le_mul hn hn).trans_lt (by norm_num)
    obtain ⟨h1, -⟩ := Ln.imulRound_real hm
    rw [ha] at h1
    have e : ((|sval x| : ℤ) : ℝ) * ((|sval x| : ℤ) : ℝ) / 2 ^ 492 = ((sval x : ℝ) / 2 ^ 492) ^ 2 * 2 ^ 492 := by
      rw [← Int.cast_mul, abs_mul_abs_self, Int.cast_mul, div_pow, ← sq, pow_two ((2 : ℝ) ^ 492)]
      field_simp
    rw [e] at h1
    exact h1
  · rw [← sq_abs]
    have := pow_le_pow_left₀ (abs_nonneg _) h 2
    linarith

theorem sin_taylor' {x : ℝ} (h1 : |x| ≤ 1) :
    |Real.sin x - x * ∑ i ∈ range 31, sinA i * (x ^ 2) ^ i| ≤ |x| / 2 ^ 280 := by
  rcases le_or_gt 0 x with h | h
  · rw [abs_of_nonneg h] at h1 ⊢; exact sin_taylor h h1
  · rw [abs_of_neg h] at h1
    have := sin_taylor (x := -x) (by linarith) h1
    rw [Real.sin_neg, neg_sq, ← abs_neg] at this
    rw [abs_of_neg h]
    refine le_trans (le_of_eq ?_) this
    congr 1
    ring

theorem cos_taylor' {x : ℝ} (h1 : |x| ≤ 1) :
    |Real.cos x - ∑ i ∈ range 33, cosA i * (x ^ 2) ^ i| ≤ 1 / 2 ^ 280 := by
  have := cos_taylor (abs_nonneg x) h1
  rwa [Real.cos_abs, sq_abs] at this

theorem sin_cut : sval SIN_SMALL_CUT_OFF = UInt.nat SIN_SMALL_CUT_OFF ∧
    2 ^ 374 < UInt.nat SIN_SMALL_CUT_OFF ∧ UInt.nat SIN_SMALL_CUT_OFF < 2 ^ 375 ∧
    1000 * UInt.nat SIN_SMALL_CUT_OFF ^ 3 ≤ 3006 * 2 ^ 1122 := by decide +kernel

theorem cos_cut : sval COS_SMALL_CUT_OFF = UInt.nat COS_SMALL_CUT_OFF ∧
    UInt.nat COS_SMALL_CUT_OFF ^ 2 ≤ 2 ^ 747 := by decide +kernel

/-- The sine above the cut-off -/
theorem approxSin_large {x : FP492} (h : |(sval x : ℝ) / 2 ^ 492| ≤ 4 / 5)
    (hc : (2 : ℝ) ^ 374 < |(sval x : ℝ)|) (hb : FP492.le (iabs x) SIN_SMALL_CUT_OFF = false) :
    |(sval (approxSin x) : ℝ) / 2 ^ 492 - Real.sin ((sval x : ℝ) / 2 ^ 492)| ≤ |(sval x : ℝ) / 2 ^ 492| / 2 ^ 270 := by
  obtain ⟨q1, q2⟩ := square_spec h
  have hlen : sinCoeffs.length = 31 := by decide
  obtain ⟨p1, p2⟩ := hornerAll_spec sinA_le (sq_nonneg _) q2 q1 (by decide : sinCoeffs ≠ []) sinCoeffs_ok
  rw [hlen] at p1 p2
  have ht := sin_taylor' (h.trans (by norm_num))
  rw [approxSin, if_neg (by rw [hb]; decide)]
  obtain ⟨H, hH⟩ : ∃ H, hornerAll sinCoeffs (imulRound (iabs x) (iabs x)) = H := ⟨_, rfl⟩
  rw [hH] at p1 ⊢
  generalize ∑ i ∈ range 31, sinA i * (((sval x : ℝ) / 2 ^ 492) ^ 2) ^ i = P at p1 p2 ht
  have b1 : (sval H).natAbs ≤ 2 ^ 494 := by
    refine natAbs_le_of (r := 15 + 3 * 2 ^ 492) ?_ (by norm_num)
    have e1 := abs_add_le ((sval H : ℝ) - P * 2 ^ 492) (P * 2 ^ 492)
    rw [sub_add_cancel, abs_mul P, abs_of_pos (by positivity : (0 : ℝ) < 2 ^ 492)] at e1
    have e2 : |P| * (2 : ℝ) ^ 492 ≤ 3 * 2 ^ 492 := mul_le_mul_of_nonneg_right p2 (by positivity)
    linarith
  have hm : (sval H).natAbs * (sval x).natAbs < 2 ^ 1002 + 2 ^ 1001 :=
    (Nat.mul_le_mul b1 (natAbs_of_le h)).trans_lt (by norm_num)
  obtain ⟨r1, -⟩ := Ln.imulRound_real hm
  generalize (sval (imulRound H x) : ℝ) = R at r1 ⊢
  generalize (sval H : ℝ) = S at p1 r1
  clear hm b1 hH hlen q1 q2 hb
  obtain ⟨X, hX⟩ : ∃ X, (sval x : ℝ) = X * 2 ^ 492 := ⟨(sval x : ℝ) / 2 ^ 492, by field_simp⟩
  rw [hX] at h hc r1 ht ⊢
  have hXX : X * 2 ^ 492 / (2 : ℝ) ^ 492 = X := by field_simp
  rw [hXX] at h ht ⊢
  have hc' : 1 / 2 ^ 118 < |X| := by
    rw [abs_mul, abs_of_pos (by positivity : (0 : ℝ) < 2 ^ 492)] at hc
    rw [div_lt_iff₀ (by positivity)]
    have : (2 : ℝ) ^ 374 * 2 ^ 118 = 2 ^ 492 := by rw [← pow_add]
    refine lt_of_mul_lt_mul_right (a := (2 : ℝ) ^ 374) ?_ (by positivity)
    rw [one_mul, mul_assoc, mul_comm ((2 : ℝ) ^ 118), this]
    exact hc
  have e : R / 2 ^ 492 - Real.sin X = (R - S * (X * 2 ^ 492) / 2 ^ 492) / 2 ^ 492 + X * ((S - P * 2 ^ 492) / 2 ^ 492) -
      (Real.sin X - X * P) := by
    field_simp
    ring
  have f1 : |(R - S * (X * 2 ^ 492) / 2 ^ 492) / 2 ^ 492| ≤ |X| / 2 ^ 280 := by
    rw [abs_div, abs_of_pos (by positivity : (0 : ℝ) < 2 ^ 492), div_le_iff₀ (by positivity)]
    refine r1.trans ?_
    have : 1 / 2 ^ 118 / 2 ^ 280 * (2 : ℝ) ^ 492 ≤ |X| / 2 ^ 280 * 2 ^ 492 := by gcongr
    refine le_trans ?_ this
    norm_num
  have f2 : |X * ((S - P * 2 ^ 492) / 2 ^ 492)| ≤ |X| / 2 ^ 280 := by
    rw [abs_mul, abs_div, abs_of_pos (by positivity : (0 : ℝ) < 2 ^ 492), div_eq_mul_inv |X|]
    refine mul_le_mul_of_nonneg_left ?_ (abs_nonneg _)
    rw [div_le_iff₀ (by positivity)]
    exact p1.trans (by norm_num)
  have f3 : |X| / 2 ^ 280 * 3 ≤ |X| / 2 ^ 270 := by
    rw [div_mul_eq_mul_div, div_le_div_iff₀ (by positivity) (by positivity), mul_assoc]
    refine mul_le_mul_of_nonneg_left (by norm_num) (abs_nonneg _)
  rw [e]
  have g1 := abs_sub (a := (R - S * (X * 2 ^ 492) / 2 ^ 492) / 2 ^ 492 + X * ((S - P * 2 ^ 492) / 2 ^ 492)) (b := Real.sin X - X * P)
  have g2 := abs_add_le ((R - S * (X * 2 ^ 492) / 2 ^ 492) / 2 ^ 492) (X * ((S - P * 2 ^ 492) / 2 ^ 492))
  linarith

/-- The cosine -/
theorem approxCos_spec {x : FP492} (h : |(sval x : ℝ) / 2 ^ 492| ≤ 4 / 5) :
    |(sval (approxCos x) : ℝ) / 2 ^ 492 - Real.cos ((sval x : ℝ) / 2 ^ 492)| ≤ 1 / 2 ^ 238 := by
  by_cases hb : FP492.le (iabs x) COS_SMALL_CUT_OFF = true
  · rw [approxCos, if_pos hb]
    rw [le_iff, sval_iabs (natAbs_of_le h), cos_cut.1, Int.abs_eq_natAbs] at hb
    have hb' : (sval x).natAbs ≤ UInt.nat COS_SMALL_CUT_OFF := by exact_mod_cast hb
    have h2 : (sval x).natAbs ^ 2 ≤ 2 ^ 747 := (Nat.pow_le_pow_left hb' 2).trans cos_cut.2
    have h3 : ((sval x : ℝ)) ^ 2 ≤ 2 ^ 747 := by
      have : ((sval x).natAbs : ℤ) ^ 2 ≤ 2 ^ 747 := by exact_mod_cast h2
      rw [Int.natCast_natAbs, sq_abs] at this
      exact_mod_cast this
    have h4 : (sval FP492.ONE : ℝ) / 2 ^ 492 = 1 := by
      have : sval FP492.ONE = 2 ^ 492 := by decide +kernel
      rw [this, Int.cast_pow, Int.cast_ofNat, div_self (by positivity)]
    have h5 := Real.one_sub_sq_div_two_le_cos (x := (sval x : ℝ) / 2 ^ 492)
    have h6 := Real.cos_le_one ((sval x : ℝ) / 2 ^ 492)
    have h7 : ((sval x : ℝ) / 2 ^ 492) ^ 2 / 2 ≤ 1 / 2 ^ 238 := by
      rw [div_pow, div_div, div_le_div_iff₀ (by positivity) (by positivity)]
      calc (sval x : ℝ) ^ 2 * 2 ^ 238 ≤ 2 ^ 747 * 2 ^ 238 := mul_le_mul_of_nonneg_right h3 (by positivity)
        _ ≤ _ := by norm_num
    rw [h4, abs_of_nonneg (by linarith)]
    linarith
  · rw [approxCos, if_neg hb]
    obtain ⟨q1, q2⟩ := square_spec h
    have hlen : cosCoeffs.length = 33 := by decide
    obtain ⟨p1, -⟩ := hornerAll_spec cosA_le (sq_nonneg _) q2 q1 (by decide : cosCoeffs ≠ []) cosCoeffs_ok
    rw [hlen] at p1
    have ht := cos_taylor' (h.trans (by norm_num))
    generalize ∑ i ∈ range 33, cosA i * (((sval x : ℝ) / 2 ^ 492) ^ 2) ^ i = P at p1 ht
    generalize (sval (hornerAll cosCoeffs (imulRound (iabs x) (iabs x))) : ℝ) = S at p1 ⊢
    generalize Real.cos ((sval x : ℝ) / 2 ^ 492) = C at ht ⊢
    have e : S / 2 ^ 492 - C = (S - P * 2 ^ 492) / 2 ^ 492 - (C - P) := by field_simp; ring
    have f1 : |(S - P * 2 ^ 492) / 2 ^ 492| ≤ 1 / 2 ^ 280 := by
      rw [abs_div, abs_of_pos (by positivity : (0 : ℝ) < 2 ^ 492), div_le_iff₀ (by positivity)]
      exact p1.trans (by norm_num)
    have g1 := abs_sub (a := (S - P * 2 ^ 492) / 2 ^ 492) (b := C - P)
    have f3 : (1 : ℝ) / 2 ^ 280 + 1 / 2 ^ 280 ≤ 1 / 2 ^ 238 := by norm_num
    rw [e]
    linarith

end Verif.Trig
