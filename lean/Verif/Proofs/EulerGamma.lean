import Mathlib.NumberTheory.Harmonic.GammaDeriv
import Mathlib.Analysis.SpecialFunctions.Integrals.Basic
import Mathlib.MeasureTheory.Integral.IntegralEqImproper
import Mathlib.Analysis.Complex.ExponentialBounds
import Verif.Proofs.LogTable

/-!
# Bounds for Euler's constant

`γ = -∫_0^∞ log t e^-t dt`. The integral is cut at 256, and the exponential is replaced by its Taylor polynomial with 1024
terms.
-/

namespace Verif.EulerGamma

open Real MeasureTheory Set Finset
open scoped Nat

/-- The Taylor polynomial of `Real.exp (-t)` -/
noncomputable def taylor (n : ℕ) (t : ℝ) : ℝ := ∑ k ∈ Finset.range n, (-1) ^ k / (k ! : ℝ) * t ^ k

theorem taylor_deriv (n : ℕ) (t : ℝ) : HasDerivAt (taylor (n + 1)) (-taylor n t) t := by
  unfold taylor
  have h : ∀ k ∈ Finset.range (n + 1), HasDerivAt (fun t : ℝ => (-1 : ℝ) ^ k / (k ! : ℝ) * t ^ k)
      ((-1) ^ k / (k ! : ℝ) * (k * t ^ (k - 1))) t := by
    intro k _
    exact (hasDerivAt_pow k t).const_mul _
  have := HasDerivAt.fun_sum h
  refine this.congr_deriv ?_
  rw [Finset.sum_range_succ', ← Finset.sum_neg_distrib]
  simp only [Nat.cast_zero, zero_mul, mul_zero, add_zero]
  refine Finset.sum_congr rfl fun k _ => ?_
  have hf : ((k + 1 : ℕ) ! : ℝ) = (k + 1) * (k ! : ℝ) := by rw [Nat.factorial_succ]; push_cast; ring
  have h1 : (k ! : ℝ) ≠ 0 := Nat.cast_ne_zero.mpr (Nat.factorial_ne_zero k)
  have h2 : (k : ℝ) + 1 ≠ 0 := by positivity
  rw [hf, Nat.add_sub_cancel]
  push_cast
  field_simp
  ring

theorem exp_neg_deriv (t : ℝ) : HasDerivAt (fun t : ℝ => Real.exp (-t)) (-Real.exp (-t)) t := by
  have := (Real.hasDerivAt_exp (-t)).comp t (hasDerivAt_neg t)
  refine this.congr_deriv (by ring)

theorem remainder (n : ℕ) : ∀ t : ℝ, 0 ≤ t → |Real.exp (-t) - taylor n t| ≤ t ^ n / (n ! : ℝ) := by
  induction n with
  | zero =>
    intro t ht
    simp only [taylor, Finset.range_zero, Finset.sum_empty, sub_zero, pow_zero, Nat.factorial_zero, Nat.cast_one, div_one]
    rw [abs_of_pos (Real.exp_pos _)]
    exact exp_le_one_iff.mpr (by linarith)
  | succ n ih =>
    intro t ht
    have hpow : ∀ s : ℝ, HasDerivAt (fun s : ℝ => s ^ (n + 1) / ((n + 1) ! : ℝ)) (s ^ n / (n ! : ℝ)) s := by
      intro s
      refine ((hasDerivAt_pow (n + 1) s).div_const _).congr_deriv ?_
      have h1 : (n ! : ℝ) ≠ 0 := Nat.cast_ne_zero.mpr (Nat.factorial_ne_zero n)
      have h2 : (n : ℝ) + 1 ≠ 0 := by positivity
      rw [Nat.factorial_succ, Nat.add_sub_cancel]
      push_cast
      field_simp
    have hr : ∀ s : ℝ, HasDerivAt (fun s => Real.exp (-s) - taylor (n + 1) s) (-Real.exp (-s) - -taylor n s) s := fun s =>
      (exp_neg_deriv s).sub (taylor_deriv n s)
    have h0 : Real.exp (-0) - taylor (n + 1) 0 = 0 := by
      unfold taylor
      rw [Finset.sum_range_succ']
      simp
    have key : ∀ σ : ℝ, |σ| ≤ 1 → 0 ≤ t ^ (n + 1) / ((n + 1) ! : ℝ) + σ * (Real.exp (-t) - taylor (n + 1) t) := by
      intro σ hσ
      have hd : ∀ s : ℝ, HasDerivAt (fun s => s ^ (n + 1) / ((n + 1) ! : ℝ) + σ * (Real.exp (-s) - taylor (n + 1) s))
          (s ^ n / (n ! : ℝ) + σ * (-Real.exp (-s) - -taylor n s)) s := fun s => (hpow s).add ((hr s).const_mul σ)
      have hm : MonotoneOn (fun s => s ^ (n + 1) / ((n + 1) ! : ℝ) + σ * (Real.exp (-s) - taylor (n + 1) s)) (Ici 0) := by
        refine monotoneOn_of_deriv_nonneg (convex_Ici 0) ?_ ?_ ?_
        · exact fun s _ => (hd s).continuousAt.continuousWithinAt
        · exact fun s _ => (hd s).differentiableAt.differentiableWithinAt
        · intro s hs
          rw [interior_Ici] at hs
          rw [(hd s).deriv]
          have h1 := ih s (le_of_lt hs)
          have h2 : |σ * (-Real.exp (-s) - -taylor n s)| ≤ s ^ n / (n ! : ℝ) := by
            rw [abs_mul, show -Real.exp (-s) - -taylor n s = -(Real.exp (-s) - taylor n s) by ring, abs_neg]
            calc |σ| * |Real.exp (-s) - taylor n s| ≤ 1 * |Real.exp (-s) - taylor n s| :=
                  mul_le_mul_of_nonneg_right hσ (abs_nonneg _)
              _ ≤ _ := by rw [one_mul]; exact h1
          have := (abs_le.mp h2).1
          linarith
      have := hm (self_mem_Ici) (show t ∈ Set.Ici (0 : ℝ) from ht) ht
      simp only [h0, mul_zero, add_zero] at this
      refine le_trans ?_ this
      positivity
    rw [abs_le]
    have k1 := key 1 (by norm_num)
    have k2 := key (-1) (by norm_num)
    constructor <;> linarith

/-! ## The integral -/

theorem gamma_integral : eulerMascheroniConstant = -∫ t in Ioi (0 : ℝ), log t * Real.exp (-t) := by
  have h1 := Complex.hasDerivAt_GammaIntegral (s := 1) (by norm_num)
  have h2 : HasDerivAt Complex.Gamma (∫ t : ℝ in Ioi 0, (t : ℂ) ^ ((1 : ℂ) - 1) * (Real.log t * Real.exp (-t))) 1 := by
    refine h1.congr_of_eventuallyEq ?_
    have ho : IsOpen {s : ℂ | 0 < s.re} := isOpen_lt continuous_const Complex.continuous_re
    filter_upwards [ho.mem_nhds (show (1 : ℂ) ∈ {s : ℂ | 0 < s.re} by simp)] with a ha
    exact Complex.Gamma_eq_integral ha
  have h3 := h2.unique Complex.hasDerivAt_Gamma_one
  have h4 : (∫ t : ℝ in Ioi 0, (t : ℂ) ^ ((1 : ℂ) - 1) * (Real.log t * Real.exp (-t))) =
      ((∫ t in Ioi (0 : ℝ), log t * Real.exp (-t) : ℝ) : ℂ) := by
    rw [← integral_complex_ofReal]
    refine integral_congr_ae (Filter.Eventually.of_forall fun t => ?_)
    simp
  rw [h4] at h3
  have h5 : (∫ t in Ioi (0 : ℝ), log t * Real.exp (-t)) = -eulerMascheroniConstant := by exact_mod_cast h3
  linarith

theorem tail_deriv (t : ℝ) : HasDerivAt (fun t : ℝ => -((t + 1) * Real.exp (-t))) (t * Real.exp (-t)) t := by
  have := (((hasDerivAt_id t).add_const (1 : ℝ)).mul (exp_neg_deriv t)).neg
  refine this.congr_deriv ?_
  simp only [id]
  ring

theorem tail_limit : Filter.Tendsto (fun t : ℝ => -((t + 1) * Real.exp (-t))) Filter.atTop (nhds 0) := by
  have h1 := tendsto_pow_mul_exp_neg_atTop_nhds_zero 1
  have h2 := tendsto_pow_mul_exp_neg_atTop_nhds_zero 0
  have h3 := (h1.add h2).neg
  simp only [pow_one, pow_zero, one_mul, add_zero, neg_zero] at h3
  refine h3.congr fun t => by ring

theorem tail_dom (N : ℝ) (hN : 1 ≤ N) : IntegrableOn (fun t : ℝ => t * Real.exp (-t)) (Ioi N) :=
  integrableOn_Ioi_deriv_of_nonneg' (fun t _ => tail_deriv t)
    (fun t ht => mul_nonneg (by have : N < t := ht; linarith) (Real.exp_pos _).le) tail_limit

theorem tail_val (N : ℝ) (hN : 1 ≤ N) : ∫ t in Ioi N, t * Real.exp (-t) = (N + 1) * Real.exp (-N) := by
  rw [integral_Ioi_of_hasDerivAt_of_tendsto' (fun t _ => tail_deriv t) (tail_dom N hN) tail_limit]
  ring

theorem tail_pt {N t : ℝ} (hN : 1 ≤ N) (ht : N < t) : 0 ≤ log t * Real.exp (-t) ∧ log t * Real.exp (-t) ≤ t * Real.exp (-t) :=
  ⟨mul_nonneg (log_nonneg (by linarith)) (Real.exp_pos _).le,
    mul_le_mul_of_nonneg_right (by have := log_le_sub_one_of_pos (show 0 < t by linarith); linarith) (Real.exp_pos _).le⟩

theorem tail_int (N : ℝ) (hN : 1 ≤ N) : IntegrableOn (fun t : ℝ => log t * Real.exp (-t)) (Ioi N) := by
  refine Integrable.mono' (tail_dom N hN) ?_ ?_
  · exact ((measurable_log).mul (measurable_exp.comp measurable_neg)).aestronglyMeasurable
  · refine (ae_restrict_iff' measurableSet_Ioi).mpr (Filter.Eventually.of_forall fun t ht => ?_)
    have := tail_pt hN ht
    rw [Real.norm_eq_abs, abs_of_nonneg this.1]
    exact this.2

theorem tail_bound (N : ℝ) (hN : 1 ≤ N) : |∫ t in Ioi N, log t * Real.exp (-t)| ≤ (N + 1) * Real.exp (-N) := by
  rw [← tail_val N hN]
  have h0 : 0 ≤ ∫ t in Ioi N, log t * Real.exp (-t) := setIntegral_nonneg measurableSet_Ioi fun t ht => (tail_pt hN ht).1
  rw [abs_of_nonneg h0]
  exact setIntegral_mono_on (tail_int N hN) (tail_dom N hN) measurableSet_Ioi fun t ht => (tail_pt hN ht).2

theorem head_int (N : ℝ) : IntervalIntegrable (fun t : ℝ => log t * Real.exp (-t)) volume 0 N :=
  intervalIntegral.intervalIntegrable_log'.mul_continuousOn (continuous_exp.comp continuous_neg).continuousOn

theorem pow_log_int (k : ℕ) (N : ℝ) : IntervalIntegrable (fun t : ℝ => t ^ k * log t) volume 0 N :=
  intervalIntegral.intervalIntegrable_log'.continuousOn_mul (continuous_pow k).continuousOn

theorem pow_log_val (k : ℕ) {N : ℝ} (hN : 0 < N) :
    ∫ t in (0 : ℝ)..N, t ^ k * log t = N ^ (k + 1) * (log N / (k + 1) - 1 / ((k : ℝ) + 1) ^ 2) := by
  have hk : (k : ℝ) + 1 ≠ 0 := by positivity
  have h := intervalIntegral.integral_eq_sub_of_hasDerivAt_of_le (a := 0) (b := N)
    (f := fun t : ℝ => t ^ k * (t * log t) / (k + 1) - t ^ (k + 1) / ((k : ℝ) + 1) ^ 2) (f' := fun t : ℝ => t ^ k * log t)
    hN.le ?_ ?_ (pow_log_int k N)
  · rw [h]
    simp only [zero_mul, mul_zero, zero_div, ne_eq, Nat.add_eq_zero_iff, one_ne_zero, and_false, not_false_eq_true, zero_pow,
      sub_zero]
    field_simp
    ring
  · exact ((((continuous_pow k).mul continuous_mul_log).div_const _).sub ((continuous_pow (k + 1)).div_const _)).continuousOn
  · intro t ht
    have ht0 : t ≠ 0 := ht.1.ne'
    have h1 : HasDerivAt (fun t : ℝ => t * log t) (log t + 1) t := hasDerivAt_mul_log ht0
    have h2 := ((hasDerivAt_pow k t).mul h1).div_const ((k : ℝ) + 1)
    have h3 := (hasDerivAt_pow (k + 1) t).div_const (((k : ℝ) + 1) ^ 2)
    refine (h2.sub h3).congr_deriv ?_
    rw [Nat.add_sub_cancel]
    push_cast
    cases k with
    | zero => simp
    | succ k =>
      rw [Nat.add_sub_cancel]
      push_cast at hk ⊢
      field_simp
      ring

theorem log_pow_le {K : ℕ} (hK : 1 ≤ K) {N t : ℝ} (hN : 1 ≤ N) (h0 : 0 < t) (h1 : t ≤ N) :
    |log t| * t ^ K ≤ 2 * N ^ (K + 1) := by
  have ha : |log t| * t ≤ 2 * N ^ 2 := by
    rcases le_total 1 t with h | h
    · rw [abs_of_nonneg (log_nonneg h)]
      have := log_le_sub_one_of_pos h0
      nlinarith
    · rw [abs_of_nonpos (log_nonpos h0.le h)]
      have h2 := one_sub_inv_le_log_of_pos h0
      have h3 : -log t * t ≤ (t⁻¹ - 1) * t := mul_le_mul_of_nonneg_right (by linarith) h0.le
      have h4 : (t⁻¹ - 1) * t = 1 - t := by field_simp
      nlinarith
  obtain ⟨j, rfl⟩ : ∃ j, K = j + 1 := ⟨K - 1, by omega⟩
  have hp : t ^ j ≤ N ^ j := pow_le_pow_left₀ h0.le h1 j
  have hp0 : 0 ≤ t ^ j := by positivity
  have hNj : (0 : ℝ) ≤ N ^ j := by positivity
  calc |log t| * t ^ (j + 1) = (|log t| * t) * t ^ j := by ring
    _ ≤ (2 * N ^ 2) * N ^ j := mul_le_mul ha hp hp0 (by positivity)
    _ = 2 * N ^ (j + 1 + 1) := by ring

/-- The value of the integral over the Taylor polynomial -/
noncomputable def approx (K : ℕ) (N : ℝ) : ℝ :=
  ∑ k ∈ Finset.range K, (-1) ^ k / (k ! : ℝ) * (N ^ (k + 1) * (log N / (k + 1) - 1 / ((k : ℝ) + 1) ^ 2))

theorem taylor_int (K : ℕ) (N : ℝ) : IntervalIntegrable (fun t : ℝ => log t * taylor K t) volume 0 N := by
  refine intervalIntegral.intervalIntegrable_log'.mul_continuousOn (Continuous.continuousOn ?_)
  unfold taylor
  exact continuous_finsetSum _ fun k _ => continuous_const.mul (continuous_pow k)

theorem taylor_val (K : ℕ) {N : ℝ} (hN : 0 < N) : ∫ t in (0 : ℝ)..N, log t * taylor K t = approx K N := by
  have h : ∀ t : ℝ, log t * taylor K t = ∑ k ∈ Finset.range K, (-1) ^ k / (k ! : ℝ) * (t ^ k * log t) := by
    intro t
    unfold taylor
    rw [Finset.mul_sum]
    exact Finset.sum_congr rfl fun k _ => by ring
  simp only [h]
  rw [intervalIntegral.integral_finsetSum (fun k _ => (pow_log_int k N).const_mul _)]
  unfold approx
  exact Finset.sum_congr rfl fun k _ => by rw [intervalIntegral.integral_const_mul, pow_log_val k hN]

theorem gamma_approx {K : ℕ} (hK : 1 ≤ K) {N : ℝ} (hN : 1 ≤ N) :
    |eulerMascheroniConstant + approx K N| ≤ (N + 1) * Real.exp (-N) + 2 * N ^ (K + 2) / (K ! : ℝ) := by
  have hN0 : 0 < N := by linarith
  have hIoc : IntegrableOn (fun t : ℝ => log t * Real.exp (-t)) (Set.Ioc 0 N) :=
    (intervalIntegrable_iff_integrableOn_Ioc_of_le hN0.le).mp (head_int N)
  have hall : IntegrableOn (fun t : ℝ => log t * Real.exp (-t)) (Set.Ioi 0) := by
    rw [← Set.Ioc_union_Ioi_eq_Ioi hN0.le]
    exact hIoc.union (tail_int N hN)
  have hsplit := intervalIntegral.integral_interval_add_Ioi hall (tail_int N hN)
  have herr : |(∫ t in (0 : ℝ)..N, log t * Real.exp (-t)) - approx K N| ≤ 2 * N ^ (K + 2) / (K ! : ℝ) := by
    rw [← taylor_val K hN0, ← intervalIntegral.integral_sub (head_int N) (taylor_int K N), ← Real.norm_eq_abs]
    have := intervalIntegral.norm_integral_le_of_norm_le_const (a := 0) (b := N) (C := 2 * N ^ (K + 1) / (K ! : ℝ))
      (f := fun t : ℝ => log t * Real.exp (-t) - log t * taylor K t) ?_
    · refine this.trans (le_of_eq ?_)
      rw [sub_zero, abs_of_pos hN0]
      ring
    · intro t ht
      rw [Set.uIoc_of_le hN0.le] at ht
      rw [Real.norm_eq_abs, ← mul_sub, abs_mul]
      have h1 := remainder K t ht.1.le
      have hf : (0 : ℝ) < (K ! : ℝ) := Nat.cast_pos.mpr (Nat.factorial_pos K)
      calc |log t| * |Real.exp (-t) - taylor K t| ≤ |log t| * (t ^ K / (K ! : ℝ)) :=
            mul_le_mul_of_nonneg_left h1 (abs_nonneg _)
        _ = |log t| * t ^ K / (K ! : ℝ) := by ring
        _ ≤ _ := div_le_div_of_nonneg_right (log_pow_le hK hN ht.1 ht.2) hf.le
  have htail := tail_bound N hN
  rw [gamma_integral, ← hsplit]
  rw [abs_le] at herr htail ⊢
  constructor <;> linarith [herr.1, herr.2, htail.1, htail.2]

/-! ## Evaluation -/

/-- The two alternating sums in fixed point arithmetic with 600 bits, every term rounded down -/
def sums : ℕ → ℕ → ℕ → ℕ → ℤ → ℤ → ℤ → ℤ × ℤ
  | 0, _, _, _, _, a, b => (a, b)
  | n + 1, k, p, f, s, a, b =>
    sums n (k + 1) (p * 256) (f * (k + 1)) (-s) (a + s * ((2 ^ 600 * p / ((k + 1) * f) : ℕ) : ℤ))
      (b + s * ((2 ^ 600 * p / ((k + 1) ^ 2 * f) : ℕ) : ℤ))

theorem div_err (x y : ℕ) (hy : 0 < y) : |(x : ℝ) / y - ((x / y : ℕ) : ℝ)| ≤ 1 := by
  have h1 : ((x / y : ℕ) : ℝ) ≤ (x : ℝ) / y := Nat.cast_div_le
  have h2 : (x : ℝ) / y < ((x / y : ℕ) : ℝ) + 1 := by
    rw [div_lt_iff₀ (Nat.cast_pos.mpr hy)]
    have := Nat.lt_mul_div_succ x hy
    have h3 : (x : ℝ) < ((y * (x / y + 1) : ℕ) : ℝ) := Nat.cast_lt.mpr this
    push_cast at h3
    linarith
  rw [abs_le]
  constructor <;> linarith

/-- The terms of the two sums; `j` is the power of `k + 1` in the denominator -/
noncomputable def term (j k : ℕ) : ℝ := (-1) ^ k * (256 ^ (k + 1) / (((k : ℝ) + 1) ^ j * (k ! : ℝ)))

theorem term_err (j k : ℕ) (S : ℕ) :
    |(S : ℝ) * term j k - ((-1) ^ k * ((S * 256 ^ (k + 1) / ((k + 1) ^ j * k !) : ℕ) : ℤ) : ℤ)| ≤ 1 := by
  have h := div_err (S * 256 ^ (k + 1)) ((k + 1) ^ j * k !) (by positivity)
  have e : (S : ℝ) * term j k - ((-1) ^ k * ((S * 256 ^ (k + 1) / ((k + 1) ^ j * k !) : ℕ) : ℤ) : ℤ) =
      (-1) ^ k * (((S * 256 ^ (k + 1) : ℕ) : ℝ) / (((k + 1) ^ j * k ! : ℕ) : ℝ) -
        ((S * 256 ^ (k + 1) / ((k + 1) ^ j * k !) : ℕ) : ℝ)) := by
    rw [Int.cast_mul, Int.cast_natCast, Int.cast_pow, Int.cast_neg, Int.cast_one]
    generalize ((S * 256 ^ (k + 1) / ((k + 1) ^ j * k !) : ℕ) : ℝ) = q
    unfold term
    push_cast
    ring
  rw [e, abs_mul, abs_pow, abs_neg, abs_one, one_pow, one_mul]
  exact h

theorem sums_spec : ∀ (n k p f : ℕ) (s a b : ℤ), p = 256 ^ (k + 1) → f = k ! → s = (-1) ^ k →
    |(2 : ℝ) ^ 600 * ∑ i ∈ Finset.range n, term 1 (k + i) - ((sums n k p f s a b).1 - a : ℤ)| ≤ n ∧
    |(2 : ℝ) ^ 600 * ∑ i ∈ Finset.range n, term 2 (k + i) - ((sums n k p f s a b).2 - b : ℤ)| ≤ n := by
  intro n
  induction n with
  | zero => intro k p f s a b _ _ _; simp [sums]
  | succ n ih =>
    intro k p f s a b hp hf hs
    have h := ih (k + 1) (p * 256) (f * (k + 1)) (-s) (a + s * ((2 ^ 600 * p / ((k + 1) * f) : ℕ) : ℤ))
      (b + s * ((2 ^ 600 * p / ((k + 1) ^ 2 * f) : ℕ) : ℤ)) (by rw [hp]; ring)
      (by rw [hf, Nat.factorial_succ]; ring) (by rw [hs]; ring)
    rw [sums]
    have key : ∀ (j : ℕ) (T X : ℤ) (x : ℤ), X = (-1) ^ k * ((2 ^ 600 * 256 ^ (k + 1) / ((k + 1) ^ j * k !) : ℕ) : ℤ) →
        |(2 : ℝ) ^ 600 * ∑ i ∈ Finset.range n, term j (k + 1 + i) - (T - (x + X) : ℤ)| ≤ n →
        |(2 : ℝ) ^ 600 * ∑ i ∈ Finset.range (n + 1), term j (k + i) - (T - x : ℤ)| ≤ ((n + 1 : ℕ) : ℝ) := by
      intro j T X x hX hT
      have ht := term_err j k (2 ^ 600)
      rw [← hX, Nat.cast_pow, Nat.cast_ofNat] at ht
      have e : ∑ i ∈ Finset.range (n + 1), term j (k + i) = ∑ i ∈ Finset.range n, term j (k + 1 + i) + term j k := by
        rw [Finset.sum_range_succ', Nat.add_zero]
        congr 1
        exact Finset.sum_congr rfl fun i _ => by rw [show k + (i + 1) = k + 1 + i by omega]
      rw [e]
      generalize ∑ i ∈ Finset.range n, term j (k + 1 + i) = Y at *
      generalize term j k = Z at *
      generalize (2 : ℝ) ^ 600 = W at *
      push_cast at hT ⊢
      rw [abs_le] at *
      constructor <;> linarith [hT.1, hT.2, ht.1, ht.2]
    constructor
    · refine key 1 _ _ a ?_ h.1
      rw [hs, hp, hf, pow_one]
    · refine key 2 _ _ b ?_ h.2
      rw [hs, hp, hf]

theorem approx_eq (K : ℕ) : approx K 256 =
    log 256 * ∑ i ∈ Finset.range K, term 1 (0 + i) - ∑ i ∈ Finset.range K, term 2 (0 + i) := by
  unfold approx
  rw [Finset.mul_sum, ← Finset.sum_sub_distrib]
  refine Finset.sum_congr rfl fun k _ => ?_
  rw [Nat.zero_add]
  unfold term
  have h1 : (k ! : ℝ) ≠ 0 := Nat.cast_ne_zero.mpr (Nat.factorial_ne_zero k)
  have h2 : (k : ℝ) + 1 ≠ 0 := by positivity
  field_simp

/-- The sums with 1024 terms -/
def A : ℤ := (sums 1024 0 256 1 1 0 0).1
def B : ℤ := (sums 1024 0 256 1 1 0 0).2

theorem log_256 : log 256 = 8 * log 2 := by
  rw [show (256 : ℝ) = 2 ^ 8 by norm_num, log_pow]; norm_num

set_option exponentiation.threshold 10000 in
theorem exp_small : (256 + 1) * Real.exp (-256) ≤ 1 / 2 ^ 350 := by
  have h1 : (2.7 : ℝ) ≤ Real.exp 1 := by have := Real.exp_one_gt_d9; linarith
  have h2 : Real.exp 256 = Real.exp 1 ^ 256 := by rw [← Real.exp_nat_mul]; norm_num
  have h3 : (2.7 : ℝ) ^ 256 ≤ Real.exp 256 := by rw [h2]; exact pow_le_pow_left₀ (by norm_num) h1 _
  have h4 : (257 : ℝ) * 2 ^ 350 ≤ 2.7 ^ 256 := by norm_num
  rw [Real.exp_neg, ← div_eq_mul_inv, div_le_div_iff₀ (Real.exp_pos _) (by positivity)]
  linarith

set_option exponentiation.threshold 10000 in
theorem fact_large : (2 : ℝ) * 256 ^ (1024 + 2) / ((1024 : ℕ) ! : ℝ) ≤ 1 / 2 ^ 350 := by
  have h : 2 * 256 ^ (1024 + 2) * 2 ^ 350 ≤ (1024 : ℕ) ! := by decide +kernel
  have h2 : ((2 * 256 ^ (1024 + 2) * 2 ^ 350 : ℕ) : ℝ) ≤ ((1024 : ℕ) ! : ℝ) := Nat.cast_le.mpr h
  have hf : (0 : ℝ) < ((1024 : ℕ) ! : ℝ) := Nat.cast_pos.mpr (Nat.factorial_pos _)
  rw [div_le_div_iff₀ hf (by positivity), one_mul]
  refine le_trans (le_of_eq ?_) h2
  rw [Nat.cast_mul, Nat.cast_mul, Nat.cast_pow, Nat.cast_pow, Nat.cast_ofNat, Nat.cast_ofNat]

theorem combine {γ L SA SB a b l U W : ℝ} (hW : 0 < W) (hU : 0 < U) (ha0 : 0 ≤ a) (ha : a ≤ 2 * U) (hL0 : 0 ≤ L) (hL : L ≤ 1)
    (h1 : |U * SA - a| ≤ 1024) (h2 : |U * SB - b| ≤ 1024) (h3 : |l - W * L| ≤ 1) {e : ℝ}
    (h4 : |γ + (8 * L * SA - SB)| ≤ e) :
    |U * W * γ - (W * b - 8 * a * l)| ≤ W * (U * e + 9216) + 16 * U := by
  rw [abs_le] at h1 h2 h3 h4 ⊢
  have p1 : U * (γ + (8 * L * SA - SB)) ≤ U * e := mul_le_mul_of_nonneg_left h4.2 hU.le
  have p2 : U * -e ≤ U * (γ + (8 * L * SA - SB)) := mul_le_mul_of_nonneg_left h4.1 hU.le
  have q1 : L * (U * SA - a) ≤ 1024 := by nlinarith [h1.1, h1.2]
  have q2 : -1024 ≤ L * (U * SA - a) := by nlinarith [h1.1, h1.2]
  have r1 : a * (l - W * L) ≤ 2 * U := by nlinarith [h3.1, h3.2]
  have r2 : -(2 * U) ≤ a * (l - W * L) := by nlinarith [h3.1, h3.2]
  have s1 : W * (U * γ + 8 * L * a - b) ≤ W * (U * e + 9216) := mul_le_mul_of_nonneg_left (by nlinarith [h2.1, h2.2]) hW.le
  have s2 : W * -(U * e + 9216) ≤ W * (U * γ + 8 * L * a - b) := mul_le_mul_of_nonneg_left (by nlinarith [h2.1, h2.2]) hW.le
  constructor <;> nlinarith

set_option exponentiation.threshold 10000 in
theorem num_facts : 0 ≤ A ∧ A ≤ 2 * 2 ^ 600 ∧
    1175809075508253543287410665846631300113693313600019919346911762570612523496256209751613498 * 2 ^ 792 + 2 ^ 750 ≤ 2 ^ 492 * B - 8 * A * (Ln.limbs Ln.LN_2 : ℤ) ∧
    2 ^ 492 * B - 8 * A * (Ln.limbs Ln.LN_2 : ℤ) + 2 ^ 750 ≤ 1175809075508253543287410665846631300113693313600019919346911762570612523496256209751613499 * 2 ^ 792 := by
  decide +kernel

set_option exponentiation.threshold 10000 in
/-- Euler's constant to 300 bits -/
theorem gamma_tight :
    (1175809075508253543287410665846631300113693313600019919346911762570612523496256209751613498 : ℝ) ≤ eulerMascheroniConstant * 2 ^ 300 ∧
    eulerMascheroniConstant * 2 ^ 300 ≤ (1175809075508253543287410665846631300113693313600019919346911762570612523496256209751613499 : ℝ) := by
  obtain ⟨hA0, hA1, hlo, hhi⟩ := num_facts
  have hs := sums_spec 1024 0 256 1 1 0 0 (by norm_num) (by simp) (by simp)
  have hg := gamma_approx (K := 1024) (by norm_num) (N := 256) (by norm_num)
  rw [approx_eq, log_256] at hg
  have he : (256 + 1) * Real.exp (-256) + 2 * 256 ^ (1024 + 2) / ((1024 : ℕ) ! : ℝ) ≤ 1 / 2 ^ 350 + 1 / 2 ^ 350 :=
    add_le_add exp_small fact_large
  have hL := Ln.LN_2_err
  obtain ⟨hs1, hs2⟩ := hs
  rw [sub_zero] at hs1 hs2
  have hc := combine (γ := eulerMascheroniConstant) (L := log 2) (U := 2 ^ 600) (W := 2 ^ 492) (a := ((A : ℤ) : ℝ))
    (b := ((B : ℤ) : ℝ)) (l := (Ln.limbs Ln.LN_2 : ℝ)) (by positivity) (by positivity) (by exact_mod_cast hA0)
    (by exact_mod_cast hA1) (log_nonneg (by norm_num)) (by have := log_two_lt_d9; linarith)
    (by have := hs1; push_cast at this; exact this) (by have := hs2; push_cast at this; exact this) hL (hg.trans he)
  have hloR : (1175809075508253543287410665846631300113693313600019919346911762570612523496256209751613498 : ℝ) * 2 ^ 792 + 2 ^ 750 ≤ 2 ^ 492 * (B : ℝ) - 8 * (A : ℝ) * (Ln.limbs Ln.LN_2 : ℝ) := by
    exact_mod_cast hlo
  have hhiR : 2 ^ 492 * (B : ℝ) - 8 * (A : ℝ) * (Ln.limbs Ln.LN_2 : ℝ) + 2 ^ 750 ≤ (1175809075508253543287410665846631300113693313600019919346911762570612523496256209751613499 : ℝ) * 2 ^ 792 := by
    exact_mod_cast hhi
  have hE : (2 : ℝ) ^ 492 * (2 ^ 600 * (1 / 2 ^ 350 + 1 / 2 ^ 350) + 9216) + 16 * 2 ^ 600 ≤ 2 ^ 750 := by norm_num
  have hU : (2 : ℝ) ^ 600 * 2 ^ 492 = 2 ^ 300 * 2 ^ 792 := by norm_num
  rw [hU] at hc
  rw [abs_le] at hc
  have hp : (0 : ℝ) < 2 ^ 792 := by positivity
  generalize (2 : ℝ) ^ 492 * (2 ^ 600 * (1 / 2 ^ 350 + 1 / 2 ^ 350) + 9216) + 16 * 2 ^ 600 = E at *
  generalize 2 ^ 492 * (B : ℝ) - 8 * (A : ℝ) * (Ln.limbs Ln.LN_2 : ℝ) = G at *
  generalize (2 : ℝ) ^ 750 = D at *
  constructor
  · refine le_of_mul_le_mul_right ?_ hp
    linarith [hc.1]
  · refine le_of_mul_le_mul_right ?_ hp
    linarith [hc.2]

end Verif.EulerGamma
