import Mathlib.Analysis.Complex.ExponentialBounds
import Verif.Props.Horner

/-!
# C87: compensated summation of any number of terms
-/

set_option exponentiation.threshold 2000

namespace Verif.Props

open Verif Spec

/-- The sum and its rounding error, by six operations (C69) -/
def twoSum (a b : F256) : Option (F256 × F256) := do
  let s ← F256.add a b
  let v ← F256.sub s a
  let u ← F256.sub s v
  let da ← F256.sub a u
  let db ← F256.sub b v
  let t ← F256.add da db
  pure (s, t)

/-- The loop of compensated summation: the sum in `s`, the sum of the rounding errors in `c` -/
def sum2Loop (s c : F256) : List F256 → Option (F256 × F256)
  | [] => some (s, c)
  | x :: xs => do
    let (s', e) ← twoSum s x
    let c' ← F256.add c e
    sum2Loop s' c' xs

/-- Compensated summation (Neumaier; Ogita, Rump and Oishi) -/
def sum2 (xs : List F256) : Option F256 := do
  let (s, c) ← sum2Loop F256.ZERO F256.ZERO xs
  F256.add s c

/-- A quarter of the range -/
noncomputable def sumLimit : ℝ := 2 ^ 262142

theorem sumLimit_pos : 0 < sumLimit := pow_pos (by norm_num) _

theorem lt_threshold_of_le {q : ℝ} (h : |q| ≤ 2 * sumLimit) : |q| < overflowThreshold := by
  refine lt_of_le_of_lt h ?_
  have e : (2 : ℝ) ^ (262143 : ℤ) = 2 * sumLimit := by
    rw [show (262143 : ℤ) = ((262143 : ℕ) : ℤ) from rfl, zpow_natCast, pow_succ', sumLimit]
  rw [overflowThreshold, e]
  exact lt_mul_of_one_lt_left (mul_pos (by norm_num) sumLimit_pos) (by norm_num)

/-- Sums below half of the range do not overflow. -/
theorem add_ok {x y : F256} (hx : IsFin x.pat) (hy : IsFin y.pat) (h : |val x.pat + val y.pat| ≤ 2 * sumLimit) :
    ∃ z, F256.add x y = some z ∧ IsFin z.pat ∧ |val z.pat - (val x.pat + val y.pat)| ≤ |val x.pat + val y.pat| * (1 / 2 ^ 237) := by
  obtain ⟨z, hz, rz⟩ := C01_add x y hx hy
  have fz := rz.fin (lt_threshold_of_le h)
  have e := add_rel hx hy hz fz
  rw [div_eq_mul_one_div] at e
  exact ⟨z, hz, fz, e⟩

theorem twoSum_ok {a b : F256} (ha : IsFin a.pat) (hb : IsFin b.pat) (h : (1 + 1 / 2 ^ 237) * (|val a.pat| + |val b.pat|) ≤ sumLimit) :
    ∃ s e, twoSum a b = some (s, e) ∧ IsFin s.pat ∧ IsFin e.pat ∧ val s.pat + val e.pat = val a.pat + val b.pat ∧
      |val e.pat| ≤ 1 / 2 ^ 237 * (|val a.pat| + |val b.pat|) ∧ |val s.pat| ≤ (1 + 1 / 2 ^ 237) * (|val a.pat| + |val b.pat|) := by
  have hu : (0 : ℝ) ≤ 1 / 2 ^ 237 := by norm_num
  have tri := abs_add_le (val a.pat) (val b.pat)
  have pn : 0 ≤ |val a.pat| + |val b.pat| := add_nonneg (abs_nonneg _) (abs_nonneg _)
  have h0 := abs_nonneg (val b.pat)
  have up := mul_nonneg hu pn
  have K := sumLimit_pos
  obtain ⟨s, v, hs, hv, k⟩ := C69_two_sum a b ha hb
  obtain ⟨s', hs', fs, es⟩ := add_ok ha hb (by linarith)
  rw [hs, Option.some.injEq] at hs'
  subst hs'
  have es2 : |val s.pat - (val a.pat + val b.pat)| ≤ 1 / 2 ^ 237 * (|val a.pat| + |val b.pat|) :=
    es.trans (by rw [mul_comm]; exact mul_le_mul_of_nonneg_left tri hu)
  have hb2 : |val s.pat| ≤ (1 + 1 / 2 ^ 237) * (|val a.pat| + |val b.pat|) := by
    have t := abs_add_le (val s.pat - (val a.pat + val b.pat)) (val a.pat + val b.pat)
    rw [sub_add_cancel] at t
    linarith
  have fv : IsFin v.pat := by
    obtain ⟨v', hv', rv⟩ := C02_sub s a fs ha
    rw [hv, Option.some.injEq] at hv'
    subst hv'
    have t := abs_sub (val s.pat) (val a.pat)
    exact rv.fin (lt_threshold_of_le (by linarith))
  obtain ⟨u, da, db, t, h1, h2, h3, h4, ft, et⟩ := k fs fv
  refine ⟨s, t, ?_, fs, ft, et, ?_, hb2⟩
  · simp only [twoSum, hs, hv, h1, h2, h3, h4, Option.bind_eq_bind, Option.bind_some, Option.pure_def]
  · rw [show val t.pat = -(val s.pat - (val a.pat + val b.pat)) by linarith, abs_neg]
    exact es2

/-- The loop: `s' + E` is the exact sum, and `c'` is near to `c + E`. -/
theorem sum2Loop_ok (xs : List F256) : ∀ (s c : F256), IsFin s.pat → IsFin c.pat → (∀ x ∈ xs, IsFin x.pat) →
    (1 + 1 / 2 ^ 237) ^ xs.length * (|val s.pat| + absSum xs) ≤ sumLimit →
    (1 + 1 / 2 ^ 237) ^ xs.length * (|val c.pat| + ((1 + 1 / 2 ^ 237) ^ xs.length - 1) * (|val s.pat| + absSum xs)) ≤ sumLimit →
    ∃ s' c' E, sum2Loop s c xs = some (s', c') ∧ IsFin s'.pat ∧ IsFin c'.pat ∧ val s'.pat + E = val s.pat + exactSum xs ∧
      |val c'.pat - (val c.pat + E)| ≤ ((1 + 1 / 2 ^ 237) ^ xs.length - 1) *
        (|val c.pat| + ((1 + 1 / 2 ^ 237) ^ xs.length - 1) * (|val s.pat| + absSum xs)) := by
  induction xs with
  | nil =>
    intro s c fs fc _ _ _
    refine ⟨s, c, 0, rfl, fs, fc, by rw [exactSum, List.map_nil, List.sum_nil], ?_⟩
    rw [add_zero, sub_self, abs_zero, List.length_nil, pow_zero, sub_self, zero_mul]
  | cons x xs ih =>
    intro s c fs fc hxs b1 b2
    have hx := hxs x List.mem_cons_self
    have hr : ∀ y ∈ xs, IsFin y.pat := fun y hy => hxs y (List.mem_cons_of_mem _ hy)
    rw [List.length_cons, pow_succ, absSum_cons, ← add_assoc] at b1 b2 ⊢
    have t0 := absSum_nonneg xs
    have hu : (0 : ℝ) ≤ 1 / 2 ^ 237 := by norm_num
    have hd : (1 : ℝ) ≤ (1 + 1 / 2 ^ 237) ^ xs.length := one_le_pow₀ (by norm_num)
    have pn : 0 ≤ |val s.pat| + |val x.pat| := add_nonneg (abs_nonneg _) (abs_nonneg _)
    have c0 := abs_nonneg (val c.pat)
    have w1 : (1 : ℝ) + 1 / 2 ^ 237 ≤ (1 + 1 / 2 ^ 237) ^ xs.length * (1 + 1 / 2 ^ 237) := le_mul_of_one_le_left (by linarith) hd
    have k1 : (1 + 1 / 2 ^ 237) * (|val s.pat| + |val x.pat|) ≤ sumLimit :=
      (mul_le_mul w1 (le_add_of_nonneg_right t0) pn (by linarith)).trans b1
    obtain ⟨s1, e, h1, f1, fe, v1, g1, g2⟩ := twoSum_ok fs hx k1
    have i := fun c' fc' => ih s1 c' f1 fc' hr
    have q2 := fun (h : |val c.pat + val e.pat| ≤ 2 * sumLimit) => add_ok fc fe h
    have tri := abs_add_le (val c.pat) (val e.pat)
    rw [exactSum_cons]
    generalize (1 + 1 / 2 ^ 237 : ℝ) ^ xs.length = D at *
    generalize (1 / 2 ^ 237 : ℝ) = u at *
    generalize hA : |val c.pat| + (D * (1 + u) - 1) * (|val s.pat| + |val x.pat| + absSum xs) = A at *
    have hP : 0 ≤ |val s.pat| + |val x.pat| + absSum xs := by linarith
    have du : 0 ≤ (D - 1) * u := mul_nonneg (by linarith) hu
    have hw : u ≤ D * (1 + u) - 1 := by linarith
    have m1 : u * (|val s.pat| + |val x.pat|) ≤ (D * (1 + u) - 1) * (|val s.pat| + |val x.pat| + absSum xs) :=
      mul_le_mul hw (le_add_of_nonneg_right t0) pn (by linarith)
    have ce : |val c.pat| + |val e.pat| ≤ A := by linarith
    have A0 : 0 ≤ A := by linarith [abs_nonneg (val e.pat)]
    have AD : A ≤ D * (1 + u) * A := le_mul_of_one_le_left A0 (by linarith)
    have K := sumLimit_pos
    obtain ⟨c1, h2, fc1, ec⟩ := q2 (by linarith)
    have ec2 : |val c1.pat - (val c.pat + val e.pat)| ≤ u * (|val c.pat| + |val e.pat|) := by
      rw [mul_comm]
      exact ec.trans (mul_le_mul_of_nonneg_right tri hu)
    have ec3 : |val c1.pat| ≤ (1 + u) * (|val c.pat| + |val e.pat|) := by
      have t := abs_add_le (val c1.pat - (val c.pat + val e.pat)) (val c.pat + val e.pat)
      rw [sub_add_cancel] at t
      linarith
    have B1 : |val s1.pat| + absSum xs ≤ (1 + u) * (|val s.pat| + |val x.pat| + absSum xs) := by
      have := mul_nonneg hu t0
      linarith
    have B2 : |val c1.pat| + (D - 1) * (|val s1.pat| + absSum xs) ≤ (1 + u) * A := by
      have r1 : (D - 1) * (|val s1.pat| + absSum xs) ≤ (D - 1) * ((1 + u) * (|val s.pat| + |val x.pat| + absSum xs)) :=
        mul_le_mul_of_nonneg_left B1 (by linarith)
      have r2 : (1 + u) * (|val c.pat| + |val e.pat|) ≤ (1 + u) * (|val c.pat| + u * (|val s.pat| + |val x.pat| + absSum xs)) := by
        refine mul_le_mul_of_nonneg_left ?_ (by linarith)
        have := mul_nonneg hu t0
        linarith
      have r3 : (1 + u) * (((D - 1) * u) * (|val s.pat| + |val x.pat| + absSum xs)) ≥ 0 :=
        mul_nonneg (by linarith) (mul_nonneg du hP)
      have r4 : (1 + u) * A = (1 + u) * (|val c.pat| + u * (|val s.pat| + |val x.pat| + absSum xs)) +
          (D - 1) * ((1 + u) * (|val s.pat| + |val x.pat| + absSum xs)) +
          (1 + u) * (((D - 1) * u) * (|val s.pat| + |val x.pat| + absSum xs)) := by rw [← hA]; ring
      linarith
    obtain ⟨s', c', E, l1, l2, l3, l4, l5⟩ := i c1 fc1
      ((mul_le_mul_of_nonneg_left B1 (by linarith)).trans (by rw [← mul_assoc]; exact b1))
      ((mul_le_mul_of_nonneg_left B2 (by linarith)).trans (by rw [← mul_assoc]; exact b2))
    refine ⟨s', c', val e.pat + E, ?_, l2, l3, by linarith, ?_⟩
    · simp only [sum2Loop, h1, h2, Option.bind_eq_bind, Option.bind_some, l1]
    · refine compound (z := val c1.pat + E) hd l5 ?_ B2
      rw [← add_assoc, add_sub_add_right_eq_sub]
      exact ec2.trans (mul_le_mul_of_nonneg_left ce hu)

theorem pow_sub_one_le {u : ℝ} (hu : 0 ≤ u) (n : ℕ) : (1 + u) ^ n - 1 ≤ n * u * (1 + u) ^ n := by
  induction n with
  | zero => simp
  | succ n ih =>
    rw [pow_succ, Nat.cast_succ]
    have d : 1 ≤ (1 + u) ^ n := one_le_pow₀ (by linarith)
    generalize (1 + u) ^ n = D at *
    have h1 := mul_le_mul_of_nonneg_right ih (show 0 ≤ 1 + u by linarith)
    have h2 : u * 1 ≤ u * (D * (1 + u)) := mul_le_mul_of_nonneg_left (by nlinarith) hu
    nlinarith

theorem pow_le_two {n : ℕ} (hn : n ≤ 2 ^ 236) : (1 + 1 / 2 ^ 237 : ℝ) ^ n ≤ 2 := by
  have h1 : (1 + 1 / 2 ^ 237 : ℝ) ≤ Real.exp (1 / 2 ^ 237) := by
    have := Real.add_one_le_exp (1 / 2 ^ 237 : ℝ)
    linarith
  have h2 : (1 + 1 / 2 ^ 237 : ℝ) ^ n ≤ Real.exp (n * (1 / 2 ^ 237)) := by
    rw [Real.exp_nat_mul]
    exact pow_le_pow_left₀ (by norm_num) h1 n
  have h3 : (n : ℝ) * (1 / 2 ^ 237) ≤ 1 / 2 := by
    have : (n : ℝ) ≤ 2 ^ 236 := by exact_mod_cast hn
    calc (n : ℝ) * (1 / 2 ^ 237) ≤ 2 ^ 236 * (1 / 2 ^ 237) := mul_le_mul_of_nonneg_right this (by norm_num)
      _ = 1 / 2 := by norm_num
  have h4 : Real.exp (1 / 2) ≤ 2 := by
    have e : Real.exp (1 / 2) ^ 2 = Real.exp 1 := by rw [← Real.exp_nat_mul]; norm_num
    have := Real.exp_one_lt_d9
    nlinarith [Real.exp_pos (1 / 2)]
  exact h2.trans ((Real.exp_le_exp.mpr h3).trans h4)

theorem abs_exactSum_le (xs : List F256) : |exactSum xs| ≤ absSum xs := by
  induction xs with
  | nil => rw [exactSum, absSum]; simp
  | cons x xs ih =>
    rw [exactSum_cons, absSum_cons]
    exact (abs_add_le _ _).trans (by linarith)

/-- C87: compensated summation of up to `2^236` numbers that add up in magnitude to at most `2^262141` never overflows, and its result is as
good as if it had been calculated with twice the precision and then rounded: the term with `n` is of second order. -/
theorem C87_compensated (xs : List F256) (hxs : ∀ x ∈ xs, IsFin x.pat) (hn : xs.length ≤ 2 ^ 236) (hT : absSum xs ≤ 2 ^ 262141) :
    ∃ r, sum2 xs = some r ∧ IsFin r.pat ∧
      |val r.pat - exactSum xs| ≤ |exactSum xs| / 2 ^ 237 + 5 * (xs.length / 2 ^ 237) ^ 2 * absSum xs := by
  have w2 := pow_le_two hn
  have w1 : (1 : ℝ) ≤ (1 + 1 / 2 ^ 237) ^ xs.length := one_le_pow₀ (by norm_num)
  have wn := pow_sub_one_le (u := 1 / 2 ^ 237) (by norm_num) xs.length
  have l := sum2Loop_ok xs F256.ZERO F256.ZERO (by decide) (by decide) hxs
  rw [val_zero (N := F256.ZERO.pat) (by decide), abs_zero, zero_add, zero_add, zero_add] at l
  have t0 := absSum_nonneg xs
  have ts := abs_exactSum_le xs
  have K : sumLimit = 2 ^ 262141 * 2 := pow_succ 2 262141
  have hu : (0 : ℝ) ≤ 1 / 2 ^ 237 := by norm_num
  have hu2 : (1 / 2 ^ 237 : ℝ) ≤ 1 / 4 := by norm_num
  have hN : (0 : ℝ) ≤ xs.length := Nat.cast_nonneg _
  rw [div_eq_mul_one_div (|exactSum xs|), div_eq_mul_one_div (xs.length : ℝ)]
  have fin := fun {s c : F256} (hs : IsFin s.pat) (hc : IsFin c.pat) h => add_ok hs hc h
  generalize (1 + 1 / 2 ^ 237 : ℝ) ^ xs.length = D at *
  generalize (1 / 2 ^ 237 : ℝ) = u at *
  generalize sumLimit = M at *
  generalize (2 : ℝ) ^ 262141 = H at *
  have a1 : D * absSum xs ≤ M := by
    have := mul_le_mul_of_nonneg_right w2 t0
    linarith
  have a3 : (D - 1) * absSum xs ≤ 1 * absSum xs := mul_le_mul_of_nonneg_right (by linarith) t0
  have a4 : 0 ≤ (D - 1) * absSum xs := mul_nonneg (by linarith) t0
  have a2 : D * ((D - 1) * absSum xs) ≤ M := by
    have := mul_le_mul_of_nonneg_right w2 a4
    linarith
  obtain ⟨s, c, E, l1, l2, l3, l4, l5⟩ := l a1 a2
  rw [zero_add] at l5
  have a5 : (D - 1) * ((D - 1) * absSum xs) ≤ 1 * ((D - 1) * absSum xs) := mul_le_mul_of_nonneg_right (by linarith) a4
  have b1 : |val s.pat + val c.pat| ≤ |exactSum xs| + (D - 1) * ((D - 1) * absSum xs) := by
    have t := abs_add_le (exactSum xs) (val c.pat - E)
    rw [show exactSum xs + (val c.pat - E) = val s.pat + val c.pat by linarith] at t
    linarith
  obtain ⟨r, r1, r2, r3⟩ := fin l2 l3 (by linarith)
  refine ⟨r, ?_, r2, ?_⟩
  · simp only [sum2, l1, Option.bind_eq_bind, Option.bind_some, r1]
  · have t := abs_add_le (val r.pat - (val s.pat + val c.pat)) (val c.pat - E)
    rw [show val r.pat - (val s.pat + val c.pat) + (val c.pat - E) = val r.pat - exactSum xs by linarith] at t
    have b2 := mul_le_mul_of_nonneg_right b1 hu
    have nu : 0 ≤ (xs.length : ℝ) * u := mul_nonneg hN hu
    have d2 : D - 1 ≤ 2 * (xs.length * u) := by
      have := mul_le_mul_of_nonneg_left w2 nu
      linarith
    have d3 : (D - 1) * (D - 1) ≤ 2 * (xs.length * u) * (2 * (xs.length * u)) :=
      mul_le_mul d2 d2 (by linarith) (by linarith)
    have d4 : (D - 1) * ((D - 1) * absSum xs) ≤ 4 * (xs.length * u) ^ 2 * absSum xs := by
      have := mul_le_mul_of_nonneg_right d3 t0
      linarith
    have d5 : (D - 1) * ((D - 1) * absSum xs) * u ≤ (xs.length * u) ^ 2 * absSum xs := by
      have p : 0 ≤ (xs.length * u) ^ 2 * absSum xs := mul_nonneg (sq_nonneg _) t0
      have q : 0 ≤ (D - 1) * ((D - 1) * absSum xs) := mul_nonneg (by linarith) a4
      have := mul_le_mul_of_nonneg_left hu2 q
      linarith
    linarith

/-- Terms of very different size and sign, for which plain summation returns 0: `1 + 2^-300 - 1`. -/
example : (∀ x ∈ [F256.ONE, tiny300, F256.NEG_ONE], IsFin x.pat) ∧ sum2 [F256.ONE, tiny300, F256.NEG_ONE] = some tiny300 ∧
    runningSum F256.ZERO [F256.ONE, tiny300, F256.NEG_ONE] = some F256.ZERO := by
  refine ⟨by decide +kernel, by decide +kernel, by decide +kernel⟩

/-- The limit of the theorem allows ordinary numbers. -/
example : absSum [F256.ONE, F256.ONE] ≤ 2 ^ 262141 := by
  rw [absSum_cons, absSum_cons, absSum, List.map_nil, List.sum_nil, val_ONE, abs_one, add_zero, one_add_one_eq_two]
  exact le_self_pow₀ (by norm_num) (by norm_num)

end Verif.Props
