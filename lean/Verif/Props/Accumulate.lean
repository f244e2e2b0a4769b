import Verif.Props.Exactness

/-!
# C84: the rounding errors of a running sum of any length
-/

set_option exponentiation.threshold 2000

namespace Verif.Props

open Verif Spec

/-- The loop `for x in xs { a += x }` -/
def runningSum (a : F256) (xs : List F256) : Option F256 := xs.foldlM F256.add a

/-- The exact sum of the values -/
noncomputable def exactSum (xs : List F256) : ℝ := (xs.map fun x => val x.pat).sum

/-- The exact sum of the absolute values -/
noncomputable def absSum (xs : List F256) : ℝ := (xs.map fun x => |val x.pat|).sum

theorem exactSum_cons (x : F256) (xs : List F256) : exactSum (x :: xs) = val x.pat + exactSum xs := by
  rw [exactSum, List.map_cons, List.sum_cons, exactSum]

theorem absSum_cons (x : F256) (xs : List F256) : absSum (x :: xs) = |val x.pat| + absSum xs := by
  rw [absSum, List.map_cons, List.sum_cons, absSum]

theorem absSum_nonneg (xs : List F256) : 0 ≤ absSum xs := by
  induction xs with
  | nil => exact le_rfl
  | cons x xs ih => rw [absSum_cons]; exact add_nonneg (abs_nonneg _) ih

theorem runningSum_cons (a x : F256) (xs : List F256) : runningSum a (x :: xs) = (F256.add a x).bind fun z => runningSum z xs := by
  rw [runningSum, List.foldlM_cons]
  rfl

/-- Sums of finite numbers have no error in the subnormal range, thus the relative error of correct rounding holds for all of them. -/
theorem add_rel {x y z : F256} (hx : IsFin x.pat) (hy : IsFin y.pat) (hz : F256.add x y = some z) (fz : IsFin z.pat) :
    |val z.pat - (val x.pat + val y.pat)| ≤ |val x.pat + val y.pat| / 2 ^ 237 := by
  obtain ⟨z', h1, h2⟩ := C01_add x y hx hy
  rw [hz, Option.some.injEq] at h1
  subst h1
  have ht : |val x.pat + val y.pat| < overflowThreshold := by
    by_contra hc
    exact fz (h2.inf (not_lt.mp hc)).1
  by_cases hs : (2 : ℝ) ^ 236 ≤ |val x.pat + val y.pat| * 2 ^ 262378
  · exact _root_.Verif.IsRNE.rel_error h2 hs ht
  · have hK : (0 : ℝ) < 2 ^ 262378 := by positivity
    have e : val x.pat + val y.pat = ((smag x.pat + smag y.pat : ℤ) : ℝ) / 2 ^ 262378 := by
      rw [val_smag x.pat, val_smag y.pat, Int.cast_add, add_div]
    have hr : Rep (smag x.pat + smag y.pat) := by
      rw [e, abs_div, abs_of_pos hK, div_mul_cancel₀ _ hK.ne', not_le, ← Int.cast_abs] at hs
      have h3 : |smag x.pat + smag y.pat| < 2 ^ 236 := by exact_mod_cast hs
      refine ⟨(smag x.pat + smag y.pat).natAbs, 0, ?_, by norm_num, ?_⟩
      · have : ((smag x.pat + smag y.pat).natAbs : ℤ) < 2 ^ 236 := by rw [Int.natCast_natAbs]; exact h3
        have h4 : (smag x.pat + smag y.pat).natAbs < 2 ^ 236 := by exact_mod_cast this
        omega
      · rw [Int.natCast_natAbs, pow_zero, mul_one]
    rw [e] at h2
    have h5 := (rep_exact h2 hr).2
    rw [val_smag z.pat, h5, ← e, sub_self, abs_zero]
    positivity

theorem add_not_fin {a x z : F256} (ha : ¬IsFin a.pat) (hx : IsFin x.pat) (h : F256.add a x = some z) : ¬IsFin z.pat := by
  by_cases hi : IsInf a.pat
  · rw [(C03_inf_finite a x hi hx).1, Option.some.injEq] at h
    subst h
    exact ha
  · have hn : IsNaN a.pat := ⟨not_not.mp ha, fun hf => hi ⟨not_not.mp ha, hf⟩⟩
    rw [(C03_nan a x (Or.inl hn)).1, Option.some.injEq] at h
    subst h
    decide

/-- C84: a running sum never panics. -/
theorem C84_total (a : F256) (xs : List F256) : (runningSum a xs).isSome := by
  induction xs generalizing a with
  | nil => rfl
  | cons x xs ih =>
    obtain ⟨z, hz⟩ := Option.isSome_iff_exists.mp (C01_total a x).1
    rw [runningSum_cons, hz]
    exact ih z

/-- C84: once a running sum of finite numbers is infinite or not a number, it never gets finite again: a finite final result shows that no step
overflowed. -/
theorem C84_sticky (a s : F256) (xs : List F256) (hxs : ∀ x ∈ xs, IsFin x.pat) (h : runningSum a xs = some s) (hs : IsFin s.pat) :
    IsFin a.pat := by
  induction xs generalizing a with
  | nil =>
    have e : a = s := Option.some.inj h
    subst e
    exact hs
  | cons x xs ih =>
    obtain ⟨z, hz⟩ := Option.isSome_iff_exists.mp (C01_total a x).1
    rw [runningSum_cons, hz] at h
    by_contra ha
    exact add_not_fin ha (hxs x List.mem_cons_self) hz (ih z (fun y hy => hxs y (List.mem_cons_of_mem _ hy)) h)

theorem step_le {u P p T d : ℝ} (hp : p ≤ (1 + u) * P) (hq : 0 ≤ T) (hu : 0 ≤ u) (hd : 1 ≤ d) :
    d * (p + T) ≤ d * (1 + u) * (P + T) := by
  rw [mul_assoc]
  refine mul_le_mul_of_nonneg_left ?_ (by linarith)
  nlinarith

/-- C84: a finite running sum of `n` numbers, of any sizes and signs, is off by at most `(1 + 2^-237)^n - 1` times the sum of the absolute
values. -/
theorem C84_error (a s : F256) (xs : List F256) (hxs : ∀ x ∈ xs, IsFin x.pat) (h : runningSum a xs = some s) (hs : IsFin s.pat) :
    |val s.pat - (val a.pat + exactSum xs)| ≤ ((1 + 1 / 2 ^ 237) ^ xs.length - 1) * (|val a.pat| + absSum xs) := by
  induction xs generalizing a with
  | nil =>
    have e : a = s := Option.some.inj h
    rw [e, exactSum, List.map_nil, List.sum_nil, add_zero, sub_self, abs_zero, List.length_nil, pow_zero, sub_self, zero_mul]
  | cons x xs ih =>
    have ha := C84_sticky a s _ hxs h hs
    have hx := hxs x List.mem_cons_self
    have hr : ∀ y ∈ xs, IsFin y.pat := fun y hy => hxs y (List.mem_cons_of_mem _ hy)
    obtain ⟨z, hz⟩ := Option.isSome_iff_exists.mp (C01_total a x).1
    rw [runningSum_cons, hz] at h
    have i := ih z hr h
    have fz := C84_sticky z s xs hr h hs
    have e := add_rel ha hx hz fz
    rw [exactSum_cons, absSum_cons, List.length_cons, pow_succ]
    have t := absSum_nonneg xs
    have d : (1 : ℝ) ≤ (1 + 1 / 2 ^ 237) ^ xs.length := one_le_pow₀ (by norm_num)
    have hu : (0 : ℝ) ≤ 1 / 2 ^ 237 := by norm_num
    rw [div_eq_mul_one_div] at e
    generalize (1 : ℝ) / 2 ^ 237 = u at *
    generalize (1 + u) ^ xs.length = D at *
    have tri := abs_add_le (val a.pat) (val x.pat)
    have e1 : |val z.pat - (val a.pat + val x.pat)| ≤ (|val a.pat| + |val x.pat|) * u := e.trans (mul_le_mul_of_nonneg_right tri hu)
    have e2 : |val z.pat| ≤ (1 + u) * (|val a.pat| + |val x.pat|) := by
      have := abs_add_le (val z.pat - (val a.pat + val x.pat)) (val a.pat + val x.pat)
      rw [sub_add_cancel] at this
      linarith
    have pn : 0 ≤ |val a.pat| + |val x.pat| := by positivity
    have e3 := abs_add_le (val s.pat - (val z.pat + exactSum xs)) (val z.pat - (val a.pat + val x.pat))
    have e4 : (D - 1) * (|val z.pat| + absSum xs) ≤ (D - 1) * ((1 + u) * (|val a.pat| + |val x.pat| + absSum xs)) :=
      mul_le_mul_of_nonneg_left (by nlinarith) (by linarith)
    rw [show val s.pat - (val z.pat + exactSum xs) + (val z.pat - (val a.pat + val x.pat)) =
      val s.pat - (val a.pat + (val x.pat + exactSum xs)) by ring] at e3
    have e5 : (|val a.pat| + |val x.pat|) * u ≤ (|val a.pat| + |val x.pat| + absSum xs) * u :=
      mul_le_mul_of_nonneg_right (by linarith) hu
    rw [← add_assoc (|val a.pat|)]
    generalize |val a.pat| + |val x.pat| = P at *
    have e6 : (D - 1) * ((1 + u) * (P + absSum xs)) + (P + absSum xs) * u = (D * (1 + u) - 1) * (P + absSum xs) := by ring
    linarith

/-- C84: the running sum stays finite if the sum of the absolute values, increased by that error, is below the overflow threshold. -/
theorem C84_finite (a : F256) (xs : List F256) (ha : IsFin a.pat) (hxs : ∀ x ∈ xs, IsFin x.pat)
    (h : (1 + 1 / 2 ^ 237) ^ xs.length * (|val a.pat| + absSum xs) < overflowThreshold) :
    ∃ s, runningSum a xs = some s ∧ IsFin s.pat := by
  induction xs generalizing a with
  | nil => exact ⟨a, rfl, ha⟩
  | cons x xs ih =>
    have hx := hxs x List.mem_cons_self
    obtain ⟨z, hz, rz⟩ := C01_add a x ha hx
    rw [absSum_cons, List.length_cons, pow_succ] at h
    have t := absSum_nonneg xs
    have d : (1 : ℝ) ≤ (1 + 1 / 2 ^ 237) ^ xs.length := one_le_pow₀ (by norm_num)
    have hu : (0 : ℝ) ≤ 1 / 2 ^ 237 := by norm_num
    have tri := abs_add_le (val a.pat) (val x.pat)
    have pn : 0 ≤ |val a.pat| + |val x.pat| := by positivity
    have fz : IsFin z.pat := by
      refine rz.fin (lt_of_le_of_lt ?_ h)
      have k : (1 : ℝ) ≤ (1 + 1 / 2 ^ 237) ^ xs.length * (1 + 1 / 2 ^ 237) := by nlinarith
      have := le_mul_of_one_le_left (add_nonneg (abs_nonneg (val a.pat)) (add_nonneg (abs_nonneg (val x.pat)) t)) k
      linarith
    have e := add_rel ha hx hz fz
    have e2 : |val z.pat| ≤ (1 + 1 / 2 ^ 237) * (|val a.pat| + |val x.pat|) := by
      rw [div_eq_mul_one_div] at e
      have := abs_add_le (val z.pat - (val a.pat + val x.pat)) (val a.pat + val x.pat)
      rw [sub_add_cancel] at this
      have := mul_le_mul_of_nonneg_right tri hu
      linarith
    have k := step_le e2 t hu d
    rw [add_assoc] at k
    obtain ⟨s, h1, h2⟩ := ih z fz (fun y hy => hxs y (List.mem_cons_of_mem _ hy)) (lt_of_le_of_lt k h)
    exact ⟨s, by rw [runningSum_cons, hz]; exact h1, h2⟩

/-- Ones, minus ones and subnormal numbers -/
example : ∀ x ∈ [F256.ONE, F256.NEG_ONE, F256.MIN_GT_ZERO, F256.ONE], IsFin x.pat := by decide +kernel

/-- Test: `0 + 1 + 1 - 1 = 1`. -/
example : runningSum F256.ZERO [F256.ONE, F256.ONE, F256.NEG_ONE] = some F256.ONE := by decide +kernel

end Verif.Props
