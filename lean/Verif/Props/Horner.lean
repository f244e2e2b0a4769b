import Verif.Props.Accumulate

/-!
# C85, C86: the rounding errors of running products, of powers and of Horner's scheme
-/

set_option exponentiation.threshold 2000

namespace Verif.Props

open Verif Spec

/-- A product of finite numbers that is 0 or in the normal range has the relative error of correct rounding, unless it overflows. -/
theorem mul_rel {x y : F256} (hx : IsFin x.pat) (hy : IsFin y.pat)
    (h : val x.pat * val y.pat = 0 ∨ (2 : ℝ) ^ (-262142 : ℤ) ≤ |val x.pat * val y.pat|) (fz : IsFin (F256.mul x y).pat) :
    |val (F256.mul x y).pat - val x.pat * val y.pat| ≤ |val x.pat * val y.pat| * (1 / 2 ^ 237) := by
  rcases h with h | h
  · have h0 : IsZero x.pat ∨ IsZero y.pat := by
      rcases mul_eq_zero.mp h with h | h
      · exact Or.inl ((val_eq_zero_iff hx).mp h)
      · exact Or.inr ((val_eq_zero_iff hy).mp h)
    rw [h, val_zero (C05_zero x y hx hy h0).1, sub_zero, abs_zero, zero_mul]
  · obtain ⟨hr, -⟩ := C04_mul_partial x y hx hy (Or.inl h)
    have ht : |val x.pat * val y.pat| < overflowThreshold := by
      by_contra hc
      exact fz (hr.inf (not_lt.mp hc)).1
    rw [← div_eq_mul_one_div]
    refine _root_.Verif.IsRNE.rel_error hr ?_ ht
    have hK : (0 : ℝ) < 2 ^ 262378 := by positivity
    have e : (2 : ℝ) ^ 236 = 2 ^ (-262142 : ℤ) * 2 ^ 262378 := by
      rw [← zpow_natCast (2 : ℝ) 262378, ← zpow_add₀ (by norm_num : (2 : ℝ) ≠ 0), ← zpow_natCast (2 : ℝ) 236]
      norm_num
    rw [e]
    exact mul_le_mul_of_nonneg_right h hK.le

theorem mul_not_fin {a x : F256} (ha : ¬IsFin a.pat) (hx : IsFin x.pat) (h0 : ¬IsZero x.pat) : ¬IsFin (F256.mul a x).pat := by
  by_cases hi : IsInf a.pat
  · have hn : ¬IsNaN a.pat := fun h => h.2 hi.2
    have hz : ¬IsZero a.pat := fun h => by
      have h1 := hi.1
      rw [h.1] at h1
      exact absurd h1 (by decide)
    exact fun h => h (C05_inf a x hn (fun h => hx h.1) hz h0 (Or.inl hi)).1.1
  · have hn : IsNaN a.pat := ⟨not_not.mp ha, fun hf => hi ⟨not_not.mp ha, hf⟩⟩
    rw [C05_nan a x (Or.inl hn)]
    decide

/-- The loop `for x in xs { a *= x }` -/
def runningProduct (a : F256) (xs : List F256) : F256 := xs.foldl F256.mul a

/-- The exact product of the values -/
noncomputable def exactProduct (xs : List F256) : ℝ := (xs.map fun x => val x.pat).prod

theorem exactProduct_cons (x : F256) (xs : List F256) : exactProduct (x :: xs) = val x.pat * exactProduct xs := by
  rw [exactProduct, List.map_cons, List.prod_cons, exactProduct]

/-- No factor is 0 or not finite, and no product is less than the smallest normal number. -/
def NoUnderflow (a : F256) : List F256 → Prop
  | [] => True
  | x :: xs => IsFin x.pat ∧ (2 : ℝ) ^ (-262142 : ℤ) ≤ |val a.pat * val x.pat| ∧ NoUnderflow (F256.mul a x) xs

theorem NoUnderflow.fin {a : F256} {xs : List F256} (h : NoUnderflow a xs) (hs : IsFin (runningProduct a xs).pat) : IsFin a.pat := by
  induction xs generalizing a with
  | nil => exact hs
  | cons x xs ih =>
    obtain ⟨h1, h2, h3⟩ := h
    by_contra ha
    refine mul_not_fin ha h1 (fun h => ?_) (ih h3 hs)
    rw [val_zero h, mul_zero, abs_zero] at h2
    exact absurd h2 (not_le.mpr (zpow_pos (by norm_num) _))

/-- Errors add up. -/
theorem compound {u D s z t A B : ℝ} (hd : 1 ≤ D) (h1 : |s - z| ≤ (D - 1) * B) (h2 : |z - t| ≤ u * A) (h3 : B ≤ (1 + u) * A) :
    |s - t| ≤ (D * (1 + u) - 1) * A := by
  have e := abs_add_le (s - z) (z - t)
  rw [sub_add_sub_cancel] at e
  have e2 : (D - 1) * B ≤ (D - 1) * ((1 + u) * A) := mul_le_mul_of_nonneg_left h3 (by linarith)
  have e3 : (D - 1) * ((1 + u) * A) + u * A = (D * (1 + u) - 1) * A := by ring
  linarith

/-- C85: a finite running product of `n` factors, none of whose steps underflows, has a relative error of at most `(1 + 2^-237)^n - 1`. -/
theorem C85_product (a : F256) (xs : List F256) (h : NoUnderflow a xs) (hs : IsFin (runningProduct a xs).pat) :
    |val (runningProduct a xs).pat - val a.pat * exactProduct xs| ≤
      ((1 + 1 / 2 ^ 237) ^ xs.length - 1) * |val a.pat * exactProduct xs| := by
  induction xs generalizing a with
  | nil =>
    rw [exactProduct, List.map_nil, List.prod_nil, mul_one, List.length_nil, pow_zero, sub_self, zero_mul]
    show |val a.pat - val a.pat| ≤ 0
    rw [sub_self, abs_zero]
  | cons x xs ih =>
    have ha := h.fin hs
    obtain ⟨h1, h2, h3⟩ := h
    have fz := h3.fin hs
    have i := ih _ h3 hs
    have e := mul_rel ha h1 (Or.inr h2) fz
    rw [exactProduct_cons, List.length_cons, pow_succ, ← mul_assoc]
    change |val (runningProduct (F256.mul a x) xs).pat - _| ≤ _
    have d : (1 : ℝ) ≤ (1 + 1 / 2 ^ 237) ^ xs.length := one_le_pow₀ (by norm_num)
    refine compound d i (u := 1 / 2 ^ 237) ?_ ?_
    · rw [← sub_mul, abs_mul, abs_mul (val a.pat * val x.pat), ← mul_assoc]
      refine mul_le_mul_of_nonneg_right ?_ (abs_nonneg _)
      exact e.trans_eq (mul_comm _ _)
    · rw [abs_mul, abs_mul (val a.pat * val x.pat), ← mul_assoc]
      refine mul_le_mul_of_nonneg_right ?_ (abs_nonneg _)
      have e2 := abs_add_le (val (F256.mul a x).pat - val a.pat * val x.pat) (val a.pat * val x.pat)
      rw [sub_add_cancel] at e2
      linarith

/-- C85: repeated multiplication calculates powers with the relative error `(1 + 2^-237)^n - 1`. -/
theorem C85_power (x : F256) (n : ℕ) (h : NoUnderflow F256.ONE (List.replicate n x))
    (hs : IsFin (runningProduct F256.ONE (List.replicate n x)).pat) :
    |val (runningProduct F256.ONE (List.replicate n x)).pat - val x.pat ^ n| ≤ ((1 + 1 / 2 ^ 237) ^ n - 1) * |val x.pat ^ n| := by
  have := C85_product _ _ h hs
  rwa [val_ONE, one_mul, exactProduct, List.map_replicate, List.prod_replicate, List.length_replicate] at this

/-- Ones never underflow, for any number of factors. -/
example (n : ℕ) : NoUnderflow F256.ONE (List.replicate n F256.ONE) := by
  induction n with
  | zero => trivial
  | succ n ih =>
    refine ⟨by decide, ?_, ?_⟩
    · rw [val_ONE, mul_one, abs_one]
      exact zpow_le_one_of_nonpos₀ (by norm_num) (by norm_num)
    · rw [show F256.mul F256.ONE F256.ONE = F256.ONE by decide +kernel]
      exact ih

/-! ## Horner's scheme -/

/-- The loop `for c in cs { a = a * x + c }` -/
def horner (x a : F256) (cs : List F256) : Option F256 := cs.foldlM (fun a c => F256.add (F256.mul a x) c) a

theorem horner_cons (x a c : F256) (cs : List F256) :
    horner x a (c :: cs) = (F256.add (F256.mul a x) c).bind fun z => horner x z cs := by
  rw [horner, List.foldlM_cons]
  rfl

/-- The value of the polynomial with the coefficients `cs`, the last of which is the constant one -/
noncomputable def polyVal (x : ℝ) : List ℝ → ℝ
  | [] => 0
  | c :: cs => c * x ^ cs.length + polyVal x cs

/-- The products of Horner's scheme are 0 or not less than the smallest normal number. -/
def HornerSteps (x a : F256) : List F256 → Prop
  | [] => True
  | c :: cs => (val a.pat * val x.pat = 0 ∨ (2 : ℝ) ^ (-262142 : ℤ) ≤ |val a.pat * val x.pat|) ∧
      ∀ z, F256.add (F256.mul a x) c = some z → HornerSteps x z cs

/-- C86: Horner's scheme never panics. -/
theorem C86_total (x a : F256) (cs : List F256) : (horner x a cs).isSome := by
  induction cs generalizing a with
  | nil => rfl
  | cons c cs ih =>
    obtain ⟨z, hz⟩ := Option.isSome_iff_exists.mp (C01_total (F256.mul a x) c).1
    rw [horner_cons, hz]
    exact ih z

theorem mul_not_fin' {a x : F256} (ha : ¬IsFin a.pat) (hx : IsFin x.pat) : ¬IsFin (F256.mul a x).pat := by
  by_cases h0 : IsZero x.pat
  · by_cases hi : IsInf a.pat
    · rw [C05_inf_zero a x (Or.inl ⟨hi, h0⟩)]
      decide
    · have hn : IsNaN a.pat := ⟨not_not.mp ha, fun hf => hi ⟨not_not.mp ha, hf⟩⟩
      rw [C05_nan a x (Or.inl hn)]
      decide
  · exact mul_not_fin ha hx h0

/-- C86: a finite result shows that no step overflowed. -/
theorem C86_sticky (x a s : F256) (cs : List F256) (hx : IsFin x.pat) (hcs : ∀ c ∈ cs, IsFin c.pat) (h : horner x a cs = some s)
    (hs : IsFin s.pat) : IsFin a.pat := by
  induction cs generalizing a with
  | nil =>
    have e : a = s := Option.some.inj h
    subst e
    exact hs
  | cons c cs ih =>
    obtain ⟨z, hz⟩ := Option.isSome_iff_exists.mp (C01_total (F256.mul a x) c).1
    rw [horner_cons, hz] at h
    by_contra ha
    exact add_not_fin (mul_not_fin' ha hx) (hcs c List.mem_cons_self) hz (ih z (fun y hy => hcs y (List.mem_cons_of_mem _ hy)) h)

theorem polyVal_step (x a c : ℝ) (cs : List ℝ) : polyVal x (a :: c :: cs) = (a * x + c) * x ^ cs.length + polyVal x cs := by
  simp only [polyVal, List.length_cons, pow_succ]
  ring

/-- Errors add up in one step of Horner's scheme. -/
theorem compound_horner {w D s z a c x : ℝ} (cs : List ℝ) (hw : 0 ≤ w) (hd : 1 ≤ D)
    (h : |s - polyVal x (z :: cs)| ≤ (D - 1) * polyVal |x| ((z :: cs).map abs))
    (h2 : |z - (a * x + c)| ≤ w * (|a| * |x| + |c|)) (hn : 0 ≤ polyVal |x| (cs.map abs)) :
    |s - polyVal x (a :: c :: cs)| ≤ (D * (1 + w) - 1) * polyVal |x| ((a :: c :: cs).map abs) := by
  have p : 0 ≤ |x| ^ cs.length := pow_nonneg (abs_nonneg _) _
  have e1 : |z| ≤ (1 + w) * (|a| * |x| + |c|) := by
    have t := abs_add_le (z - (a * x + c)) (a * x + c)
    have t2 := abs_add_le (a * x) c
    rw [sub_add_cancel] at t
    rw [abs_mul] at t2
    linarith
  rw [polyVal_step, List.map_cons, List.map_cons, polyVal_step, List.length_map]
  refine compound (z := polyVal x (z :: cs)) hd h ?_ ?_
  · show |z * x ^ cs.length + polyVal x cs - _| ≤ _
    rw [add_sub_add_right_eq_sub, ← sub_mul, abs_mul, abs_pow, mul_add, ← mul_assoc]
    have := mul_le_mul_of_nonneg_right h2 p
    have := mul_nonneg hw hn
    linarith
  · rw [List.map_cons]
    show |z| * |x| ^ (cs.map abs).length + polyVal |x| (cs.map abs) ≤ _
    rw [List.length_map]
    have := mul_le_mul_of_nonneg_right e1 p
    have := mul_nonneg hw hn
    linarith

theorem polyVal_abs_nonneg (x : ℝ) (cs : List ℝ) : 0 ≤ polyVal |x| (cs.map abs) := by
  induction cs with
  | nil => exact le_rfl
  | cons c cs ih => exact add_nonneg (mul_nonneg (abs_nonneg _) (pow_nonneg (abs_nonneg _) _)) ih

/-- One step of Horner's scheme -/
theorem horner_step {x a c z : F256} (hx : IsFin x.pat) (ha : IsFin a.pat) (hc : IsFin c.pat)
    (h : val a.pat * val x.pat = 0 ∨ (2 : ℝ) ^ (-262142 : ℤ) ≤ |val a.pat * val x.pat|)
    (hz : F256.add (F256.mul a x) c = some z) (fz : IsFin z.pat) :
    |val z.pat - (val a.pat * val x.pat + val c.pat)| ≤
      ((1 + 1 / 2 ^ 237) ^ 2 - 1) * (|val a.pat| * |val x.pat| + |val c.pat|) := by
  have fm : IsFin (F256.mul a x).pat := by
    by_contra hm
    exact add_not_fin hm hc hz fz
  have e1 := mul_rel ha hx h fm
  have e2 := add_rel fm hc hz fz
  rw [div_eq_mul_one_div] at e2
  rw [abs_mul] at e1
  have hu : (0 : ℝ) ≤ 1 / 2 ^ 237 := by norm_num
  have hA : 0 ≤ |val a.pat| * |val x.pat| := mul_nonneg (abs_nonneg _) (abs_nonneg _)
  have hC := abs_nonneg (val c.pat)
  generalize (1 : ℝ) / 2 ^ 237 = u at *
  generalize val (F256.mul a x).pat = m at *
  have hm := abs_add_le (m - val a.pat * val x.pat) (val a.pat * val x.pat)
  rw [sub_add_cancel, abs_mul (val a.pat)] at hm
  have hs := abs_add_le m (val c.pat)
  have t := abs_add_le (val z.pat - (m + val c.pat)) (m - val a.pat * val x.pat)
  rw [show val z.pat - (m + val c.pat) + (m - val a.pat * val x.pat) = val z.pat - (val a.pat * val x.pat + val c.pat) by ring] at t
  generalize |val a.pat| * |val x.pat| = A at *
  have e3 : |m + val c.pat| * u ≤ (A * (1 + u) + |val c.pat|) * u := mul_le_mul_of_nonneg_right (by linarith) hu
  have e4 : 0 ≤ u * |val c.pat| + u * u * |val c.pat| := by positivity
  have e5 : ((1 + u) ^ 2 - 1) * (A + |val c.pat|) = (A * (1 + u) + |val c.pat|) * u + A * u + (u * |val c.pat| + u * u * |val c.pat|) := by ring
  linarith

/-- C86: Horner's scheme for a polynomial of degree `n`, none of whose products underflows, is off by at most `(1 + 2^-237)^(2 n) - 1` times
the value of the polynomial with the absolute values of the coefficients at `|x|`. -/
theorem C86_error (x a s : F256) (cs : List F256) (hx : IsFin x.pat) (hcs : ∀ c ∈ cs, IsFin c.pat) (hu : HornerSteps x a cs)
    (h : horner x a cs = some s) (hs : IsFin s.pat) :
    |val s.pat - polyVal (val x.pat) ((a :: cs).map fun c => val c.pat)| ≤
      ((1 + 1 / 2 ^ 237) ^ (2 * cs.length) - 1) * polyVal |val x.pat| (((a :: cs).map fun c => val c.pat).map abs) := by
  induction cs generalizing a with
  | nil =>
    have e : a = s := Option.some.inj h
    subst e
    simp only [List.map_cons, List.map_nil, polyVal, List.length_nil, pow_zero, mul_one, add_zero, sub_self, abs_zero, mul_zero, zero_mul,
      le_refl]
  | cons c cs ih =>
    have ha := C86_sticky x a s _ hx hcs h hs
    have hc := hcs c List.mem_cons_self
    have hr : ∀ y ∈ cs, IsFin y.pat := fun y hy => hcs y (List.mem_cons_of_mem _ hy)
    obtain ⟨z, hz⟩ := Option.isSome_iff_exists.mp (C01_total (F256.mul a x) c).1
    obtain ⟨u1, u2⟩ := hu
    rw [horner_cons, hz] at h
    have i := ih z hr (u2 z hz) h
    have fz := C86_sticky x z s cs hx hr h hs
    have e := horner_step hx ha hc u1 hz fz
    have d : (1 : ℝ) ≤ (1 + 1 / 2 ^ 237) ^ (2 * cs.length) := one_le_pow₀ (by norm_num)
    rw [show 2 * (c :: cs).length = 2 * cs.length + 2 by rw [List.length_cons]; ring, pow_add]
    have n1 := polyVal_abs_nonneg (val x.pat) (cs.map fun c => val c.pat)
    have hw : (0 : ℝ) ≤ (1 + 1 / 2 ^ 237) ^ 2 - 1 := by norm_num
    have m1 : ∀ y : F256, ∀ ys : List F256, (y :: ys).map (fun c => val c.pat) = val y.pat :: ys.map fun c => val c.pat := fun _ _ => rfl
    rw [m1] at i
    rw [m1, m1]
    have e1 : (1 + 1 / 2 ^ 237 : ℝ) ^ 2 = 1 + ((1 + 1 / 2 ^ 237) ^ 2 - 1) := (add_sub_cancel _ _).symm
    rw [e1]
    clear e1 ih
    generalize (1 + 1 / 2 ^ 237 : ℝ) ^ (2 * cs.length) = D at *
    generalize (1 + 1 / 2 ^ 237 : ℝ) ^ 2 - 1 = w at *
    exact compound_horner _ hw d i e n1

/-- The test `x^2 + 1` at 1: the coefficients are 1, 0, 1. -/
example : HornerSteps F256.ONE F256.ONE [F256.ZERO, F256.ONE] := by
  have one : (2 : ℝ) ^ (-262142 : ℤ) ≤ |val F256.ONE.pat * val F256.ONE.pat| := by
    rw [val_ONE, mul_one, abs_one]
    exact zpow_le_one_of_nonpos₀ (by norm_num) (by norm_num)
  refine ⟨Or.inr one, fun z hz => ⟨?_, fun _ _ => trivial⟩⟩
  rw [show F256.add (F256.mul F256.ONE F256.ONE) F256.ZERO = some F256.ONE by decide +kernel, Option.some.injEq] at hz
  subst hz
  exact Or.inr one

example : (horner F256.ONE F256.ONE [F256.ZERO, F256.ONE]) = some F256.TWO := by decide +kernel

end Verif.Props
