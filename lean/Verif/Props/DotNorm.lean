import Verif.Props.Horner
import Verif.Props.Normalise

/-!
# C88: the rounding errors of scalar products and of the length of vectors of any dimension
-/

set_option exponentiation.threshold 2000

namespace Verif.Props

open Verif Spec

theorem add_fin {a x z : F256} (h : F256.add a x = some z) (hz : IsFin z.pat) : IsFin a.pat ∧ IsFin x.pat := by
  have nan : ∀ w : F256, ¬IsFin w.pat → ¬IsInf w.pat → IsNaN w.pat := fun w h1 h2 => ⟨not_not.mp h1, fun h3 => h2 ⟨not_not.mp h1, h3⟩⟩
  by_cases hx : IsFin x.pat
  · exact ⟨by_contra fun ha => add_not_fin ha hx h hz, hx⟩
  exfalso
  by_cases hi : IsInf x.pat
  · by_cases ha : IsFin a.pat
    · rw [(C03_inf_finite x a hi ha).2, Option.some.injEq] at h
      subst h
      exact hx hz
    by_cases ja : IsInf a.pat
    · by_cases hs : signBit a.pat = signBit x.pat
      · rw [C03_inf_same a x ja hi hs, Option.some.injEq] at h
        subst h
        exact ha hz
      · rw [C03_inf_opposite a x ja hi hs, Option.some.injEq] at h
        subst h
        exact absurd hz (by decide)
    · rw [(C03_nan a x (Or.inl (nan a ha ja))).1, Option.some.injEq] at h
      subst h
      exact absurd hz (by decide)
  · rw [(C03_nan a x (Or.inr (nan x hx hi))).1, Option.some.injEq] at h
    subst h
    exact absurd hz (by decide)

/-- A finite sum has finite terms only. -/
theorem runningSum_fin {a s : F256} {xs : List F256} (h : runningSum a xs = some s) (hs : IsFin s.pat) :
    IsFin a.pat ∧ ∀ x ∈ xs, IsFin x.pat := by
  induction xs generalizing a with
  | nil =>
    have e : a = s := Option.some.inj h
    subst e
    exact ⟨hs, fun _ h => absurd h List.not_mem_nil⟩
  | cons x xs ih =>
    obtain ⟨z, hz⟩ := Option.isSome_iff_exists.mp (C01_total a x).1
    rw [runningSum_cons, hz] at h
    obtain ⟨h1, h2⟩ := ih h
    obtain ⟨h3, h4⟩ := add_fin hz h1
    refine ⟨h3, fun y hy => ?_⟩
    rcases List.mem_cons.mp hy with e | e
    · rw [e]; exact h4
    · exact h2 y e

/-- The loop `for (x, y) in ps { a += x * y }`, starting with 0 -/
def dot (ps : List (F256 × F256)) : Option F256 := runningSum F256.ZERO (ps.map fun p => F256.mul p.1 p.2)

/-- The exact scalar product -/
noncomputable def exactDot (ps : List (F256 × F256)) : ℝ := (ps.map fun p => val p.1.pat * val p.2.pat).sum

/-- The sum of the absolute values of the products -/
noncomputable def absDot (ps : List (F256 × F256)) : ℝ := (ps.map fun p => |val p.1.pat * val p.2.pat|).sum

/-- Finite components whose products are 0 or not less than the smallest normal number -/
def DotOk (ps : List (F256 × F256)) : Prop := ∀ p ∈ ps, IsFin p.1.pat ∧ IsFin p.2.pat ∧
  (val p.1.pat * val p.2.pat = 0 ∨ (2 : ℝ) ^ (-262142 : ℤ) ≤ |val p.1.pat * val p.2.pat|)

theorem products_near (ps : List (F256 × F256)) (h : DotOk ps) (hf : ∀ x ∈ ps.map (fun p => F256.mul p.1 p.2), IsFin x.pat) :
    |exactSum (ps.map fun p => F256.mul p.1 p.2) - exactDot ps| ≤ 1 / 2 ^ 237 * absDot ps ∧
    absSum (ps.map fun p => F256.mul p.1 p.2) ≤ (1 + 1 / 2 ^ 237) * absDot ps := by
  induction ps with
  | nil => simp [exactSum, exactDot, absDot, absSum]
  | cons p ps ih =>
    obtain ⟨i1, i2⟩ := ih (fun q hq => h q (List.mem_cons_of_mem _ hq))
      (fun q hq => hf q (by rw [List.map_cons]; exact List.mem_cons_of_mem _ hq))
    obtain ⟨h1, h2, h3⟩ := h p List.mem_cons_self
    have e := mul_rel h1 h2 h3 (hf _ (by rw [List.map_cons]; exact List.mem_cons_self))
    rw [List.map_cons, exactSum_cons, absSum_cons]
    have d1 : exactDot (p :: ps) = val p.1.pat * val p.2.pat + exactDot ps := by
      rw [exactDot, List.map_cons, List.sum_cons, exactDot]
    have d2 : absDot (p :: ps) = |val p.1.pat * val p.2.pat| + absDot ps := by
      rw [absDot, List.map_cons, List.sum_cons, absDot]
    rw [d1, d2]
    generalize (1 / 2 ^ 237 : ℝ) = u at *
    generalize val p.1.pat * val p.2.pat = q at *
    generalize val (F256.mul p.1 p.2).pat = m at *
    constructor
    · rw [add_sub_add_comm]
      have := abs_add_le (m - q) (exactSum (ps.map fun p => F256.mul p.1 p.2) - exactDot ps)
      linarith
    · have := abs_add_le (m - q) q
      rw [sub_add_cancel] at this
      linarith

/-- C88: a finite scalar product of two vectors of dimension `n`, calculated without underflow, is off by at most
`(1 + 2^-237)^(n + 1) - 1` times the sum of the absolute values of the products. A finite result shows that nothing overflowed. -/
theorem C88_dot (ps : List (F256 × F256)) (s : F256) (h : DotOk ps) (hd : dot ps = some s) (hs : IsFin s.pat) :
    |val s.pat - exactDot ps| ≤ ((1 + 1 / 2 ^ 237) ^ (ps.length + 1) - 1) * absDot ps := by
  obtain ⟨-, hf⟩ := runningSum_fin hd hs
  have e := C84_error _ _ _ hf hd hs
  obtain ⟨p1, p2⟩ := products_near ps h hf
  rw [val_zero (N := F256.ZERO.pat) (by decide), abs_zero, zero_add, zero_add, List.length_map] at e
  have d : (1 : ℝ) ≤ (1 + 1 / 2 ^ 237) ^ ps.length := one_le_pow₀ (by norm_num)
  rw [pow_succ]
  exact compound d e p1 p2

/-- C88: scalar products never panic. -/
theorem C88_total (ps : List (F256 × F256)) : (dot ps).isSome := C84_total _ _

/-! ## Lengths -/

/-- The length of a vector: the square root of the scalar product with itself -/
def norm (xs : List F256) : Option F256 := (dot (xs.map fun x => (x, x))).bind F256.sqrt

/-- The exact length -/
noncomputable def exactNorm (xs : List F256) : ℝ := Real.sqrt ((xs.map fun x => val x.pat ^ 2).sum)

theorem runningSum_nonneg {a s : F256} {xs : List F256} (ha : 0 ≤ val a.pat) (hx : ∀ x ∈ xs, 0 ≤ val x.pat)
    (h : runningSum a xs = some s) (hs : IsFin s.pat) : 0 ≤ val s.pat := by
  induction xs generalizing a with
  | nil =>
    have e : a = s := Option.some.inj h
    subst e
    exact ha
  | cons x xs ih =>
    obtain ⟨z, hz⟩ := Option.isSome_iff_exists.mp (C01_total a x).1
    rw [runningSum_cons, hz] at h
    have fz := (runningSum_fin h hs).1
    obtain ⟨fa, fx⟩ := add_fin hz fz
    have x0 := hx x List.mem_cons_self
    have e := add_rel fa fx hz fz
    rw [abs_of_nonneg (add_nonneg ha x0)] at e
    have e2 : (val a.pat + val x.pat) / 2 ^ 237 ≤ val a.pat + val x.pat := div_le_self (add_nonneg ha x0) (by norm_num)
    exact ih (by linarith [(abs_le.mp e).1]) (fun y hy => hx y (List.mem_cons_of_mem _ hy)) h

/-- The square root of a finite number that is not negative has the relative error of correct rounding. -/
theorem sqrt_rel {x : F256} (hx : IsFin x.pat) (h0 : 0 ≤ val x.pat) :
    ∃ z, F256.sqrt x = some z ∧ IsFin z.pat ∧ |val z.pat - Real.sqrt (val x.pat)| ≤ 1 / 2 ^ 237 * Real.sqrt (val x.pat) := by
  rcases h0.eq_or_lt with e | hp
  · have hz : IsZero x.pat := (val_eq_zero_iff hx).mp e.symm
    refine ⟨x, (C11_special x).1 hz, hx, ?_⟩
    rw [← e, Real.sqrt_zero, sub_zero, abs_zero, mul_zero]
  · obtain ⟨z, hz, rz⟩ := C11_sqrt x hx hp
    have s0 : 0 < Real.sqrt (val x.pat) := Real.sqrt_pos.mpr hp
    have hslt : |Real.sqrt (val x.pat)| < overflowThreshold := by
      rw [abs_of_pos s0]
      rcases le_or_gt (val x.pat) 1 with h1 | h1
      · have h3 := abs_val_lt (pat_lt F256.ONE) (by decide)
        rw [val_ONE, abs_one] at h3
        exact lt_of_le_of_lt (Real.sqrt_le_one.mpr h1) h3
      · refine lt_of_le_of_lt ?_ (lt_of_le_of_lt (le_abs_self _) (abs_val_lt (pat_lt x) hx))
        rw [Real.sqrt_le_left hp.le]
        nlinarith
    refine ⟨z, hz, rz.fin hslt, ?_⟩
    have r := IsRNE.rel_error rz ?_ hslt
    · rw [abs_of_pos s0] at r
      rw [one_div_mul_eq_div]
      exact r
    · rw [abs_of_pos s0]
      have hK : (0 : ℝ) < 2 ^ 262378 := by positivity
      have h1 : (1 : ℝ) ≤ val x.pat * 2 ^ 262378 := by
        rw [val_smag, div_mul_cancel₀ _ hK.ne']
        rw [val_smag] at hp
        have : (0 : ℝ) < (smag x.pat : ℝ) := by
          by_contra hc
          exact absurd hp (not_lt.mpr (div_nonpos_of_nonpos_of_nonneg (not_lt.mp hc) hK.le))
        have : (0 : ℤ) < smag x.pat := by exact_mod_cast this
        have : (1 : ℤ) ≤ smag x.pat := this
        exact_mod_cast this
      have h2 : (1 : ℝ) / 2 ^ 131189 ≤ Real.sqrt (val x.pat) := by
        rw [Real.le_sqrt' (by positivity), div_pow, one_pow, ← pow_mul, div_le_iff₀ (by positivity)]
        exact h1
      have e3 : (2 : ℝ) ^ 262378 = 2 ^ 131189 * 2 ^ 131189 := by rw [← pow_add]
      have h4 : (2 : ℝ) ^ 236 ≤ 2 ^ 131189 := pow_le_pow_right₀ (by norm_num) (by norm_num)
      rw [div_le_iff₀ (by positivity)] at h2
      rw [e3, ← mul_assoc]
      have hk : (0 : ℝ) < 2 ^ 131189 := by positivity
      generalize (2 : ℝ) ^ 131189 = K at *
      exact h4.trans (le_mul_of_one_le_left hk.le h2)

theorem sqrt_near {q s W : ℝ} (hq : 0 ≤ q) (hs : 0 ≤ s) (h : |s - q| ≤ (W - 1) * q) :
    |Real.sqrt s - Real.sqrt q| ≤ (W - 1) * Real.sqrt q := by
  rcases hq.eq_or_lt with e | hp
  · rw [← e, mul_zero, sub_zero, abs_of_nonneg hs] at h
    rw [le_antisymm h hs, ← e, Real.sqrt_zero, sub_self, abs_zero, mul_zero]
  · have r := Real.sqrt_pos.mpr hp
    have t := Real.sqrt_nonneg s
    have e1 : s - q = (Real.sqrt s - Real.sqrt q) * (Real.sqrt s + Real.sqrt q) := by
      nlinarith [Real.mul_self_sqrt hs, Real.mul_self_sqrt hq]
    rw [e1, abs_mul, abs_of_pos (by linarith : 0 < Real.sqrt s + Real.sqrt q)] at h
    have e2 : (W - 1) * q = (W - 1) * Real.sqrt q * Real.sqrt q := by rw [mul_assoc, Real.mul_self_sqrt hq]
    rw [e2] at h
    have e3 : |Real.sqrt s - Real.sqrt q| * Real.sqrt q ≤ |Real.sqrt s - Real.sqrt q| * (Real.sqrt s + Real.sqrt q) :=
      mul_le_mul_of_nonneg_left (by linarith) (abs_nonneg _)
    exact le_of_mul_le_mul_right (e3.trans h) r

theorem dot_self (xs : List F256) : exactDot (xs.map fun x => (x, x)) = (xs.map fun x => val x.pat ^ 2).sum ∧
    absDot (xs.map fun x => (x, x)) = (xs.map fun x => val x.pat ^ 2).sum := by
  constructor
  · rw [exactDot, List.map_map]
    congr 2
    funext x
    exact (sq _).symm
  · rw [absDot, List.map_map]
    congr 2
    funext x
    show |val x.pat * val x.pat| = _
    rw [abs_mul_self, sq]

/-- C88: the length of a vector of dimension `n`, calculated without underflow or overflow of the squares, has a relative error of at most
`(1 + 2^-237)^(n + 2) - 1`. -/
theorem C88_norm (xs : List F256) (h : ∀ x ∈ xs, IsFin x.pat ∧ (val x.pat = 0 ∨ (2 : ℝ) ^ (-262142 : ℤ) ≤ val x.pat ^ 2)) (s : F256)
    (hd : dot (xs.map fun x => (x, x)) = some s) (hs : IsFin s.pat) :
    ∃ r, norm xs = some r ∧ IsFin r.pat ∧ |val r.pat - exactNorm xs| ≤ ((1 + 1 / 2 ^ 237) ^ (xs.length + 2) - 1) * exactNorm xs := by
  have ok : DotOk (xs.map fun x => (x, x)) := by
    intro p hp
    obtain ⟨x, hx, rfl⟩ := List.mem_map.mp hp
    obtain ⟨h1, h2⟩ := h x hx
    refine ⟨h1, h1, ?_⟩
    rcases h2 with h2 | h2
    · left; show val x.pat * val x.pat = 0; rw [h2, mul_zero]
    · right; show _ ≤ |val x.pat * val x.pat|; rw [abs_mul_self, ← sq]; exact h2
  have e := C88_dot _ s ok hd hs
  rw [(dot_self xs).1, (dot_self xs).2, List.length_map] at e
  have s0 : 0 ≤ val s.pat := by
    refine runningSum_nonneg (val_zero (N := F256.ZERO.pat) (by decide)).ge ?_ hd hs
    intro y hy
    obtain ⟨p, hp, rfl⟩ := List.mem_map.mp hy
    obtain ⟨x, hx, rfl⟩ := List.mem_map.mp hp
    exact square_nonneg x (h x hx).1
  have q0 : 0 ≤ (xs.map fun x => val x.pat ^ 2).sum := by
    refine List.sum_nonneg fun y hy => ?_
    obtain ⟨x, -, rfl⟩ := List.mem_map.mp hy
    exact sq_nonneg _
  obtain ⟨r, r1, r2, r3⟩ := sqrt_rel hs s0
  refine ⟨r, by rw [norm, hd]; exact r1, r2, ?_⟩
  have k := sqrt_near q0 s0 e
  rw [← exactNorm] at k
  have d : (1 : ℝ) ≤ (1 + 1 / 2 ^ 237) ^ (xs.length + 1) := one_le_pow₀ (by norm_num)
  rw [show xs.length + 2 = (xs.length + 1) + 1 from rfl, pow_succ]
  have hu : (0 : ℝ) ≤ 1 / 2 ^ 237 := by norm_num
  generalize (1 + 1 / 2 ^ 237 : ℝ) ^ (xs.length + 1) = D at *
  generalize (1 / 2 ^ 237 : ℝ) = u at *
  have t1 := abs_add_le (val r.pat - Real.sqrt (val s.pat)) (Real.sqrt (val s.pat) - exactNorm xs)
  rw [sub_add_sub_cancel] at t1
  have t2 : Real.sqrt (val s.pat) ≤ D * exactNorm xs := by linarith [(abs_le.mp k).2]
  have t3 := mul_le_mul_of_nonneg_left t2 hu
  have t4 : (D * (1 + u) - 1) * exactNorm xs = u * (D * exactNorm xs) + (D - 1) * exactNorm xs := by ring
  linarith

/-- A vector of ones, of any dimension, meets the conditions on the components. -/
example (n : ℕ) : ∀ x ∈ List.replicate n F256.ONE, IsFin x.pat ∧ (val x.pat = 0 ∨ (2 : ℝ) ^ (-262142 : ℤ) ≤ val x.pat ^ 2) := by
  intro x hx
  rw [List.eq_of_mem_replicate hx]
  refine ⟨by decide, Or.inr ?_⟩
  rw [val_ONE, one_pow]
  exact zpow_le_one_of_nonpos₀ (by norm_num) (by norm_num)

/-- Test: the vector `(1, 1, 1, -1)` has the length 2. -/
example : dot ([F256.ONE, F256.ONE, F256.ONE, F256.NEG_ONE].map fun x => (x, x)) = F256.add F256.TWO F256.TWO ∧
    norm [F256.ONE, F256.ONE, F256.ONE, F256.NEG_ONE] = some F256.TWO := by decide +kernel

end Verif.Props
