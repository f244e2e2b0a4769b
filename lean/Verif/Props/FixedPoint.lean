import Verif.Props.Bisection

/-!
# C97: sums of fixed-point numbers of any length are exact
-/

set_option exponentiation.threshold 2000

namespace Verif.Props

open Verif Spec

theorem fixed_sum {e : ℤ} (h1 : -262378 ≤ e) (h2 : e ≤ 261906) (xs : List F256) (ms : List ℤ)
    (h : List.Forall₂ (fun (x : F256) (m : ℤ) => IsFin x.pat ∧ val x.pat = m * (2 : ℝ) ^ e) xs ms) (a : F256) (n : ℤ) (ha : IsFin a.pat)
    (va : val a.pat = n * (2 : ℝ) ^ e) (hb : |n| + (ms.map fun m => |m|).sum ≤ 2 ^ 237) :
    ∃ s, runningSum a xs = some s ∧ IsFin s.pat ∧ val s.pat = (n + ms.sum : ℤ) * (2 : ℝ) ^ e := by
  induction h generalizing a n with
  | nil => exact ⟨a, rfl, ha, by rw [va, List.sum_nil, add_zero]⟩
  | @cons x m xs ms hx _ ih =>
    rw [List.map_cons, List.sum_cons] at hb
    have h0 : 0 ≤ (ms.map fun m => |m|).sum := List.sum_nonneg (by
      intro k hk
      obtain ⟨m, -, rfl⟩ := List.mem_map.mp hk
      exact abs_nonneg m)
    have h3 := abs_add_le n m
    obtain ⟨w, fw, vw⟩ := exists_dyadic (c := n + m) (e := e) (by omega) h1 h2
    obtain ⟨z, hz, fz, vz⟩ := (C74_add a x w ha hx.1 fw).1 (by rw [va, hx.2, vw, Int.cast_add, add_mul])
    obtain ⟨s, k1, k2, k3⟩ := ih z (n + m) fz (by rw [vz, vw]) (by omega)
    refine ⟨s, by rw [runningSum_cons, hz]; exact k1, k2, ?_⟩
    rw [k3, List.sum_cons, add_assoc]

/-- C97: if all terms are multiples of one power of two, such as integers, amounts with a fixed number of binary places or `f32` values, and the absolute
values of the multipliers add up to at most 2^237, then the sum is exact. -/
theorem C97_exact (e : ℤ) (h1 : -262378 ≤ e) (h2 : e ≤ 261906) (xs : List F256) (ms : List ℤ)
    (h : List.Forall₂ (fun (x : F256) (m : ℤ) => IsFin x.pat ∧ val x.pat = m * (2 : ℝ) ^ e) xs ms)
    (hb : (ms.map fun m => |m|).sum ≤ 2 ^ 237) :
    ∃ s, runningSum F256.ZERO xs = some s ∧ IsFin s.pat ∧ val s.pat = exactSum xs := by
  obtain ⟨s, k1, k2, k3⟩ := fixed_sum h1 h2 xs ms h F256.ZERO 0 (by decide)
    (by rw [val_zero (by decide), Int.cast_zero, zero_mul]) (by rw [abs_zero, zero_add]; exact hb)
  refine ⟨s, k1, k2, ?_⟩
  rw [k3, zero_add]
  clear k1 k2 k3 hb
  induction h with
  | nil => rw [List.sum_nil, Int.cast_zero, zero_mul]; rfl
  | cons hx _ ih => rw [exactSum_cons, hx.2, ← ih, List.sum_cons, Int.cast_add, add_mul]

theorem exactSum_perm {xs ys : List F256} (h : xs.Perm ys) : exactSum xs = exactSum ys := (h.map _).sum_eq

theorem forall₂_perm {R : F256 → ℤ → Prop} {xs ys : List F256} (h : xs.Perm ys) : ∀ ms : List ℤ, List.Forall₂ R xs ms →
    ∃ ns, ms.Perm ns ∧ List.Forall₂ R ys ns := by
  induction h with
  | nil => exact fun ms hm => ⟨ms, List.Perm.refl _, hm⟩
  | cons x _ ih =>
    intro ms hm
    obtain ⟨m, ms', h1, h2, rfl⟩ := List.forall₂_cons_left_iff.mp hm
    obtain ⟨ns, p, q⟩ := ih ms' h2
    exact ⟨m :: ns, p.cons m, List.Forall₂.cons h1 q⟩
  | swap x y l =>
    intro ms hm
    obtain ⟨m, ms', h1, h2, rfl⟩ := List.forall₂_cons_left_iff.mp hm
    obtain ⟨m', ms'', h3, h4, rfl⟩ := List.forall₂_cons_left_iff.mp h2
    exact ⟨m' :: m :: ms'', List.Perm.swap _ _ _, List.Forall₂.cons h3 (List.Forall₂.cons h1 h4)⟩
  | trans _ _ ih1 ih2 =>
    intro ms hm
    obtain ⟨ns, p, q⟩ := ih1 ms hm
    obtain ⟨ks, p', q'⟩ := ih2 ns q
    exact ⟨ks, p.trans p', q'⟩

/-- C97: the order of summation does not matter for such numbers, although addition is not associative. -/
theorem C97_order (e : ℤ) (h1 : -262378 ≤ e) (h2 : e ≤ 261906) (xs ys : List F256) (ms : List ℤ)
    (h : List.Forall₂ (fun (x : F256) (m : ℤ) => IsFin x.pat ∧ val x.pat = m * (2 : ℝ) ^ e) xs ms)
    (hb : (ms.map fun m => |m|).sum ≤ 2 ^ 237) (hp : xs.Perm ys) :
    ∃ s t, runningSum F256.ZERO xs = some s ∧ runningSum F256.ZERO ys = some t ∧ F256.eq s t = true := by
  obtain ⟨ns, p, q⟩ := forall₂_perm hp ms h
  obtain ⟨s, s1, s2, s3⟩ := C97_exact e h1 h2 xs ms h hb
  obtain ⟨t, t1, t2, t3⟩ := C97_exact e h1 h2 ys ns q (by rw [← (p.map fun m => |m|).sum_eq]; exact hb)
  refine ⟨s, t, s1, t1, ?_⟩
  rw [eq_fin s2 t2, s3, t3, exactSum_perm hp]

/-- The numbers 1, 2, 1 meet the conditions. -/
example : List.Forall₂ (fun (x : F256) (m : ℤ) => IsFin x.pat ∧ val x.pat = m * (2 : ℝ) ^ (0 : ℤ)) [F256.ONE, F256.TWO, F256.ONE] [1, 2, 1] ∧
    (([1, 2, 1] : List ℤ).map fun m => |m|).sum ≤ 2 ^ 237 := by
  have e1 : IsFin F256.ONE.pat ∧ val F256.ONE.pat = ((1 : ℤ) : ℝ) * (2 : ℝ) ^ (0 : ℤ) := ⟨by decide, by rw [val_ONE]; norm_num⟩
  have e2 : IsFin F256.TWO.pat ∧ val F256.TWO.pat = ((2 : ℤ) : ℝ) * (2 : ℝ) ^ (0 : ℤ) := ⟨by decide, by rw [val_TWO]; norm_num⟩
  exact ⟨.cons e1 (.cons e2 (.cons e1 .nil)), by decide⟩

end Verif.Props
