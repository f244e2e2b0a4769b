import Verif.Props.DotNorm

/-!
# C98: sums computed in any order, such as pairwise or in parallel
-/

set_option exponentiation.threshold 2000

namespace Verif.Props

open Verif Spec

/-- An expression that adds numbers, with any placement of parentheses -/
inductive SumTree where
  | leaf (x : F256)
  | node (l r : SumTree)

/-- The value as computed -/
def SumTree.eval : SumTree → Option F256
  | leaf x => some x
  | node l r => do F256.add (← l.eval) (← r.eval)

/-- The largest number of additions a term takes part in -/
def SumTree.depth : SumTree → ℕ
  | leaf _ => 0
  | node l r => max l.depth r.depth + 1

/-- The terms from left to right -/
def SumTree.terms : SumTree → List F256
  | leaf x => [x]
  | node l r => l.terms ++ r.terms

theorem exactSum_append (xs ys : List F256) : exactSum (xs ++ ys) = exactSum xs + exactSum ys := by
  rw [exactSum, List.map_append, List.sum_append, exactSum, exactSum]

theorem absSum_append (xs ys : List F256) : absSum (xs ++ ys) = absSum xs + absSum ys := by
  rw [absSum, List.map_append, List.sum_append, absSum, absSum]

theorem abs_exactSum_le (xs : List F256) : |exactSum xs| ≤ absSum xs := by
  induction xs with
  | nil => rw [exactSum, List.map_nil, List.sum_nil, abs_zero]; exact absSum_nonneg []
  | cons x xs ih =>
    rw [exactSum_cons, absSum_cons]
    exact (abs_add_le _ _).trans (by linarith)

/-- C98: the computation never panics. -/
theorem C98_total (t : SumTree) : t.eval.isSome := by
  induction t with
  | leaf x => rfl
  | node l r hl hr =>
    obtain ⟨a, ha⟩ := Option.isSome_iff_exists.mp hl
    obtain ⟨b, hb⟩ := Option.isSome_iff_exists.mp hr
    have e : (SumTree.node l r).eval = F256.add a b := by
      rw [SumTree.eval, ha, hb]
      rfl
    rw [e]
    exact (C01_total a b).1

/-- C98: a finite result differs from the exact sum of the terms by at most `(1 + 2^-237)^d - 1` times the sum of their absolute values, where `d` is the
depth of the expression. -/
theorem C98_error (t : SumTree) (s : F256) (h : t.eval = some s) (hs : IsFin s.pat) :
    |val s.pat - exactSum t.terms| ≤ ((1 + 1 / 2 ^ 237) ^ t.depth - 1) * absSum t.terms := by
  induction t generalizing s with
  | leaf x =>
    have e : x = s := Option.some.inj h
    subst e
    rw [SumTree.terms, SumTree.depth, exactSum_cons, exactSum, List.map_nil, List.sum_nil, add_zero, sub_self, abs_zero, pow_zero, sub_self, zero_mul]
  | node l r hl hr =>
    obtain ⟨a, ha⟩ := Option.isSome_iff_exists.mp (C98_total l)
    obtain ⟨b, hb⟩ := Option.isSome_iff_exists.mp (C98_total r)
    have e : F256.add a b = some s := by
      rw [SumTree.eval, ha, hb] at h
      exact h
    obtain ⟨fa, fb⟩ := add_fin e hs
    have h1 := hl a ha fa
    have h2 := hr b hb fb
    have h3 := add_rel fa fb e hs
    rw [SumTree.terms, SumTree.depth, exactSum_append, absSum_append]
    have p1 := abs_exactSum_le l.terms
    have p2 := abs_exactSum_le r.terms
    have q1 := absSum_nonneg l.terms
    have q2 := absSum_nonneg r.terms
    obtain ⟨u, hu⟩ : ∃ u : ℝ, u = 1 / 2 ^ 237 := ⟨_, rfl⟩
    have u0 : 0 ≤ u := by rw [hu]; positivity
    rw [div_eq_mul_one_div] at h3
    rw [← hu] at h1 h2 h3 ⊢
    have d1 : (1 + u) ^ l.depth ≤ (1 + u) ^ max l.depth r.depth := pow_le_pow_right₀ (by linarith) (le_max_left _ _)
    have d2 : (1 + u) ^ r.depth ≤ (1 + u) ^ max l.depth r.depth := pow_le_pow_right₀ (by linarith) (le_max_right _ _)
    rw [pow_succ]
    generalize (1 + u) ^ max l.depth r.depth = E at d1 d2 ⊢
    generalize (1 + u) ^ l.depth = E1 at h1 d1
    generalize (1 + u) ^ r.depth = E2 at h2 d2
    have k1 : |val a.pat - exactSum l.terms| ≤ (E - 1) * absSum l.terms :=
      h1.trans (mul_le_mul_of_nonneg_right (by linarith) q1)
    have k2 : |val b.pat - exactSum r.terms| ≤ (E - 1) * absSum r.terms :=
      h2.trans (mul_le_mul_of_nonneg_right (by linarith) q2)
    have m1 : |val a.pat + val b.pat| ≤ E * (absSum l.terms + absSum r.terms) := by
      have := abs_add_le (val a.pat - exactSum l.terms) (exactSum l.terms)
      have := abs_add_le (val b.pat - exactSum r.terms) (exactSum r.terms)
      rw [sub_add_cancel] at *
      have := abs_add_le (val a.pat) (val b.pat)
      linarith
    have m2 := mul_le_mul_of_nonneg_right m1 u0
    have e1 : val s.pat - (exactSum l.terms + exactSum r.terms) = (val s.pat - (val a.pat + val b.pat)) +
      ((val a.pat - exactSum l.terms) + (val b.pat - exactSum r.terms)) := by ring
    rw [e1]
    have m3 := abs_add_le (val s.pat - (val a.pat + val b.pat)) ((val a.pat - exactSum l.terms) + (val b.pat - exactSum r.terms))
    have m4 := abs_add_le (val a.pat - exactSum l.terms) (val b.pat - exactSum r.terms)
    linarith

/-- The tree that adds `2^n` equal terms pairwise -/
def pairwiseTree (x : F256) : ℕ → SumTree
  | 0 => .leaf x
  | n + 1 => .node (pairwiseTree x n) (pairwiseTree x n)

/-- Eight ones added pairwise: three levels, eight terms, and the result 8 -/
example : (pairwiseTree F256.ONE 3).depth = 3 ∧ (pairwiseTree F256.ONE 3).terms.length = 8 ∧
    (pairwiseTree F256.ONE 3).eval = some ⟨U256.new 0x40002000000000000000000000000000#128 0#128⟩ := by decide +kernel

end Verif.Props
