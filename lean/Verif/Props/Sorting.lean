import Verif.Props.Extremes
import Mathlib.Data.List.Sort

/-!
# C94: sorting lists with `total_cmp`
-/

namespace Verif.Props

open Verif Spec

/-- The relation that `sort_by(f256::total_cmp)` establishes between an element and all later ones -/
def NotAfter (x y : F256) : Prop := F256.totalCmp x y ≠ .gt

instance : DecidableRel NotAfter := fun x y => inferInstanceAs (Decidable (F256.totalCmp x y ≠ .gt))

instance : IsTrans F256 NotAfter := ⟨fun x y z => C14_trans x y z⟩

instance : Std.Total NotAfter := ⟨fun x y => by
  unfold NotAfter
  rw [C14_swap x y]
  cases F256.totalCmp x y
  · exact Or.inl (by decide)
  · exact Or.inl (by decide)
  · exact Or.inr (by decide)⟩

instance : Std.Antisymm NotAfter := ⟨fun x y h1 h2 => by
  unfold NotAfter at h1 h2
  rw [C14_swap x y] at h2
  rw [← C14_refl_antisymm]
  cases h : F256.totalCmp x y
  · rw [h] at h2
    exact absurd rfl h2
  · rfl
  · exact absurd h h1⟩

/-- C94: every list, NaNs included, can be brought into the order of `total_cmp`, and the result does not depend on how this is done, not even on
whether the sorting method is stable. -/
theorem C94_sort (xs : List F256) : ∃ ys : List F256, ys.Perm xs ∧ ys.Pairwise (fun x y => F256.totalCmp x y ≠ .gt) ∧
    ∀ zs : List F256, zs.Perm xs → zs.Pairwise (fun x y => F256.totalCmp x y ≠ .gt) → zs = ys :=
  ⟨xs.insertionSort NotAfter, List.perm_insertionSort _ _, List.pairwise_insertionSort NotAfter xs, fun _ h1 h2 =>
    List.Perm.eq_of_pairwise' (r := NotAfter) h2 (List.pairwise_insertionSort NotAfter xs)
      (h1.trans (List.perm_insertionSort NotAfter xs).symm)⟩

theorem rank_of_notAfter {x y : F256} (h : F256.totalCmp x y ≠ .gt) (hs : signBit x.pat = 0 ∨ signBit y.pat = 0) :
    totalRank x.pat ≤ totalRank y.pat := by
  rw [C14_totalOrder_partial x y hs] at h
  exact not_lt.mp fun c => h (compare_gt_iff_gt.mpr c)

/-- C94 (partial: two negative numbers excepted): the result is in ascending order. Missing: numbers with the sign bit set, which are in descending order
(`C94_negatives`, `C94_counterexample`). -/
theorem C94_ascending_partial (ys : List F256) (h : ys.Pairwise (fun x y => F256.totalCmp x y ≠ .gt)) :
    ys.Pairwise (fun x y => ¬IsNaN x.pat → ¬IsNaN y.pat → signBit x.pat = 0 ∨ signBit y.pat = 0 → extVal x.pat ≤ extVal y.pat) := by
  refine h.imp fun {x y} hxy nx ny hs => ?_
  have hr := rank_of_notAfter hxy hs
  refine not_lt.mp fun c => ?_
  rw [extVal_lt_iff ny nx] at c
  unfold totalRank at hr
  unfold spos at c
  rcases signBit_cases x.pat with sx | sx <;> rcases signBit_cases y.pat with sy | sy <;> simp only [sx, sy] at hr c hs <;> simp at hr c hs <;> omega

/-- C94: the numbers with the sign bit set come first, and they are in descending order. -/
theorem C94_negatives (ys : List F256) (h : ys.Pairwise (fun x y => F256.totalCmp x y ≠ .gt)) :
    ys.Pairwise (fun x y => (signBit y.pat = 1 → signBit x.pat = 1) ∧
      (¬IsNaN x.pat → ¬IsNaN y.pat → signBit x.pat = 1 → signBit y.pat = 1 → extVal y.pat ≤ extVal x.pat)) := by
  refine h.imp fun {x y} hxy => ⟨fun sy => ?_, fun nx ny sx sy => ?_⟩
  · rcases signBit_cases x.pat with sx | sx
    · have hr := rank_of_notAfter hxy (Or.inl sx)
      unfold totalRank at hr
      simp only [sx, sy] at hr
      simp at hr
      omega
    · exact sx
  · have h3 := mt (totalCmp_spec x y).2.2.mpr hxy
    rw [if_pos ⟨sx, sy⟩] at h3
    refine not_lt.mp fun c => ?_
    rw [extVal_lt_iff nx ny] at c
    unfold spos at c
    simp only [sx, sy] at c
    simp at c
    omega

/-- C94 is false of the code in general: sorting -2, 1, -1 gives -1, -2, 1. -/
theorem C94_counterexample :
    [F256.TWO.negated, F256.ONE, F256.ONE.negated].insertionSort NotAfter = [F256.ONE.negated, F256.TWO.negated, F256.ONE] ∧
    extVal F256.TWO.negated.pat < extVal F256.ONE.negated.pat := by
  refine ⟨by decide, ?_⟩
  rw [extVal_lt_iff (by decide) (by decide)]
  decide

/-- A sorted list with a negative number -/
example : [F256.ONE.negated, F256.ZERO, F256.ONE, F256.TWO, F256.NAN].Pairwise (fun x y => F256.totalCmp x y ≠ .gt) := by decide

end Verif.Props
