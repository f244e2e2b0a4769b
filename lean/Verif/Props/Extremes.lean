import Verif.Props.Compare
import Verif.Props.Add

/-!
# C93: the largest and the smallest element of a list
-/

namespace Verif.Props

open Verif Spec

/-- The loop `xs.iter().fold(f256::NAN, |m, x| m.max(*x))`, started with `a` -/
def largest (a : F256) (xs : List F256) : F256 := xs.foldl F256.max a

/-- The loop `xs.iter().fold(f256::NAN, |m, x| m.min(*x))`, started with `a` -/
def smallest (a : F256) (xs : List F256) : F256 := xs.foldl F256.min a

theorem sign_of_pos {x : F256} (h : 0 < extVal x.pat) : signBit x.pat = 0 := by
  unfold extVal at h
  split at h
  · split at h
    · assumption
    · exact absurd h (not_lt.mpr bot_le)
  · exact val_pos_sign (by exact_mod_cast h)

theorem largest_pos {a : F256} (xs : List F256) (ha : ¬IsNaN a.pat) (hp : 0 < extVal a.pat) :
    ¬IsNaN (largest a xs).pat ∧ extVal a.pat ≤ extVal (largest a xs).pat ∧ (largest a xs = a ∨ largest a xs ∈ xs) ∧
      ∀ x ∈ xs, ¬IsNaN x.pat → extVal x.pat ≤ extVal (largest a xs).pat := by
  induction xs generalizing a with
  | nil => exact ⟨ha, le_rfl, Or.inl rfl, fun _ h => absurd h List.not_mem_nil⟩
  | cons x xs ih =>
    have e : largest a (x :: xs) = largest (F256.max a x) xs := rfl
    by_cases hx : IsNaN x.pat
    · rw [e, ((C15_nan a x).2 hx ha).1]
      obtain ⟨h1, h2, h3, h4⟩ := ih ha hp
      refine ⟨h1, h2, h3.imp id (List.mem_cons_of_mem _), fun y hy ny => ?_⟩
      rcases List.mem_cons.mp hy with c | c
      · exact absurd (c ▸ hx) ny
      · exact h4 y c ny
    · have hm := (C15_partial a x ha hx (Or.inl (sign_of_pos hp))).1
      have hc := (C15_choice a x).1
      have nm : ¬IsNaN (F256.max a x).pat := by
        rcases hc with c | c
        · rw [c]; exact ha
        · rw [c]; exact hx
      have l1 : extVal a.pat ≤ extVal (F256.max a x).pat := by rw [hm]; exact le_max_left _ _
      have l2 : extVal x.pat ≤ extVal (F256.max a x).pat := by rw [hm]; exact le_max_right _ _
      obtain ⟨h1, h2, h3, h4⟩ := ih nm (hp.trans_le l1)
      rw [e]
      refine ⟨h1, l1.trans h2, ?_, fun y hy ny => ?_⟩
      · rcases h3 with c | c
        · rw [c]
          rcases hc with d | d
          · exact Or.inl d
          · exact Or.inr (by rw [d]; exact List.mem_cons_self)
        · exact Or.inr (List.mem_cons_of_mem _ c)
      · rcases List.mem_cons.mp hy with c | c
        · rw [c]; exact l2.trans h2
        · exact h4 y c ny

theorem largest_spec (a : F256) (xs : List F256) (ha : IsNaN a.pat ∨ extVal a.pat ≤ 0)
    (h : ∃ x ∈ xs, ¬IsNaN x.pat ∧ 0 < extVal x.pat) :
    largest a xs ∈ xs ∧ ¬IsNaN (largest a xs).pat ∧ 0 < extVal (largest a xs).pat ∧
      ∀ x ∈ xs, ¬IsNaN x.pat → extVal x.pat ≤ extVal (largest a xs).pat := by
  induction xs generalizing a with
  | nil =>
    obtain ⟨x, hx, -⟩ := h
    exact absurd hx List.not_mem_nil
  | cons x xs ih =>
    have e : largest a (x :: xs) = largest (F256.max a x) xs := rfl
    by_cases hx : ¬IsNaN x.pat ∧ 0 < extVal x.pat
    · have hm : F256.max a x = x := by
        by_cases na : IsNaN a.pat
        · exact ((C15_nan a x).1 na).1
        · have ha' := ha.resolve_left na
          have hv := (C15_partial a x na hx.1 (Or.inr (sign_of_pos hx.2))).1
          rcases (C15_choice a x).1 with c | c
          · rw [c, max_eq_right (ha'.trans hx.2.le)] at hv
            exact absurd (hv ▸ ha') (not_le.mpr hx.2)
          · exact c
      rw [e, hm]
      obtain ⟨h1, h2, h3, h4⟩ := largest_pos xs hx.1 hx.2
      refine ⟨?_, h1, hx.2.trans_le h2, fun y hy ny => ?_⟩
      · rcases h3 with c | c
        · rw [c]; exact List.mem_cons_self
        · exact List.mem_cons_of_mem _ c
      · rcases List.mem_cons.mp hy with c | c
        · rw [c]; exact h2
        · exact h4 y c ny
    · have hx' : IsNaN x.pat ∨ extVal x.pat ≤ 0 := by
        by_cases nx : IsNaN x.pat
        · exact Or.inl nx
        · exact Or.inr (not_lt.mp fun c => hx ⟨nx, c⟩)
      have hm : IsNaN (F256.max a x).pat ∨ extVal (F256.max a x).pat ≤ 0 := by
        rcases (C15_choice a x).1 with c | c
        · rw [c]; exact ha
        · rw [c]; exact hx'
      obtain ⟨y, hy, ny, py⟩ := h
      have hy' : y ∈ xs := by
        rcases List.mem_cons.mp hy with c | c
        · exact absurd ⟨ny, py⟩ (c ▸ hx)
        · exact c
      obtain ⟨h1, h2, h3, h4⟩ := ih (F256.max a x) hm ⟨y, hy', ny, py⟩
      rw [e]
      refine ⟨List.mem_cons_of_mem _ h1, h2, h3, fun w hw nw => ?_⟩
      rcases List.mem_cons.mp hw with c | c
      · rw [c] at nw ⊢
        exact (hx'.resolve_left nw).trans h3.le
      · exact h4 w c nw

/-- C93 (partial: a positive element is required): folding a list of any length with `max`, starting with NaN, gives the largest of the
elements that are not NaN. Missing: lists without a positive element (`C93_counterexample`). -/
theorem C93_max_partial (xs : List F256) (h : ∃ x ∈ xs, ¬IsNaN x.pat ∧ 0 < extVal x.pat) :
    largest F256.NAN xs ∈ xs ∧ ¬IsNaN (largest F256.NAN xs).pat ∧
      ∀ x ∈ xs, ¬IsNaN x.pat → extVal x.pat ≤ extVal (largest F256.NAN xs).pat := by
  obtain ⟨h1, h2, -, h4⟩ := largest_spec F256.NAN xs (Or.inl (by decide)) h
  exact ⟨h1, h2, h4⟩

theorem smallest_pos {a : F256} (xs : List F256) (ha : ¬IsNaN a.pat) (sa : signBit a.pat = 0)
    (h : ∀ x ∈ xs, ¬IsNaN x.pat → signBit x.pat = 0) :
    ¬IsNaN (smallest a xs).pat ∧ extVal (smallest a xs).pat ≤ extVal a.pat ∧ (smallest a xs = a ∨ smallest a xs ∈ xs) ∧
      ∀ x ∈ xs, ¬IsNaN x.pat → extVal (smallest a xs).pat ≤ extVal x.pat := by
  induction xs generalizing a with
  | nil => exact ⟨ha, le_rfl, Or.inl rfl, fun _ h => absurd h List.not_mem_nil⟩
  | cons x xs ih =>
    have e : smallest a (x :: xs) = smallest (F256.min a x) xs := rfl
    have ht : ∀ y ∈ xs, ¬IsNaN y.pat → signBit y.pat = 0 := fun y hy => h y (List.mem_cons_of_mem _ hy)
    by_cases hx : IsNaN x.pat
    · rw [e, ((C15_nan a x).2 hx ha).2]
      obtain ⟨h1, h2, h3, h4⟩ := ih ha sa ht
      refine ⟨h1, h2, h3.imp id (List.mem_cons_of_mem _), fun y hy ny => ?_⟩
      rcases List.mem_cons.mp hy with c | c
      · exact absurd (c ▸ hx) ny
      · exact h4 y c ny
    · have hm := (C15_partial a x ha hx (Or.inl sa)).2
      have hc := (C15_choice a x).2
      have sx := h x List.mem_cons_self hx
      have nm : ¬IsNaN (F256.min a x).pat := by
        rcases hc with c | c
        · rw [c]; exact ha
        · rw [c]; exact hx
      have sm : signBit (F256.min a x).pat = 0 := by
        rcases hc with c | c
        · rw [c]; exact sa
        · rw [c]; exact sx
      have l1 : extVal (F256.min a x).pat ≤ extVal a.pat := by rw [hm]; exact min_le_left _ _
      have l2 : extVal (F256.min a x).pat ≤ extVal x.pat := by rw [hm]; exact min_le_right _ _
      obtain ⟨h1, h2, h3, h4⟩ := ih nm sm ht
      rw [e]
      refine ⟨h1, h2.trans l1, ?_, fun y hy ny => ?_⟩
      · rcases h3 with c | c
        · rw [c]
          rcases hc with d | d
          · exact Or.inl d
          · exact Or.inr (by rw [d]; exact List.mem_cons_self)
        · exact Or.inr (List.mem_cons_of_mem _ c)
      · rcases List.mem_cons.mp hy with c | c
        · rw [c]; exact h2.trans l2
        · exact h4 y c ny

theorem min_nan (a x : F256) (ha : IsNaN a.pat) : F256.min a x = x := ((C15_nan a x).1 ha).2

/-- C93 (partial: no sign bit may be set): folding a list of any length with `min`, starting with NaN, gives the smallest of the elements
that are not NaN. Missing: lists with negative elements (`C93_counterexample`). -/
theorem C93_min_partial (xs : List F256) (h : ∃ x ∈ xs, ¬IsNaN x.pat) (hs : ∀ x ∈ xs, ¬IsNaN x.pat → signBit x.pat = 0) :
    smallest F256.NAN xs ∈ xs ∧ ¬IsNaN (smallest F256.NAN xs).pat ∧
      ∀ x ∈ xs, ¬IsNaN x.pat → extVal (smallest F256.NAN xs).pat ≤ extVal x.pat := by
  have key : ∀ a : F256, IsNaN a.pat → smallest a xs ∈ xs ∧ ¬IsNaN (smallest a xs).pat ∧
      ∀ x ∈ xs, ¬IsNaN x.pat → extVal (smallest a xs).pat ≤ extVal x.pat := by
    induction xs with
    | nil =>
      obtain ⟨x, hx, -⟩ := h
      exact absurd hx List.not_mem_nil
    | cons x xs ih =>
      intro a ha
      have e : smallest a (x :: xs) = smallest x xs := by
        change smallest (F256.min a x) xs = _
        rw [min_nan a x ha]
      rw [e]
      have ht : ∀ y ∈ xs, ¬IsNaN y.pat → signBit y.pat = 0 := fun y hy => hs y (List.mem_cons_of_mem _ hy)
      by_cases nx : IsNaN x.pat
      · obtain ⟨y, hy, ny⟩ := h
        have hy' : y ∈ xs := by
          rcases List.mem_cons.mp hy with c | c
          · exact absurd nx (c ▸ ny)
          · exact c
        obtain ⟨h1, h2, h3⟩ := ih ⟨y, hy', ny⟩ ht x nx
        refine ⟨List.mem_cons_of_mem _ h1, h2, fun w hw nw => ?_⟩
        rcases List.mem_cons.mp hw with c | c
        · exact absurd (c ▸ nx) nw
        · exact h3 w c nw
      · obtain ⟨h1, h2, h3, h4⟩ := smallest_pos xs nx (hs x List.mem_cons_self nx) ht
        refine ⟨?_, h1, fun w hw nw => ?_⟩
        · rcases h3 with c | c
          · rw [c]; exact List.mem_cons_self
          · exact List.mem_cons_of_mem _ c
        · rcases List.mem_cons.mp hw with c | c
          · rw [c]; exact h2
          · exact h4 w c nw
  exact key F256.NAN (by decide)

/-- C93 is false of the code without these conditions: the "largest" of -1 and -2 is -2, the "smallest" one of -2, -1 and 1 is -1, and
the "largest" of -0, 0 and -1 is -1. -/
theorem C93_counterexample :
    largest F256.NAN [F256.ONE.negated, F256.TWO.negated] = F256.TWO.negated ∧
    smallest F256.NAN [F256.TWO.negated, F256.ONE.negated, F256.ONE] = F256.ONE.negated ∧
    largest F256.NAN [F256.NEG_ZERO, F256.ZERO, F256.ONE.negated] = F256.ONE.negated ∧
    extVal F256.TWO.negated.pat < extVal F256.ONE.negated.pat ∧ extVal F256.ONE.negated.pat < extVal F256.ZERO.pat := by
  refine ⟨by decide, by decide, by decide, ?_, ?_⟩
  · rw [extVal_lt_iff (by decide) (by decide)]
    decide
  · rw [extVal_lt_iff (by decide) (by decide)]
    decide

/-- A list with negative numbers and a NaN: the conditions of `C93_max_partial` are met. -/
example : largest F256.NAN [F256.TWO.negated, F256.ONE.negated, F256.NAN, F256.ONE, F256.TWO, F256.ZERO] = F256.TWO ∧
    ∃ x ∈ [F256.TWO.negated, F256.ONE.negated, F256.NAN, F256.ONE, F256.TWO, F256.ZERO], ¬IsNaN x.pat ∧ 0 < extVal x.pat := by
  refine ⟨by decide, F256.ONE, by simp, by decide, ?_⟩
  have h : extVal F256.ZERO.pat < extVal F256.ONE.pat := by
    rw [extVal_lt_iff (by decide) (by decide)]
    decide
  have e : extVal F256.ZERO.pat = 0 := by
    rw [extVal, if_neg (by decide), val_zero (by decide)]
    rfl
  rwa [e] at h

/-- A list that meets the conditions of `C93_min_partial` -/
example : smallest F256.NAN [F256.TWO, F256.NAN, F256.ONE, F256.TWO] = F256.ONE ∧
    ∀ x ∈ [F256.TWO, F256.NAN, F256.ONE, F256.TWO], ¬IsNaN x.pat → signBit x.pat = 0 := by decide

end Verif.Props
