import Verif.Props.Bisection
import Verif.Props.HalfUlp

/-!
# C96: sums, scalar products and polynomials are monotone
-/

set_option exponentiation.threshold 2000

namespace Verif.Props

open Verif Spec

theorem val_le_of_ext {x y : F256} (hx : IsFin x.pat) (hy : IsFin y.pat) (h : extVal x.pat ≤ extVal y.pat) : val x.pat ≤ val y.pat := by
  rw [extVal_fin hx, extVal_fin hy, EReal.coe_le_coe_iff] at h
  exact h

theorem add_le {a b x y s t : F256} (ha : IsFin a.pat) (hb : IsFin b.pat) (hx : IsFin x.pat) (hy : IsFin y.pat)
    (h1 : F256.add a x = some s) (h2 : F256.add b y = some t) (hs : IsFin s.pat) (ht : IsFin t.pat)
    (hab : val a.pat ≤ val b.pat) (hxy : val x.pat ≤ val y.pat) : val s.pat ≤ val t.pat := by
  obtain ⟨s', k1, r1⟩ := C01_add a x ha hx
  obtain ⟨t', k2, r2⟩ := C01_add b y hb hy
  have e1 : s = s' := Option.some.inj (h1.symm.trans k1)
  have e2 : t = t' := Option.some.inj (h2.symm.trans k2)
  subst e1 e2
  exact val_le_of_ext hs ht (_root_.Verif.IsRNE.mono r1 r2 (add_le_add hab hxy))

/-- C96: a sum of any length does not decrease if its terms do not decrease. -/
theorem C96_sum (a b s t : F256) (xs ys : List F256) (h : List.Forall₂ (fun x y => val x.pat ≤ val y.pat) xs ys)
    (hab : val a.pat ≤ val b.pat) (hs : runningSum a xs = some s) (ht : runningSum b ys = some t) (fs : IsFin s.pat) (ft : IsFin t.pat) :
    val s.pat ≤ val t.pat := by
  induction h generalizing a b with
  | nil =>
    have e1 : a = s := Option.some.inj hs
    have e2 : b = t := Option.some.inj ht
    subst e1 e2
    exact hab
  | @cons x y xs ys hxy _ ih =>
    obtain ⟨u, hu⟩ := Option.isSome_iff_exists.mp (C01_total a x).1
    obtain ⟨v, hv⟩ := Option.isSome_iff_exists.mp (C01_total b y).1
    rw [runningSum_cons, hu] at hs
    rw [runningSum_cons, hv] at ht
    have fu := (runningSum_fin hs fs).1
    have fv := (runningSum_fin ht ft).1
    obtain ⟨fa, fx⟩ := add_fin hu fu
    obtain ⟨fb, fy⟩ := add_fin hv fv
    exact ih u v (add_le fa fb fx fy hu hv fu fv hab hxy) hs ht

theorem runningSum_ge {a s : F256} {xs : List F256} (h : ∀ x ∈ xs, 0 ≤ val x.pat) (hs : runningSum a xs = some s) (fs : IsFin s.pat) :
    val a.pat ≤ val s.pat ∧ (0 ≤ val a.pat → ∀ x ∈ xs, val x.pat ≤ val s.pat) := by
  induction xs generalizing a with
  | nil =>
    have e1 : a = s := Option.some.inj hs
    subst e1
    exact ⟨le_rfl, fun _ _ h => absurd h List.not_mem_nil⟩
  | cons x xs ih =>
    obtain ⟨u, hu⟩ := Option.isSome_iff_exists.mp (C01_total a x).1
    rw [runningSum_cons, hu] at hs
    have fu := (runningSum_fin hs fs).1
    obtain ⟨fa, fx⟩ := add_fin hu fu
    obtain ⟨h1, h2⟩ := ih (fun y hy => h y (List.mem_cons_of_mem _ hy)) hs
    have hx := h x List.mem_cons_self
    obtain ⟨u', k, r⟩ := C01_add a x fa fx
    have e : u = u' := Option.some.inj (hu.symm.trans k)
    subst e
    have ge1 : val a.pat ≤ val u.pat :=
      val_le_of_ext fa fu (_root_.Verif.IsRNE.mono (isRNE_self (pat_lt a) fa) r (by linarith))
    refine ⟨ge1.trans h1, fun ha y hy => ?_⟩
    rcases List.mem_cons.mp hy with c | c
    · rw [c]
      exact (val_le_of_ext fx fu (_root_.Verif.IsRNE.mono (isRNE_self (pat_lt x) fx) r (by linarith))).trans h1
    · exact h2 (ha.trans ge1) y c

/-- C96: a sum of non-negative numbers is not less than any of them. -/
theorem C96_bound (s : F256) (xs : List F256) (h : ∀ x ∈ xs, 0 ≤ val x.pat) (hs : runningSum F256.ZERO xs = some s) (fs : IsFin s.pat) :
    0 ≤ val s.pat ∧ ∀ x ∈ xs, val x.pat ≤ val s.pat := by
  obtain ⟨h1, h2⟩ := runningSum_ge h hs fs
  rw [val_zero (by decide : IsZero F256.ZERO.pat)] at h1 h2
  exact ⟨h1, h2 le_rfl⟩

theorem mul_le {a b x y : F256} (ha : IsFin a.pat) (hb : IsFin b.pat) (hx : IsFin x.pat) (hy : IsFin y.pat)
    (f1 : IsFin (F256.mul a x).pat) (f2 : IsFin (F256.mul b y).pat)
    (a0 : 0 ≤ val a.pat) (x0 : 0 ≤ val x.pat) (hab : val a.pat ≤ val b.pat) (hxy : val x.pat ≤ val y.pat) :
    0 ≤ val (F256.mul a x).pat ∧ val (F256.mul a x).pat ≤ val (F256.mul b y).pat := by
  have b0 := a0.trans hab
  have h1 := C34_mul_mono a b x ha hb hx x0 hab
  have h2 := C34_mul_mono x y b hx hy hb b0 hxy
  rw [C32_mul_comm x b, C32_mul_comm y b] at h2
  have h3 := C34_mul_mono F256.ZERO a x (by decide) ha hx x0 (by rw [val_zero (by decide : IsZero F256.ZERO.pat)]; exact a0)
  have hz := C05_zero F256.ZERO x (by decide) hx (Or.inl (by decide))
  have fz : IsFin (F256.mul F256.ZERO x).pat := fin_of_zero hz.1
  have h4 := val_le_of_ext fz f1 h3
  rw [val_zero hz.1] at h4
  exact ⟨h4, val_le_of_ext f1 f2 (h1.trans h2)⟩

theorem forall₂_fin {P : F256 → F256 → Prop} {cs ds : List F256} (h : List.Forall₂ (fun c d => IsFin c.pat ∧ IsFin d.pat ∧ P c d) cs ds) :
    (∀ w ∈ cs, IsFin w.pat) ∧ ∀ w ∈ ds, IsFin w.pat := by
  induction h with
  | nil => exact ⟨fun _ h => absurd h List.not_mem_nil, fun _ h => absurd h List.not_mem_nil⟩
  | cons h _ ih =>
    refine ⟨fun w hw => ?_, fun w hw => ?_⟩
    · rcases List.mem_cons.mp hw with e | e
      · rw [e]; exact h.1
      · exact ih.1 w e
    · rcases List.mem_cons.mp hw with e | e
      · rw [e]; exact h.2.1
      · exact ih.2 w e

/-- C96: the value of a polynomial of any degree with non-negative coefficients, computed by Horner's scheme at a non-negative point, does not decrease
if the point and the coefficients do not decrease. -/
theorem C96_horner (x y a b s t : F256) (cs ds : List F256) (hx : IsFin x.pat) (hy : IsFin y.pat) (x0 : 0 ≤ val x.pat)
    (hxy : val x.pat ≤ val y.pat) (h : List.Forall₂ (fun c d => IsFin c.pat ∧ IsFin d.pat ∧ 0 ≤ val c.pat ∧ val c.pat ≤ val d.pat) cs ds)
    (a0 : 0 ≤ val a.pat) (hab : val a.pat ≤ val b.pat) (hs : horner x a cs = some s) (ht : horner y b ds = some t)
    (fs : IsFin s.pat) (ft : IsFin t.pat) : 0 ≤ val s.pat ∧ val s.pat ≤ val t.pat := by
  induction h generalizing a b with
  | nil =>
    have e1 : a = s := Option.some.inj hs
    have e2 : b = t := Option.some.inj ht
    subst e1 e2
    exact ⟨a0, hab⟩
  | @cons c d cs ds hcd hr ih =>
    obtain ⟨fc, fd, c0, hcd⟩ := hcd
    obtain ⟨u, hu⟩ := Option.isSome_iff_exists.mp (C01_total (F256.mul a x) c).1
    obtain ⟨v, hv⟩ := Option.isSome_iff_exists.mp (C01_total (F256.mul b y) d).1
    rw [horner_cons, hu] at hs
    rw [horner_cons, hv] at ht
    obtain ⟨gc, gd⟩ := forall₂_fin hr
    have fu := C86_sticky x u s cs hx gc hs fs
    have fv := C86_sticky y v t ds hy gd ht ft
    have fm := (add_fin hu fu).1
    have fn := (add_fin hv fv).1
    have fa : IsFin a.pat := by_contra fun hc => mul_not_fin' hc hx fm
    have fb : IsFin b.pat := by_contra fun hc => mul_not_fin' hc hy fn
    obtain ⟨m0, hm⟩ := mul_le fa fb hx hy fm fn a0 x0 hab hxy
    have hz : F256.add F256.ZERO F256.ZERO = some F256.ZERO := by decide
    have z0 : val F256.ZERO.pat = 0 := val_zero (by decide)
    have u0 := add_le (by decide) fm (by decide) fc hz hu (by decide) fu (by rw [z0]; exact m0) (by rw [z0]; exact c0)
    rw [z0] at u0
    exact ih u v u0 (add_le fm fn fc fd hu hv fu fv hm hcd) hs ht

/-- C96: a scalar product of vectors with non-negative components does not decrease if the components do not decrease. -/
theorem C96_dot (s t : F256) (ps qs : List (F256 × F256))
    (h : List.Forall₂ (fun p q => 0 ≤ val p.1.pat ∧ 0 ≤ val p.2.pat ∧ val p.1.pat ≤ val q.1.pat ∧ val p.2.pat ≤ val q.2.pat ∧
      IsFin p.1.pat ∧ IsFin p.2.pat ∧ IsFin q.1.pat ∧ IsFin q.2.pat) ps qs)
    (hs : dot ps = some s) (ht : dot qs = some t) (fs : IsFin s.pat) (ft : IsFin t.pat) : val s.pat ≤ val t.pat := by
  have f1 := (runningSum_fin hs fs).2
  have f2 := (runningSum_fin ht ft).2
  refine C96_sum F256.ZERO F256.ZERO s t _ _ ?_ le_rfl hs ht fs ft
  clear hs ht
  induction h with
  | nil => exact List.Forall₂.nil
  | @cons p q ps qs hpq _ ih =>
    rw [List.map_cons] at f1 f2
    obtain ⟨h1, h2, h3, h4, h5, h6, h7, h8⟩ := hpq
    exact List.Forall₂.cons (mul_le h5 h7 h6 h8 (f1 _ List.mem_cons_self) (f2 _ List.mem_cons_self) h1 h2 h3 h4).2
      (ih (fun w hw => f1 w (List.mem_cons_of_mem _ hw)) fun w hw => f2 w (List.mem_cons_of_mem _ hw))

/-- Lists that meet the conditions: coefficients 1, 1 and 1, 2, and the points 1 and 2 -/
example : horner F256.ONE F256.ONE [F256.ONE, F256.ONE] = some three ∧
    (horner F256.TWO F256.ONE [F256.ONE, F256.TWO]).any (fun t => decide (IsFin t.pat)) = true ∧ IsFin three.pat ∧
    List.Forall₂ (fun c d : F256 => IsFin c.pat ∧ IsFin d.pat ∧ 0 ≤ val c.pat ∧ val c.pat ≤ val d.pat) [F256.ONE, F256.ONE] [F256.ONE, F256.TWO] := by
  refine ⟨by decide +kernel, by decide +kernel, by decide, ?_⟩
  refine List.Forall₂.cons ⟨by decide, by decide, ?_, le_rfl⟩ (List.Forall₂.cons ⟨by decide, by decide, ?_, ?_⟩ List.Forall₂.nil)
  · rw [val_ONE]; exact zero_le_one
  · rw [val_ONE]; exact zero_le_one
  · rw [val_ONE, val_TWO]; exact one_le_two

/-- The sum 1 + 2 of non-negative terms -/
example : runningSum F256.ZERO [F256.ONE, F256.TWO] = some three ∧ dot [(F256.ONE, F256.ONE), (F256.ONE, F256.TWO)] = some three := by decide +kernel

end Verif.Props
