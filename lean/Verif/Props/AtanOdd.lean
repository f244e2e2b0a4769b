import Verif.Props.TrigSymmetry
import Verif.Props.Atan
import Verif.Props.Asin

/-!
# The steps of the arc tangent and the arc sine under a change of sign
-/

namespace Verif.Props

open Verif Verif.Spec Verif.Trig Verif.FP492

theorem ineg_ineg (x : FP492) : ineg (ineg x) = x := by
  apply nat_inj
  have h := nat_lt x
  rw [nat_ineg, nat_ineg]
  omega

theorem iabs_ineg {x : FP492} (h : sval x ≠ -2 ^ 511) : iabs (ineg x) = iabs x := by
  apply nat_inj
  rw [nat_iabs, nat_iabs, sval_ineg h, Int.natAbs_neg]

/-- The approximation is odd. -/
theorem approxAtan_ineg {v : FP492} (h0 : sval v ≠ 0) (h : sval v ≠ -2 ^ 511) :
    approxAtan (ineg v) = (approxAtan v).map ineg := by
  rw [approxAtan_eq, approxAtan_eq, iabs_ineg h, isSignNegative_eq, isSignNegative_eq, sval_ineg h, Option.map_map]
  generalize atanMag (iabs v) = o
  cases o with
  | none => rw [Option.map_none, Option.map_none]
  | some r =>
    rw [Option.map_some, Option.map_some, Function.comp_apply]
    by_cases g : sval v < 0
    · rw [decide_eq_true g, decide_eq_false (by omega), if_pos rfl, if_neg (by decide), ineg_ineg]
    · rw [decide_eq_false g, decide_eq_true (by omega), if_pos rfl, if_neg (by decide)]

/-- The conversion to `f256` is odd. -/
theorem fp_toF256_ineg {r : FP492} (h0 : sval r ≠ 0) (h : sval r ≠ -2 ^ 511) :
    FP492.toF256 (ineg r) = (FP492.toF256 r).negated := by
  have h1 := FP492.toF256_spec (ineg r)
  have h2 := isRNE_neg (FP492.toF256_spec r)
  rw [sval_ineg h, Int.cast_neg, neg_div] at h1
  exact pat_inj (Verif.IsRNE.unique h1 h2 (neg_ne_zero.mpr (div_ne_zero (Int.cast_ne_zero.mpr h0) (pow_ne_zero _ two_ne_zero))))

theorem negated_fin {x : F256} (h : IsFin x.pat) : IsFin x.negated.pat := by
  unfold IsFin at *
  rw [(C18_class x).1]
  exact h

theorem negated_nonzero {x : F256} (h : ¬ IsZero x.pat) : ¬ IsZero x.negated.pat := by
  unfold IsZero at *
  rw [(C18_class x).1, (C18_class x).2.1]
  exact h

theorem fpFrom_negated {x : F256} (hf : IsFin x.pat) (h0 : ¬ IsZero x.pat) :
    FP492.fromF256 x.negated = ineg (FP492.fromF256 x) := by
  rw [fpFrom_sign hf h0, fpFrom_sign (x := x.negated) (negated_fin hf) (negated_nonzero h0), abs_negated]
  rcases sign_cases x with ⟨g1, g2⟩ | ⟨g1, g2⟩
  · rw [if_pos g1, if_neg (by rw [g2]; norm_num)]
  · rw [if_pos g2, if_neg (by rw [g1]; norm_num), ineg_ineg]

theorem bigFrom_negated {x : F256} (h0 : ¬ IsZero x.pat) :
    BigFloat.fromF256 x.negated = BigFloat.neg (BigFloat.fromF256 x) := by
  have hz : x.eqZero = false := by
    rw [Bool.eq_false_iff, ne_eq, eqZero_iff, ← isZero_iff]; exact h0
  have hz' : x.negated.eqZero = false := by
    rw [Bool.eq_false_iff, ne_eq, eqZero_iff, ← isZero_iff]; exact negated_nonzero h0
  unfold BigFloat.fromF256 BigFloat.neg
  rw [hz, hz', absBits_negated]
  simp only [Bool.false_eq_true, if_false, BigFloat.mk.injEq, and_true]
  rcases sign_cases x with ⟨g1, g2⟩ | ⟨g1, g2⟩
  · rw [g1, g2, if_pos rfl, if_neg (by norm_num)]; norm_num
  · rw [g1, g2, if_pos rfl, if_neg (by norm_num)]; norm_num

theorem bigNeg_neg (x : BigFloat) : BigFloat.neg (BigFloat.neg x) = x := by
  cases x
  unfold BigFloat.neg
  dsimp only
  congr 1
  ring

theorem bigNeg_inj {x y : BigFloat} (h : BigFloat.neg x = BigFloat.neg y) : x = y := by
  rw [← bigNeg_neg x, h, bigNeg_neg]

theorem bigDiv_neg_right (x y : BigFloat) (h : x.signum ≠ 0) : BigFloat.div x (BigFloat.neg y) = (BigFloat.div x y).map BigFloat.neg := by
  have e : (BigFloat.neg y).isZero = y.isZero := by
    unfold BigFloat.isZero BigFloat.neg
    congr 1
    exact propext ⟨fun c => by simpa using c, fun c => by simpa using c⟩
  unfold BigFloat.div
  rw [e]
  split
  · rfl
  · show (do
      let (s, adj) ← BigFloat.divSignifs x.signif y.signif
      some (⟨x.signum * (y.signum * -1), x.exp - (y.exp + adj), s⟩ : BigFloat)) = _
    cases BigFloat.divSignifs x.signif y.signif with
    | none => rfl
    | some p =>
      show some _ = some _
      unfold BigFloat.neg
      dsimp only
      rw [mul_assoc]

theorem bigDiv_neg_left (x y : BigFloat) (h : x.signum ≠ 0) : BigFloat.div (BigFloat.neg x) y = (BigFloat.div x y).map BigFloat.neg := by
  unfold BigFloat.div
  split
  · rfl
  · rw [if_neg (show ¬ (BigFloat.neg x).signum = 0 from fun c => h (by simpa [BigFloat.neg] using c))]
    show (do
      let (s, adj) ← BigFloat.divSignifs x.signif y.signif
      some (⟨x.signum * -1 * y.signum, x.exp - (y.exp + adj), s⟩ : BigFloat)) = _
    cases BigFloat.divSignifs x.signif y.signif with
    | none => rfl
    | some p =>
      show some _ = some _
      unfold BigFloat.neg
      dsimp only
      congr 2
      ring

theorem recip_neg (x : BigFloat) : BigFloat.recip (BigFloat.neg x) = (BigFloat.recip x).map BigFloat.neg :=
  bigDiv_neg_right _ _ (by decide)

theorem square_neg (x : BigFloat) : BigFloat.square (BigFloat.neg x) = BigFloat.square x := by
  unfold BigFloat.square BigFloat.mul BigFloat.neg
  dsimp only
  rw [show x.signum * -1 * (x.signum * -1) = x.signum * x.signum by ring]

theorem ineg_zero : ineg FP492.ZERO = FP492.ZERO := by decide +kernel

theorem fromBigFloat_neg {x : BigFloat} (h : x.signum = 1 ∨ x.signum = -1) :
    FP492.fromBigFloat (BigFloat.neg x) = ineg (FP492.fromBigFloat x) := by
  unfold FP492.fromBigFloat BigFloat.neg
  dsimp only
  split
  · exact ineg_zero.symm
  · rcases h with h | h
    · rw [h, if_pos (by norm_num), if_neg (by norm_num)]
    · rw [h, if_neg (by norm_num), if_pos (by norm_num), ineg_ineg]

theorem toBigFloat_ineg {v : FP492} (h : sval v ≠ -2 ^ 511) (h0 : sval v ≠ 0) :
    FP492.toBigFloat (ineg v) = BigFloat.neg (FP492.toBigFloat v) := by
  have e : (if 0 ≤ signum (ineg v) then ineg v else ineg (ineg v)) = if 0 ≤ signum v then v else ineg v := by
    rw [signum_eq, signum_eq, sval_ineg h]
    rcases lt_or_gt_of_ne h0 with g | g
    · rw [if_pos, if_neg]
      · rw [Int.sign_eq_neg_one_of_neg g]; norm_num
      · rw [Int.sign_eq_one_of_pos (by omega)]; norm_num
    · rw [if_neg, if_pos, ineg_ineg]
      · rw [Int.sign_eq_one_of_pos g]; norm_num
      · rw [Int.sign_eq_neg_one_of_neg (by omega)]; norm_num
  have s : signum (ineg v) = signum v * -1 := by
    rw [signum_eq, signum_eq, sval_ineg h, Int.sign_neg]
    ring
  unfold FP492.toBigFloat
  dsimp only
  rw [e, s]
  generalize (if 0 ≤ signum v then v else ineg v) = a
  have z : BigFloat.neg BigFloat.ZERO = BigFloat.ZERO := by decide
  rw [apply_ite BigFloat.neg, apply_ite BigFloat.neg, apply_ite BigFloat.neg, z]
  simp only [BigFloat.neg]

theorem bigAdd_neg (x y : BigFloat) : BigFloat.add (BigFloat.neg x) (BigFloat.neg y) = (BigFloat.add x y).map BigFloat.neg := by
  have e : ∀ z : BigFloat, (BigFloat.neg z).isZero = z.isZero := fun z => by
    unfold BigFloat.isZero BigFloat.neg
    congr 1
    exact propext ⟨fun c => by simpa using c, fun c => by simpa using c⟩
  have e2 : (BigFloat.neg x).signum ≠ (BigFloat.neg y).signum ↔ x.signum ≠ y.signum := by
    show x.signum * -1 ≠ y.signum * -1 ↔ _
    omega
  unfold BigFloat.add
  dsimp only
  rw [e, e]
  have e3 : ∀ z : BigFloat, (BigFloat.neg z).exp = z.exp := fun _ => rfl
  have e4 : ∀ z : BigFloat, (BigFloat.neg z).signif = z.signif := fun _ => rfl
  have e5 : (if (BigFloat.neg x).signum ≠ (BigFloat.neg y).signum then BigFloat.subSignifs else BigFloat.addSignifs) =
      if x.signum ≠ y.signum then BigFloat.subSignifs else BigFloat.addSignifs := by
    by_cases g : x.signum ≠ y.signum
    · rw [if_pos g, if_pos (e2.mpr g)]
    · rw [if_neg g, if_neg (fun c => g (e2.mp c))]
  rw [e3, e3, e4, e4, e5]
  split
  · rfl
  · split
    · rfl
    · generalize (UInt.wideningShr x.signif _).1 = sx
      generalize (UInt.wideningShr y.signif _).1 = sy
      generalize (if x.signum ≠ y.signum then BigFloat.subSignifs else BigFloat.addSignifs) = op
      have fin : ∀ (o : Option (U256 × ℤ)) (a b : BigFloat), (a = b) → (do
          let (s, adj) ← o
          if BigUInt.isZero s then some (⟨0, 0, s⟩ : BigFloat) else some ⟨(BigFloat.neg a).signum, max x.exp y.exp + adj, s⟩) =
          Option.map BigFloat.neg (do
          let (s, adj) ← o
          if BigUInt.isZero s then some (⟨0, 0, s⟩ : BigFloat) else some ⟨b.signum, max x.exp y.exp + adj, s⟩) := by
        rintro o a _ rfl
        cases o with
        | none => rfl
        | some p =>
          obtain ⟨s, adj⟩ := p
          rw [Option.bind_eq_bind, Option.bind_some, Option.bind_some]
          dsimp only
          rw [apply_ite (Option.map BigFloat.neg)]
          rfl
      by_cases g : BigUInt.lt sx sy = true
      · simp only [g, if_true]
        exact fin _ _ _ rfl
      · simp only [g]
        exact fin _ _ _ rfl

theorem bigSub_neg (x y : BigFloat) : BigFloat.sub (BigFloat.neg x) (BigFloat.neg y) = (BigFloat.sub x y).map BigFloat.neg := by
  unfold BigFloat.sub
  by_cases g : x = y
  · rw [if_pos g, if_pos (by rw [g])]
    rfl
  · rw [if_neg g, if_neg (fun c => g (bigNeg_inj c)), bigAdd_neg]

theorem big_toF256_neg {s : BigFloat} (hs : BigFloat.Norm s) (h1 : -262142 ≤ s.exp) (h2 : s.exp ≤ 262143) :
    BigFloat.toF256 (BigFloat.neg s) = (BigFloat.toF256 s).negated := by
  have e := BigFloat.toF256_spec (norm_neg hs) h1 h2
  rw [bval_neg] at e
  exact pat_inj (Verif.IsRNE.unique e (isRNE_neg (BigFloat.toF256_spec hs h1 h2)) (neg_ne_zero.mpr hs.weaken.ne_zero))

theorem fpSub_ineg {x y : FP492} (hx : (sval x).natAbs ≤ 2 ^ 498) (hy : (sval y).natAbs ≤ 2 ^ 498) :
    FP492.sub (ineg x) (ineg y) = ineg (FP492.sub x y) := by
  apply sval_inj
  have a : sval (ineg x) = -sval x := sval_ineg (by omega)
  have b : sval (ineg y) = -sval y := sval_ineg (by omega)
  have c := sval_sub hx hy
  rw [sval_sub (by rw [a]; omega) (by rw [b]; omega), a, b, sval_ineg (by rw [c]; omega), c]
  ring

end Verif.Props
