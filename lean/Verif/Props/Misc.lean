import Verif.Model.Misc
import Verif.Props.Compare
import Verif.Props.Laws
import Mathlib.Tactic.Set
import Verif.Props.Scale
import Verif.Props.Conv
import Verif.Props.Rem
import Verif.Props.Fma
import Verif.Props.Sos
import Verif.Props.Sqrt
import Verif.Props.Integral

/-!
# C49 operator forms, C50 panics, C55 `almost_eq`, C56 `num_traits`
-/

namespace Verif.Props

open Verif Verif.Spec

/-! ## C49 -/

/-- C49. All forms of a binary operator compute the same bits from the contents of the variables,
for any store (the two variables may be the same one); `a op= b` and `a op= &b` put these bits into
`a` and change no other variable, and panic exactly if `a op b` does. -/
theorem C49_forms (op : BinOp) (s : Store) (a b : ℕ) :
    op.refVal s a (s b) = op.base (s a) (s b) ∧ op.valRef s (s a) b = op.base (s a) (s b) ∧
    op.refRef s a b = op.base (s a) (s b) ∧
    (∀ r, r = Operand.val (s b) ∨ r = Operand.ref b →
      (op.assign s a r = none ↔ op.base (s a) (s b) = none) ∧
      ∀ s', op.assign s a r = some s' →
        op.base (s a) (s b) = some (s' a) ∧ ∀ c, c ≠ a → s' c = s c) := by
  refine ⟨rfl, rfl, rfl, ?_⟩
  have key : ((op.base (s a) (s b)).map (fun z => s.set a z) = none ↔
      op.base (s a) (s b) = none) ∧
      ∀ s', (op.base (s a) (s b)).map (fun z => s.set a z) = some s' →
        op.base (s a) (s b) = some (s' a) ∧ ∀ c, c ≠ a → s' c = s c := by
    refine ⟨Option.map_eq_none_iff, fun s' h => ?_⟩
    rw [Option.map_eq_some_iff] at h
    obtain ⟨z, h1, rfl⟩ := h
    exact ⟨by rw [h1, Store.set, if_pos rfl], fun c hc => if_neg hc⟩
  rintro r (rfl | rfl)
  · exact key
  · exact key

/-- `a -= &b` with `a = 1`, `b = 2`: afterwards `a = -1`. -/
example : (BinOp.assign .sub (fun i => if i = 0 then F256.ONE else F256.TWO) 0 (.ref 1)).map
    (fun s => (s 0, s 1)) = some (F256.NEG_ONE, F256.TWO) := by decide

/-! ## C50 -/

/-- C50 (partial). Every operator other than `%` and `mul_add` returns a result for all operands,
and `clamp` panics only as documented; `%` returns if an operand is special, or under the
conditions of `C08_rem_partial`; `mul_add` returns if an operand is special, or the exact result
is zero, or under the conditions of `C09_mul_add_partial`.
Missing: the other cases of `%` and `mul_add`, which can panic (`C50_counterexample`). -/
theorem C50_partial (x y a : F256) :
    (∃ z, F256.add x y = some z) ∧ (∃ z, F256.sub x y = some z) ∧ (∃ z, F256.div x y = some z) ∧
    (∃ z, F256.recip x = some z) ∧ (∃ z, F256.sqrt x = some z) ∧
    (∃ z, F256.sumOfSquares x y = some z) ∧
    (∃ z, F256.floor x = some z) ∧ (∃ z, F256.ceil x = some z) ∧ (∃ z, F256.trunc x = some z) ∧
    (∃ z, F256.fract x = some z) ∧
    (F256.le x y = true → ∃ z, F256.clamp a x y = some z) ∧
    (¬ IsFin x.pat ∨ ¬ IsFin y.pat ∨ IsZero x.pat ∨ IsZero y.pat ∨
      (IsNormal y.pat ∧ ((expField x.pat - expField y.pat) % 256 ≠ 19 ∨
        significandOf x.pat < 2 ^ 237 - 2 ^ 129)) → ∃ z, F256.rem x y = some z) ∧
    (¬ IsFin x.pat ∨ ¬ IsFin y.pat ∨ ¬ IsFin a.pat ∨ IsZero x.pat ∨ IsZero y.pat ∨ IsZero a.pat ∨
      val x.pat * val y.pat + val a.pat = 0 ∨
      (IsNormal x.pat ∧ IsNormal y.pat ∧
        (2 : ℝ) ^ (-262142 : ℤ) ≤ |val x.pat * val y.pat + val a.pat|) →
      ∃ z, F256.mulAdd x y a = some z) := by
  obtain ⟨a1, a2⟩ := C01_total x y
  obtain ⟨f1, f2, f3⟩ := C20_total x
  rw [Option.isSome_iff_exists] at a1 a2 f1 f2 f3
  refine ⟨a1, a2, Option.isSome_iff_exists.mp (C06_total x y),
    Option.isSome_iff_exists.mp (C06_total F256.ONE x), C11_total x,
    Option.isSome_iff_exists.mp (C10_total x y), f1, f2, f3, ?_, ?_, ?_, ?_⟩
  · obtain ⟨t, ht⟩ := f3
    have := (C01_total x t).2
    rw [Option.isSome_iff_exists] at this
    obtain ⟨z, hz⟩ := this
    refine ⟨z, ?_⟩
    unfold F256.fract
    rw [ht]
    exact hz
  · intro h
    cases hc : F256.clamp a x y with
    | none => rw [C16_panic, h] at hc; cases hc
    | some z => exact ⟨z, rfl⟩
  · obtain ⟨s1, s2, s3⟩ := C08_special x y
    intro h
    by_cases zy : IsZero y.pat
    · exact ⟨_, s1 (by simp [zy])⟩
    by_cases fx : IsFin x.pat
    · by_cases fy : IsFin y.pat
      · by_cases zx : IsZero x.pat
        · exact ⟨_, s3 zx fy zy⟩
        · rcases h with h | h | h | h | ⟨h1, h2⟩
          · exact absurd fx h
          · exact absurd fy h
          · exact absurd h zx
          · exact absurd h zy
          · refine (C08_rem_partial x y fx fy zy (divisor_of_normal h1)).2 ?_
            have h3 := h1.1
            rcases h2 with h2 | h2
            · left
              rwa [show expField x.pat - 1 - (expField y.pat - 1) = expField x.pat - expField y.pat
                by omega]
            · exact Or.inr (Or.inr ⟨h1, h2⟩)
      · rcases inf_or_nan fy with h | h
        · exact ⟨_, s2 fx h⟩
        · exact ⟨_, s1 (by simp [h])⟩
    · rcases inf_or_nan fx with h | h
      · exact ⟨_, s1 (by simp [h])⟩
      · exact ⟨_, s1 (by simp [h])⟩
  · intro h
    by_cases hf : FinNonzero x.pat ∧ FinNonzero y.pat ∧ FinNonzero a.pat
    · obtain ⟨hx, hy, ha⟩ := hf
      rcases h with h | h | h | h | h | h | h | ⟨h1, h2, h3⟩
      · exact absurd hx.1 h
      · exact absurd hy.1 h
      · exact absurd ha.1 h
      · exact absurd h hx.2
      · exact absurd h hy.2
      · exact absurd h ha.2
      · exact ⟨_, C09_cancel x y a hx hy ha h⟩
      · obtain ⟨z, hz, -⟩ := C09_mul_add_partial x y a hx.1 hy.1 ha.1
          (Or.inr (Or.inr (Or.inr (Or.inl ⟨h1, h2⟩)))) h3
        exact ⟨z, hz⟩
    · rw [mulAdd_special hf]
      repeat' split
      all_goals exact ⟨_, rfl⟩

/-- C50 is false of the code: `%` and `mul_add` panic for some finite operands (`%` even for
normal ones). -/
theorem C50_counterexample :
    (∃ x y : F256, IsNormal x.pat ∧ IsNormal y.pat ∧ F256.rem x y = none) ∧
    (∃ x y a : F256, IsFin x.pat ∧ IsFin y.pat ∧ IsFin a.pat ∧ F256.mulAdd x y a = none) :=
  ⟨C08_counterexample.1, fmaX, fmaX, fmaA, by decide, by decide, C09_panics.2.1, C09_panics.2.2⟩

/-- The conditions for `%` and `mul_add` are met by 3 % 2 and 3 * 2 + 1. -/
example : IsNormal F256.TWO.pat ∧ (expField THREE.pat - expField F256.TWO.pat) % 256 ≠ 19 ∧
    F256.rem THREE F256.TWO = some F256.ONE := by decide +kernel
example : IsNormal THREE.pat ∧ IsNormal F256.TWO.pat ∧ (F256.mulAdd THREE F256.TWO F256.ONE).isSome := by
  decide +kernel

/-! ## C55 -/

theorem close_aux1 {a b k : ℕ} (h1 : a * k < 256 * b) (h2 : b ≤ a * 2) : a * k < a * 512 := by
  omega

theorem close_aux2 {X Y T : ℕ} {a b : ℤ} (h1 : 2 ^ 236 * T ≤ X) (h2 : Y < 2 ^ 235 * T)
    (hX : a.natAbs = X) (hY : b.natAbs = Y) (h : (a - b).natAbs < 256 * T) : False := by
  omega

theorem smag_natAbs (N : ℕ) : (smag N).natAbs = mag N := by
  unfold smag
  split <;> simp

/-- The ulp in units of the smallest subnormal number. -/
theorem ulp_units {x : F256} (hx : IsFin x.pat) :
    val (F256.ulp x).pat * 2 ^ 262378 = 2 ^ (expField x.pat - 1) := by
  have hK : (0 : ℝ) < 2 ^ 262378 := pow_pos (by norm_num) _
  obtain ⟨h1, h2⟩ := ulp_spec x hx
  have hI := INF_lt
  have hs : signBit (F256.ulp x).pat = 0 := by unfold signBit; omega
  rw [val_eq, hs, h2, pow_zero, one_mul, div_mul_cancel₀ _ hK.ne', Nat.cast_pow, Nat.cast_ofNat]

theorem mag_bounds {N : ℕ} (h : IsFin N) : 2 ^ (expField N - 1) ∣ mag N ∧
    expField N - 1 ≤ 524285 ∧ (1 ≤ expField N - 1 → 2 ^ 236 * 2 ^ (expField N - 1) ≤ mag N) := by
  have hl : expField N < 2 ^ 19 := Nat.mod_lt _ (by norm_num)
  unfold IsFin at h
  refine ⟨Nat.dvd_mul_left _ _, by omega, fun h1 => Nat.mul_le_mul_right _ ?_⟩
  unfold significandOf
  rw [if_neg (by omega)]
  exact Nat.le_add_right _ _

/-- If two finite numbers differ by less than 256 units in the last place of the first one, the
difference is representable. -/
theorem close_diff {x y : F256} (hx : IsFin x.pat) (hy : IsFin y.pat)
    (h : |val x.pat - val y.pat| < 256 * val (F256.ulp x).pat) :
    ∃ M, M < 2 ^ 256 ∧ IsFin M ∧ val M = val x.pat - val y.pat := by
  have hK : (0 : ℝ) < 2 ^ 262378 := pow_pos (by norm_num) _
  have hu := ulp_units hx
  obtain ⟨ty, my, -, by', -, cy, ey, -⟩ := fin_asm hy
  obtain ⟨b1, b2, b3⟩ := mag_bounds hx
  set tx := expField x.pat - 1 with htx
  have hd : |(smag x.pat - smag y.pat : ℤ)| < 256 * 2 ^ tx := by
    have h1 : |((smag x.pat - smag y.pat : ℤ) : ℝ)| < ((256 * 2 ^ tx : ℤ) : ℝ) := by
      have e : ((smag x.pat - smag y.pat : ℤ) : ℝ) = (val x.pat - val y.pat) * 2 ^ 262378 := by
        rw [val_smag, val_smag, Int.cast_sub, sub_mul, div_mul_cancel₀ _ hK.ne',
          div_mul_cancel₀ _ hK.ne']
      have e2 : ((256 * 2 ^ tx : ℤ) : ℝ) = 256 * val (F256.ulp x).pat * 2 ^ 262378 := by
        rw [mul_assoc, hu, Int.cast_mul, Int.cast_pow, Int.cast_ofNat, Int.cast_ofNat]
      rw [e, abs_mul, abs_of_pos hK, e2]
      exact mul_lt_mul_of_pos_right h hK
    exact_mod_cast h1
  have hX : (smag x.pat).natAbs = mag x.pat := smag_natAbs _
  have hY : (smag y.pat).natAbs = mag y.pat := smag_natAbs _
  obtain ⟨k, t, hk, ht, hkt⟩ : ∃ k t : ℕ, k < 2 ^ 237 ∧ t ≤ 524285 ∧
      (smag x.pat - smag y.pat).natAbs = k * 2 ^ t := by
    have hdN : (smag x.pat - smag y.pat).natAbs < 256 * 2 ^ tx := by
      have : (((smag x.pat - smag y.pat).natAbs : ℕ) : ℤ) < ((256 * 2 ^ tx : ℕ) : ℤ) := by
        rw [Int.natCast_natAbs]; push_cast; exact hd
      exact_mod_cast this
    have fin : ∀ t, t ≤ tx → tx ≤ t + 1 → 2 ^ t ∣ mag x.pat → 2 ^ t ∣ mag y.pat →
        ∃ k t : ℕ, k < 2 ^ 237 ∧ t ≤ 524285 ∧ (smag x.pat - smag y.pat).natAbs = k * 2 ^ t := by
      intro t h1 h2 d1 d2
      have d3 : ((2 ^ t : ℕ) : ℤ) ∣ smag x.pat - smag y.pat := by
        apply dvd_sub
        · rw [Int.natCast_dvd, hX]; exact d1
        · rw [Int.natCast_dvd, hY]; exact d2
      rw [Int.natCast_dvd] at d3
      obtain ⟨k, hk⟩ := d3
      refine ⟨k, t, ?_, by omega, by rw [hk, Nat.mul_comm]⟩
      rw [hk] at hdN
      have h3 : 2 ^ tx ≤ 2 ^ t * 2 := by rw [← pow_succ]; exact Nat.pow_le_pow_right (by norm_num) h2
      have h4 : 2 ^ t * k < 2 ^ t * 512 := close_aux1 hdN h3
      have := Nat.lt_of_mul_lt_mul_left h4
      exact lt_trans this (by norm_num)
    rcases Nat.le_total tx ty with h1 | h1
    · refine fin tx le_rfl (by omega) b1 ?_
      rw [ey]; exact Dvd.dvd.mul_left (Nat.pow_dvd_pow 2 h1) _
    · refine fin ty h1 ?_ (dvd_trans (Nat.pow_dvd_pow 2 h1) b1) (by rw [ey]; exact Nat.dvd_mul_left _ _)
      by_contra hc
      have h2 : 2 ^ 236 * 2 ^ tx ≤ mag x.pat := b3 (by omega)
      have h3 : mag y.pat < 2 ^ 235 * 2 ^ tx := by
        rw [ey]
        have : 2 ^ 237 * 2 ^ ty ≤ 2 ^ 235 * 2 ^ tx := by
          rw [← pow_add, ← pow_add]; exact Nat.pow_le_pow_right (by norm_num) (by omega)
        exact lt_of_lt_of_le (Nat.mul_lt_mul_of_pos_right by' (Nat.two_pow_pos _)) this
      exact close_aux2 h2 h3 hX hY hdN
  have hs : ∃ s : ℕ, s ≤ 1 ∧ ((smag x.pat - smag y.pat : ℤ) : ℝ) = (-1) ^ s * ((k * 2 ^ t : ℕ) : ℝ) := by
    rw [← hkt]
    rcases Int.natAbs_eq (smag x.pat - smag y.pat) with h | h
    · refine ⟨0, by norm_num, ?_⟩
      rw [pow_zero, one_mul, ← Int.cast_natCast, ← h]
    · refine ⟨1, le_rfl, ?_⟩
      rw [pow_one, neg_one_mul, ← Int.cast_natCast, ← Int.cast_neg, ← h]
  obtain ⟨s, hs1, hs2⟩ := hs
  obtain ⟨M, m1, m2, -, m4⟩ := exists_val hk ht s hs1
  refine ⟨M, m1, m2, ?_⟩
  rw [m4, ← hs2, val_smag, val_smag, Int.cast_sub, sub_div]

/-- The largest tolerance: `256 * ulp` is representable (or infinite), and so are the others. -/
theorem ulp_multiple {x : F256} (hx : IsFin x.pat) {n : ℕ} (hn : n ≤ 256) :
    ∃ M, M < 2 ^ 256 ∧ IsFin M ∧ signBit M = 0 ∧ val M = n * val (F256.ulp x).pat := by
  have hK : (0 : ℝ) < 2 ^ 262378 := pow_pos (by norm_num) _
  obtain ⟨M, m1, m2, m3, m4⟩ := exists_val (k := n) (t := expField x.pat - 1)
    (lt_of_le_of_lt hn (by norm_num)) (mag_bounds hx).2.1 0 (by norm_num)
  refine ⟨M, m1, m2, m3, ?_⟩
  rw [m4, pow_zero, one_mul, Nat.cast_mul, Nat.cast_pow, Nat.cast_ofNat, ← ulp_units hx, ← mul_assoc,
    mul_div_cancel_right₀ _ hK.ne']

theorem le_of_nonneg {x y : F256} (hx : ¬ IsNaN x.pat) (hy : ¬ IsNaN y.pat)
    (h : signBit x.pat = 0) : F256.le x y = true ↔ extVal x.pat ≤ extVal y.pat := by
  obtain ⟨a1, -, a3, -⟩ := C13_operators x y
  rw [a3, a1, (C13_partial x y hx hy (Or.inl h)).1, C12_eq_iff, le_iff_lt_or_eq]
  simp [hx, hy]

theorem IsRNE.abs {q : ℝ} {z : F256} (h : IsRNE q z.pat) (h0 : q ≠ 0) : IsRNE |q| z.abs.pat := by
  have hz := pat_lt z
  rcases lt_or_gt_of_ne h0 with hq | hq
  · have hs := h.neg hq
    have e : z.abs = z.negated := by
      apply pat_inj
      rw [pat_abs, pat_negated]
      unfold signBit at hs
      omega
    rw [e, abs_of_neg hq]
    exact isRNE_neg h
  · have hs := h.pos hq
    have e : z.abs = z := by
      apply pat_inj
      rw [pat_abs]
      unfold signBit at hs
      omega
    rwa [e, abs_of_pos hq]

theorem IsRNE.not_nan {q : ℝ} {N : ℕ} (h : IsRNE q N) : ¬ IsNaN N := by
  rcases lt_or_ge |q| overflowThreshold with hq | hq
  · exact not_nan_of_fin (h.fin hq)
  · exact not_nan_of_inf (h.inf hq)

/-- The tolerance is computed exactly. -/
theorem tolerance_exact {x : F256} (hx : IsFin x.pat) (n : BitVec 8) :
    IsFin (F256.mul (F256.fromUnsigned n) (F256.ulp x)).pat ∧
    val (F256.mul (F256.fromUnsigned n) (F256.ulp x)).pat = n.toNat * val (F256.ulp x).pat := by
  obtain ⟨u1, u2, u3⟩ := C27_ulp x hx
  obtain ⟨n1, n2, -⟩ := C28_unsigned (w := 8) (by norm_num) n
  rw [Int.cast_natCast] at n2
  have hn8 : n.toNat < 256 := n.isLt
  obtain ⟨C, c1, c2, c3, c4⟩ := ulp_multiple hx (le_of_lt hn8)
  rw [← n2] at c4 ⊢
  refine IsRNE.exact (C04_mul_partial _ _ n1 u1 (Or.inr ?_)).1 c1 c2 c4
  intro k
  have : |val (F256.fromUnsigned n).pat * val (F256.ulp x).pat| * 2 ^ 262378 =
      ((n.toNat * 2 ^ (expField x.pat - 1) : ℕ) : ℝ) := by
    rw [n2, abs_of_nonneg (mul_nonneg (Nat.cast_nonneg _) u3.le), mul_assoc, ulp_units hx,
      Nat.cast_mul, Nat.cast_pow, Nat.cast_ofNat]
  rw [this]
  rintro ⟨h1, h2⟩
  generalize n.toNat * 2 ^ (expField x.pat - 1) = m at h1 h2
  have h3 : (k : ℝ) < m := by linarith
  have h4 : (m : ℝ) < k + 1 := by linarith
  norm_cast at h3 h4
  omega

theorem le_nan {x y : F256} (h : IsNaN x.pat ∨ IsNaN y.pat) : F256.le x y = false := by
  obtain ⟨a1, -, a3, -⟩ := C13_operators x y
  rw [← Bool.not_eq_true, a3, a1, (C13_none x y).mpr h, C12_eq_iff]
  rcases h with h | h <;> simp [h]

/-- C55. For finite numbers `x.almost_eq::<N>(&y)` holds exactly if the exact distance is at most
`N` times the ulp of `x`: neither the rounding of the difference nor that of the product matters. -/
theorem C55_almost_eq (n : BitVec 8) (x y : F256) (hx : IsFin x.pat) (hy : IsFin y.pat) :
    ∃ b, F256.almostEq n x y = some b ∧
      (b = true ↔ |val x.pat - val y.pat| ≤ n.toNat * (2 : ℝ) ^ quantumExp x.pat) := by
  obtain ⟨u1, u2, u3⟩ := C27_ulp x hx
  obtain ⟨z, hz, hr⟩ := C02_sub x y hx hy
  have hn8 : n.toNat < 256 := n.isLt
  -- the tolerance is computed exactly
  obtain ⟨T, t1, t2, t3, t4⟩ := ulp_multiple hx (le_refl 256)
  obtain ⟨p1, p2⟩ := tolerance_exact hx n
  set p := F256.mul (F256.fromUnsigned n) (F256.ulp x) with hp
  refine ⟨_, by unfold F256.almostEq; rw [hz]; rfl, ?_⟩
  rw [← hp, ← u2, ← p2]
  have hza : signBit z.abs.pat = 0 := (C18_abs z).1
  have hzn : ¬ IsNaN z.abs.pat := by
    have := IsRNE.not_nan hr
    obtain ⟨-, -, a1, a2⟩ := C18_class z
    unfold IsNaN at *
    rwa [a1, a2]
  rw [le_of_nonneg hzn (not_nan_of_fin p1) hza, extVal_fin p1]
  have hpv : 0 ≤ val p.pat := by rw [p2]; exact mul_nonneg (Nat.cast_nonneg _) u3.le
  by_cases hd : |val x.pat - val y.pat| < 256 * val (F256.ulp x).pat
  · -- the difference is exact
    obtain ⟨M, m1, m2, m3⟩ := close_diff hx hy hd
    obtain ⟨e1, e2⟩ := IsRNE.exact hr m1 m2 m3
    have e3 : IsFin z.abs.pat := by
      unfold IsFin at *; rwa [(C18_class z).2.2.1]
    rw [extVal_fin e3, C18_abs_val, e2, EReal.coe_le_coe_iff]
  · -- the rounded difference is at least 256 ulp
    rw [not_lt] at hd
    have hlt : val p.pat < 256 * val (F256.ulp x).pat := by
      rw [p2]
      have : (n.toNat : ℝ) < 256 := by exact_mod_cast hn8
      exact mul_lt_mul_of_pos_right this u3
    have h1 : ¬ |val x.pat - val y.pat| ≤ val p.pat := not_le.mpr (lt_of_lt_of_le hlt hd)
    have hT := isRNE_self t1 t2
    rw [Nat.cast_ofNat] at t4
    have h2 : ((256 * val (F256.ulp x).pat : ℝ) : EReal) ≤ extVal z.abs.pat := by
      rw [← t4, ← extVal_fin t2]
      refine IsRNE.mono hT (IsRNE.abs hr ?_) (by rw [t4]; exact hd)
      intro h0
      rw [h0, abs_zero] at hd
      linarith
    refine iff_of_false (not_le.mpr (lt_of_lt_of_le ?_ h2)) h1
    exact_mod_cast hlt

/-- C55. If one of the numbers is infinite or NaN, they are never almost equal, not even if both are
the same infinity. -/
theorem C55_special (n : BitVec 8) (x y : F256) (h : ¬ IsFin x.pat ∨ ¬ IsFin y.pat) :
    F256.almostEq n x y = some false := by
  obtain ⟨z, hz⟩ := Option.isSome_iff_exists.mp (C01_total x y).2
  have key : F256.le z.abs (F256.mul (F256.fromUnsigned n) (F256.ulp x)) = false := by
    by_cases hx : IsFin x.pat
    · have hy := h.resolve_left (fun h => h hx)
      obtain ⟨p1, -⟩ := tolerance_exact hx n
      obtain ⟨c1, c2, c3, c4⟩ := C18_class y
      rw [C02_sub_eq_add_neg] at hz
      rcases inf_or_nan hy with hi | hn
      · have hi' : IsInf y.negated.pat := by unfold IsInf at *; rwa [c1, c2]
        rw [(C03_inf_finite y.negated x hi' hx).2, Option.some.injEq] at hz
        subst hz
        obtain ⟨-, -, d3, d4⟩ := C18_class y.negated
        have hia : IsInf y.negated.abs.pat := by unfold IsInf at *; rwa [d3, d4]
        have hs := (C18_abs y.negated).1
        rw [← Bool.not_eq_true, le_of_nonneg (not_nan_of_inf hia) (not_nan_of_fin p1) hs,
          extVal_inf_pos hia hs, extVal_fin p1, top_le_iff]
        exact EReal.coe_ne_top _
      · have hn' : IsNaN y.negated.pat := by unfold IsNaN at *; rwa [c1, c2]
        rw [(C03_nan x y.negated (Or.inr hn')).1, Option.some.injEq] at hz
        subst hz
        exact le_nan (Or.inl (by decide))
    · rw [C05_nan _ _ (Or.inr (C27_special x hx))]
      exact le_nan (Or.inr (by decide))
  unfold F256.almostEq
  rw [hz]
  exact congrArg some key

/-- Equal, neighbouring and distant numbers. -/
example : F256.almostEq 255 F256.ONE THREE = some false ∧
    F256.almostEq 0 THREE THREE = some true ∧
    F256.almostEq 255 F256.MAX F256.MAX = some true ∧
    F256.almostEq 1 F256.ONE ⟨⟨0x3ffff000000000000000000000000000, 1⟩⟩ = some true ∧
    F256.almostEq 1 F256.ONE ⟨⟨0x3ffff000000000000000000000000000, 2⟩⟩ = some false ∧
    F256.almostEq 7 F256.INFINITY F256.INFINITY = some false := by decide +kernel

/-! ## C56 -/

/-- C56. `zero() + x` and `x + zero()` equal `x` for every `x` other than NaN, with the same bits
unless `x` is `-0`. -/
theorem C56_zero (x : F256) (hx : ¬ IsNaN x.pat) :
    (∃ z, F256.add F256.numZero x = some z ∧ F256.add x F256.numZero = some z ∧
      F256.eq z x = true ∧ (x ≠ F256.NEG_ZERO → z = x)) := by
  by_cases hf : IsFin x.pat
  · by_cases hz : x = F256.NEG_ZERO
    · subst hz
      exact ⟨F256.ZERO, by decide, by decide, by decide, fun h => absurd rfl h⟩
    · have := C33_add_zero x hf hz
      refine ⟨x, ?_, this, (C12_refl x).mpr hx, fun _ => rfl⟩
      rw [C32_add_comm]
      exact this
  · have hi := (inf_or_nan hf).resolve_right hx
    obtain ⟨h1, h2⟩ := C03_inf_finite x F256.ZERO hi (by decide)
    exact ⟨x, h2, h1, (C12_refl x).mpr hx, fun _ => rfl⟩

/-- C56. `one() * x` and `x * one()` are `x`, bit for bit, for every `x` other than NaN. -/
theorem C56_one (x : F256) (hx : ¬ IsNaN x.pat) :
    F256.mul F256.numOne x = x ∧ F256.mul x F256.numOne = x := by
  by_cases hf : IsFin x.pat
  · obtain ⟨h1, h2⟩ := C33_mul_one x hf
    exact ⟨h2, h1⟩
  · have hi := (inf_or_nan hf).resolve_right hx
    have h0 : ¬ IsZero x.pat := fun h => hf (fin_of_zero h)
    obtain ⟨h1, h2⟩ := C05_inf x F256.ONE hx (by decide) h0 (by decide) (Or.inl hi)
    have e : F256.mul x F256.ONE = x := by
      apply pat_inj
      have a1 := pat_lt x
      have a2 := pat_lt (F256.mul x F256.ONE)
      have h3 : xorSign x.pat F256.ONE.pat = signBit x.pat := by
        have : signBit F256.ONE.pat = 0 := by decide
        have hs : signBit x.pat ≤ 1 := by unfold signBit; omega
        unfold xorSign
        rw [this]; omega
      rw [h3] at h2
      unfold IsInf expField fracField at h1 hi
      unfold signBit at h2
      omega
    exact ⟨by rw [F256.numOne, C32_mul_comm, e], e⟩

/-- C56. `is_zero` holds exactly for numbers equal to zero, `is_one` for one. -/
theorem C56_tests (x : F256) :
    (F256.numIsZero x = true ↔ IsFin x.pat ∧ val x.pat = 0) ∧
    (F256.numIsZero x = true ↔ F256.eq x F256.numZero = true) ∧
    (F256.numIsOne x = true ↔ IsFin x.pat ∧ val x.pat = 1) ∧
    F256.numIsZero F256.numZero = true ∧ F256.numIsOne F256.numOne = true := by
  have h0 : F256.numIsZero x = true ↔ IsZero x.pat := by
    rw [F256.numIsZero, eqZero_iff, isZero_iff]
  have h1 : F256.numIsZero x = true ↔ IsFin x.pat ∧ val x.pat = 0 := by
    rw [h0]
    exact ⟨fun h => ⟨fin_of_zero h, val_zero h⟩, fun h => (val_eq_zero_iff h.1).mp h.2⟩
  have key : ∀ y : F256, IsFin y.pat →
      (F256.eq x y = true ↔ IsFin x.pat ∧ val x.pat = val y.pat) := by
    intro y hy
    rw [C12_eq_iff, extVal_fin hy]
    constructor
    · rintro ⟨a1, -, a3⟩
      have hx : IsFin x.pat := by
        by_contra hc
        have hi := (inf_or_nan hc).resolve_right a1
        unfold extVal at a3
        rw [if_pos hi] at a3
        split at a3
        · exact EReal.coe_ne_top _ a3.symm
        · exact EReal.coe_ne_bot _ a3.symm
      rw [extVal_fin hx] at a3
      exact ⟨hx, by exact_mod_cast a3⟩
    · rintro ⟨a1, a2⟩
      exact ⟨not_nan_of_fin a1, not_nan_of_fin hy, by rw [extVal_fin a1, a2]⟩
  refine ⟨h1, ?_, ?_, by decide, by decide⟩
  · rw [h1, F256.numZero, key _ (by decide), val_zero (N := F256.ZERO.pat) (by decide)]
  · rw [F256.numIsOne, key _ (by decide), val_ONE]

example : F256.add F256.numZero F256.NEG_ZERO = some F256.ZERO ∧ F256.numIsZero F256.NEG_ZERO = true ∧
    F256.numIsOne F256.NEG_ONE = false ∧ F256.mul F256.numOne F256.INFINITY = F256.INFINITY := by decide

end Verif.Props
