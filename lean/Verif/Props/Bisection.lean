import Verif.Props.Compare
import Verif.Props.Consequences
import Verif.Props.Compensated

/-!
# C90: bisection terminates and finds neighbouring numbers
-/

set_option exponentiation.threshold 2000

namespace Verif.Props

open Verif Spec

theorem val_TWO : val F256.TWO.pat = 2 := by
  rw [val, show signBit F256.TWO.pat = 0 by decide, show significandOf F256.TWO.pat = 2 ^ 236 by decide,
    show quantumExp F256.TWO.pat = -235 by decide]
  norm_num

theorem rep_double {W : ℤ} (h : Rep W) (hW : |W| < 2 ^ 235 * 2 ^ 524285) : Rep (2 * W) := by
  obtain ⟨k, t, h1, h2, h3⟩ := h
  rcases Nat.lt_or_ge t 524285 with ht | ht
  · exact ⟨k, t + 1, h1, by omega, by rw [abs_mul, h3, abs_two, pow_succ]; ring⟩
  · obtain rfl : t = 524285 := by omega
    have hk : (k : ℤ) < 2 ^ 235 := by
      rw [h3] at hW
      exact lt_of_mul_lt_mul_right hW (pow_nonneg (by norm_num) _)
    have hk2 : k < 2 ^ 235 := by exact_mod_cast hk
    refine ⟨2 * k, 524285, by omega, le_rfl, ?_⟩
    rw [abs_mul, h3, abs_two, Nat.cast_mul, Nat.cast_ofNat, mul_assoc]

theorem rep_half {S : ℤ} (h : Rep S) (hS : 2 ^ 237 ≤ |S|) : ∃ X, S = 2 * X ∧ Rep X := by
  obtain ⟨k, t, h1, h2, h3⟩ := h
  rcases Nat.eq_zero_or_pos t with ht | ht
  · subst ht
    rw [h3, pow_zero, mul_one] at hS
    have : 2 ^ 237 ≤ k := by exact_mod_cast hS
    omega
  · obtain ⟨j, rfl⟩ : ∃ j, t = j + 1 := ⟨t - 1, by omega⟩
    rw [pow_succ, ← mul_assoc] at h3
    have e : 2 ∣ S := by
      rw [← dvd_abs, h3]
      exact dvd_mul_left _ _
    obtain ⟨X, hX⟩ := e
    refine ⟨X, hX, k, j, h1, by omega, ?_⟩
    rw [hX, abs_mul, abs_two, mul_comm] at h3
    exact mul_right_cancel₀ (by norm_num) h3

theorem rep_small {Z : ℤ} (h : |Z| ≤ 2 ^ 237) : Rep Z := by
  rcases h.lt_or_eq with h | h
  · refine ⟨Z.natAbs, 0, ?_, by norm_num, by rw [Int.natCast_natAbs, pow_zero, mul_one]⟩
    have : (Z.natAbs : ℤ) < 2 ^ 237 := by rw [Int.natCast_natAbs]; exact h
    exact_mod_cast this
  · exact ⟨1, 237, by norm_num, by norm_num, by rw [h]; norm_num⟩

theorem smag_bound {x : F256} (h : |val x.pat| < sumLimit) : |smag x.pat| < 2 ^ 235 * 2 ^ 524285 := by
  have hK : (0 : ℝ) < 2 ^ 262378 := by positivity
  rw [val_smag, abs_div, abs_of_pos hK, div_lt_iff₀ hK, sumLimit, ← pow_add] at h
  have e : (2 : ℤ) ^ 235 * 2 ^ 524285 = 2 ^ (262142 + 262378) := by rw [← pow_add]
  rw [e]
  exact_mod_cast h

/-- Rounding to the nearest, in units of the smallest subnormal number: a sum lies strictly between twice its terms if there is a number between
the terms. -/
theorem sum_strict {A B S W : ℤ} (hN : ∀ W, Rep W → |S - (A + B)| ≤ |W - (A + B)|) (h2 : Rep (2 * W)) (h3 : A < W) (h4 : W < B) :
    2 * A < S ∧ S < 2 * B := by
  have h := hN _ h2
  have k : |2 * W - (A + B)| < B - A := by
    rw [abs_lt]
    constructor <;> linarith
  have := abs_lt.mp (lt_of_le_of_lt h k)
  constructor <;> linarith

/-- C90: if there is a number between `a` and `b`, then `(a + b) / 2` is strictly between them. -/
theorem C90_strict (a b w : F256) (ha : IsFin a.pat) (hb : IsFin b.pat) (hw : IsFin w.pat) (la : |val a.pat| < 2 ^ 262142)
    (lb : |val b.pat| < 2 ^ 262142) (h1 : val a.pat < val w.pat) (h2 : val w.pat < val b.pat) :
    ∃ s m, F256.add a b = some s ∧ F256.div s F256.TWO = some m ∧ IsFin m.pat ∧ val a.pat < val m.pat ∧ val m.pat < val b.pat := by
  have hK : (0 : ℝ) < 2 ^ 262378 := by positivity
  have la' : |val a.pat| < sumLimit := la
  have lb' : |val b.pat| < sumLimit := lb
  clear la lb
  obtain ⟨s, hs, rs⟩ := add_smag a b ha hb
  have fs : IsFin s.pat := by
    refine rs.fin (lt_threshold_of_le ?_)
    rw [Int.cast_add, add_div, ← val_smag, ← val_smag]
    have := abs_add_le (val a.pat) (val b.pat)
    linarith
  obtain ⟨ns, ls⟩ := near_of_rne rs fs
  obtain ⟨s', hs', k⟩ := C73_midpoint a b ha hb (h1.trans h2).le
  rw [hs, Option.some.injEq] at hs'
  subst hs'
  obtain ⟨m, hm, fm, m1, m2⟩ := k fs
  refine ⟨s, m, hs, hm, fm, ?_⟩
  obtain ⟨m', hm', rm, -⟩ := C06_div s F256.TWO fs (by decide) (by decide)
  rw [hm, Option.some.injEq] at hm'
  subst hm'
  rw [val_TWO] at rm
  have i1 : smag a.pat < smag w.pat := by
    rw [val_smag, val_smag, div_lt_div_iff_of_pos_right hK] at h1
    exact_mod_cast h1
  have i2 : smag w.pat < smag b.pat := by
    rw [val_smag, val_smag, div_lt_div_iff_of_pos_right hK] at h2
    exact_mod_cast h2
  by_cases hr : Rep (smag a.pat + smag b.pat)
  · -- the sum is exact
    have e := (rep_exact rs hr).2
    have ev : val s.pat / 2 = (val a.pat + val b.pat) / 2 := by rw [val_smag s.pat, e, Int.cast_add, add_div, ← val_smag, ← val_smag]
    rw [ev] at rm
    have n := rm.nearest (by
      have t := abs_add_le (val a.pat) (val b.pat)
      refine lt_threshold_of_le ?_
      rw [abs_div, abs_two]
      linarith [sumLimit_pos]) w.pat (pat_lt w) hw
    have n2 : |val w.pat - (val a.pat + val b.pat) / 2| < (val b.pat - val a.pat) / 2 := by
      rw [abs_lt]
      constructor <;> linarith
    have := abs_lt.mp (lt_of_le_of_lt n n2)
    constructor <;> linarith
  · -- the sum is so large that half of it is exact
    have big : 2 ^ 237 < |smag a.pat + smag b.pat| := by
      by_contra hc
      exact hr (rep_small (not_lt.mp hc))
    have bs : 2 ^ 237 ≤ |smag s.pat| := by
      rcases le_or_gt 0 (smag a.pat + smag b.pat) with h0 | h0
      · rw [abs_of_nonneg h0] at big
        have := ns (2 ^ 237) (rep_small (by rw [abs_of_pos (by norm_num)]))
        rw [abs_of_neg (show (2 : ℤ) ^ 237 - (smag a.pat + smag b.pat) < 0 by linarith)] at this
        have := (abs_le.mp this).1
        exact le_trans (by linarith) (le_abs_self _)
      · rw [abs_of_neg h0] at big
        have := ns (-2 ^ 237) (rep_small (by rw [abs_neg, abs_of_pos (by norm_num)]))
        rw [abs_of_pos (show (0 : ℤ) < -2 ^ 237 - (smag a.pat + smag b.pat) by linarith)] at this
        have := (abs_le.mp this).2
        exact le_trans (by linarith) (neg_le_abs _)
    obtain ⟨_, _, cs⟩ := can_of_fin fs
    obtain ⟨_, _, cw⟩ := can_of_fin hw
    obtain ⟨X, e, rX⟩ := rep_half cs.rep bs
    have bw : |smag w.pat| < 2 ^ 235 * 2 ^ 524285 := by
      have b1 := abs_lt.mp (smag_bound la')
      have b2 := abs_lt.mp (smag_bound lb')
      generalize (2 : ℤ) ^ 235 * 2 ^ 524285 = T at *
      rw [abs_lt]
      constructor <;> linarith
    obtain ⟨k1, k2⟩ := sum_strict ns (rep_double cw.rep bw) i1 i2
    have ev : val s.pat / 2 = (X : ℝ) / 2 ^ 262378 := by
      rw [val_smag s.pat, e, Int.cast_mul, Int.cast_ofNat, mul_div_assoc, mul_div_cancel_left₀ _ (by norm_num)]
    rw [ev] at rm
    have em := (rep_exact rm rX).2
    rw [e] at k1 k2
    have j1 : smag a.pat < X := by linarith
    have j2 : X < smag b.pat := by linarith
    rw [val_smag a.pat, val_smag m.pat, val_smag b.pat, em, div_lt_div_iff_of_pos_right hK, div_lt_div_iff_of_pos_right hK]
    exact ⟨by exact_mod_cast j1, by exact_mod_cast j2⟩

/-- Bisection: `loop { m = (a + b) / 2; if m == a || m == b { return (a, b) }; if p(m) { b = m } else { a = m } }`. The number is the
greatest number of rounds. -/
def bisect (p : F256 → Bool) : ℕ → F256 → F256 → Option (F256 × F256)
  | 0, _, _ => none
  | n + 1, a, b => do
    let s ← F256.add a b
    let m ← F256.div s F256.TWO
    if F256.eq m a || F256.eq m b then pure (a, b)
    else if p m then bisect p n a m else bisect p n m b

theorem eq_fin {x y : F256} (hx : IsFin x.pat) (hy : IsFin y.pat) : F256.eq x y = true ↔ val x.pat = val y.pat := by
  rw [C12_eq_iff, extVal_fin hx, extVal_fin hy, EReal.coe_eq_coe_iff]
  exact ⟨fun h => h.2.2, fun h => ⟨fun n => hx n.1, fun n => hy n.1, h⟩⟩

theorem bisect_spec (p : F256 → Bool) : ∀ (n : ℕ) (a b : F256), IsFin a.pat → IsFin b.pat → |val a.pat| < 2 ^ 262142 →
    |val b.pat| < 2 ^ 262142 → val a.pat < val b.pat → p a = false → p b = true → smag b.pat - smag a.pat ≤ n →
    ∃ a' b', bisect p n a b = some (a', b') ∧ IsFin a'.pat ∧ IsFin b'.pat ∧ p a' = false ∧ p b' = true ∧
      val a.pat ≤ val a'.pat ∧ val a'.pat < val b'.pat ∧ val b'.pat ≤ val b.pat ∧
      ∀ w : F256, IsFin w.pat → ¬(val a'.pat < val w.pat ∧ val w.pat < val b'.pat) := by
  have hK : (0 : ℝ) < 2 ^ 262378 := by positivity
  have lt_int : ∀ {x y : F256}, val x.pat < val y.pat → smag x.pat < smag y.pat := by
    intro x y h
    rw [val_smag, val_smag, div_lt_div_iff_of_pos_right hK] at h
    exact_mod_cast h
  intro n
  induction n with
  | zero =>
    intro a b _ _ _ _ h _ _ hn
    have := lt_int h
    rw [Nat.cast_zero] at hn
    omega
  | succ n ih =>
    intro a b ha hb la lb h pa pb hn
    obtain ⟨s, hs, k⟩ := C73_midpoint a b ha hb h.le
    have fs : IsFin s.pat := by
      obtain ⟨s', hs', rs⟩ := C01_add a b ha hb
      rw [hs, Option.some.injEq] at hs'
      subst hs'
      have t := abs_add_le (val a.pat) (val b.pat)
      have la' : |val a.pat| < sumLimit := la
      have lb' : |val b.pat| < sumLimit := lb
      clear la lb
      exact rs.fin (lt_threshold_of_le (by linarith))
    obtain ⟨m, hm, fm, m1, m2⟩ := k fs
    by_cases he : (F256.eq m a || F256.eq m b) = true
    · refine ⟨a, b, ?_, ha, hb, pa, pb, le_rfl, h, le_rfl, ?_⟩
      · simp only [bisect, hs, hm, Option.bind_eq_bind, Option.bind_some, he, if_true, Option.pure_def]
      · rintro w hw ⟨w1, w2⟩
        obtain ⟨s', m', e1, e2, -, q1, q2⟩ := C90_strict a b w ha hb hw la lb w1 w2
        rw [hs, Option.some.injEq] at e1
        subst e1
        rw [hm, Option.some.injEq] at e2
        subst e2
        rw [Bool.or_eq_true, eq_fin fm ha, eq_fin fm hb] at he
        rcases he with he | he
        · exact absurd he q1.ne'
        · exact absurd he q2.ne
    · have hne := he
      rw [Bool.or_eq_true, eq_fin fm ha, eq_fin fm hb, not_or] at hne
      have g1 : val a.pat < val m.pat := lt_of_le_of_ne m1 (Ne.symm hne.1)
      have g2 : val m.pat < val b.pat := lt_of_le_of_ne m2 hne.2
      have j1 := lt_int g1
      have j2 := lt_int g2
      have lm : |val m.pat| < 2 ^ 262142 := by
        have b1 := abs_lt.mp la
        have b2 := abs_lt.mp lb
        exact abs_lt.mpr ⟨b1.1.trans g1, g2.trans b2.2⟩
      rw [Nat.cast_succ] at hn
      cases hp : p m with
      | true =>
        obtain ⟨a', b', r, f1, f2, p1, p2, o1, o2, o3, o4⟩ := ih a m ha fm la lm g1 pa hp (by omega)
        refine ⟨a', b', ?_, f1, f2, p1, p2, o1, o2, o3.trans m2, o4⟩
        simp only [bisect, hs, hm, Option.bind_eq_bind, Option.bind_some, if_neg he, hp, if_true, r]
      | false =>
        obtain ⟨a', b', r, f1, f2, p1, p2, o1, o2, o3, o4⟩ := ih m b fm hb lm lb g2 hp pb (by omega)
        refine ⟨a', b', ?_, f1, f2, p1, p2, m1.trans o1, o2, o3, o4⟩
        simp only [bisect, hs, hm, Option.bind_eq_bind, Option.bind_some, if_neg he, hp, r, Bool.false_eq_true, if_false]

/-- C90: bisection with any predicate that is false for `a` and true for `b` terminates, and returns two neighbouring numbers between which
the predicate changes: no number lies between them. -/
theorem C90_bisection (p : F256 → Bool) (a b : F256) (ha : IsFin a.pat) (hb : IsFin b.pat) (la : |val a.pat| < 2 ^ 262142)
    (lb : |val b.pat| < 2 ^ 262142) (h : val a.pat < val b.pat) (pa : p a = false) (pb : p b = true) :
    ∃ N, ∀ n, N ≤ n → ∃ a' b', bisect p n a b = some (a', b') ∧ IsFin a'.pat ∧ IsFin b'.pat ∧ p a' = false ∧ p b' = true ∧
      val a.pat ≤ val a'.pat ∧ val a'.pat < val b'.pat ∧ val b'.pat ≤ val b.pat ∧
      ∀ w : F256, IsFin w.pat → ¬(val a'.pat < val w.pat ∧ val w.pat < val b'.pat) := by
  refine ⟨(smag b.pat - smag a.pat).toNat, fun n hn => bisect_spec p n a b ha hb la lb h pa pb ?_⟩
  have := Int.self_le_toNat (smag b.pat - smag a.pat)
  omega

/-- Test: bisection among the subnormal numbers -/
example : bisect (fun x => decide (5 ≤ x.pat)) 10 ⟨U256.new 0#128 0#128⟩ ⟨U256.new 0#128 8#128⟩ =
    some (⟨U256.new 0#128 4#128⟩, ⟨U256.new 0#128 5#128⟩) := by decide +kernel

/-- The numbers 1 and 2 meet the conditions. -/
example : IsFin F256.ONE.pat ∧ IsFin F256.TWO.pat ∧ |val F256.ONE.pat| < 2 ^ 262142 ∧ |val F256.TWO.pat| < 2 ^ 262142 ∧
    val F256.ONE.pat < val F256.TWO.pat ∧ F256.eq F256.ONE F256.TWO = false ∧ F256.eq F256.TWO F256.TWO = true := by
  have k : (2 : ℝ) ^ 2 ≤ 2 ^ 262142 := pow_le_pow_right₀ (by norm_num) (by norm_num)
  refine ⟨by decide, by decide, ?_, ?_, ?_, by decide, by decide⟩
  · rw [val_ONE, abs_one]
    exact lt_of_lt_of_le (by norm_num) k
  · rw [val_TWO, abs_two]
    exact lt_of_lt_of_le (by norm_num) k
  · rw [val_ONE, val_TWO]
    norm_num

end Verif.Props
