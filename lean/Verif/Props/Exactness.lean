import Verif.Proofs.RelErr
import Verif.Props.Conv
import Verif.Props.ErrorFree
import Verif.Props.Integral

/-!
# C74 to C76: results which are representable are exact
-/

namespace Verif.Props

open Verif Spec

/-! ## C74 -/

/-- C74: a sum or difference which is a number is returned exactly. -/
theorem C74_add (x y w : F256) (hx : IsFin x.pat) (hy : IsFin y.pat) (hw : IsFin w.pat) :
    (val x.pat + val y.pat = val w.pat → ∃ z, F256.add x y = some z ∧ IsFin z.pat ∧ val z.pat = val w.pat) ∧
    (val x.pat - val y.pat = val w.pat → ∃ z, F256.sub x y = some z ∧ IsFin z.pat ∧ val z.pat = val w.pat) := by
  constructor
  · intro h
    obtain ⟨z, hz, rz⟩ := C01_add x y hx hy
    obtain ⟨f, e⟩ := IsRNE.exact rz (pat_lt w) hw h.symm
    exact ⟨z, hz, f, e.trans h⟩
  · intro h
    obtain ⟨z, hz, rz⟩ := C02_sub x y hx hy
    obtain ⟨f, e⟩ := IsRNE.exact rz (pat_lt w) hw h.symm
    exact ⟨z, hz, f, e.trans h⟩

/-- C74: a product which is a number is returned exactly, also if it is subnormal. -/
theorem C74_mul (x y w : F256) (hx : IsFin x.pat) (hy : IsFin y.pat) (hw : IsFin w.pat)
    (h : val x.pat * val y.pat = val w.pat) : IsFin (F256.mul x y).pat ∧ val (F256.mul x y).pat = val w.pat := by
  have hK : (0 : ℝ) < 2 ^ 262378 := by positivity
  obtain ⟨rz, -⟩ := C04_mul_partial x y hx hy (Or.inr fun k => by
    rw [h, val_smag, abs_div, abs_of_pos hK, div_mul_cancel₀ _ hK.ne', ← Int.cast_abs]
    generalize |smag w.pat| = n
    rintro ⟨h1, h2⟩
    have h3 : (k : ℤ) < n := by
      have : ((k : ℤ) : ℝ) < (n : ℝ) := by rw [Int.cast_natCast]; linarith
      exact_mod_cast this
    have h4 : n < (k : ℤ) + 1 := by
      have : (n : ℝ) < (((k : ℤ) + 1 : ℤ) : ℝ) := by rw [Int.cast_add, Int.cast_natCast, Int.cast_one]; linarith
      exact_mod_cast this
    omega)
  obtain ⟨f, e⟩ := IsRNE.exact rz (pat_lt w) hw h.symm
  exact ⟨f, e.trans h⟩

/-- C74: a quotient which is a number is returned exactly. -/
theorem C74_div (x y w : F256) (hx : IsFin x.pat) (hy : IsFin y.pat) (h0 : ¬IsZero y.pat) (hw : IsFin w.pat)
    (h : val x.pat = val w.pat * val y.pat) : ∃ z, F256.div x y = some z ∧ IsFin z.pat ∧ val z.pat = val w.pat := by
  obtain ⟨z, hz, rz, -⟩ := C06_div x y hx hy h0
  rw [h, mul_div_cancel_right₀ _ (val_ne_zero hy h0)] at rz
  obtain ⟨f, e⟩ := IsRNE.exact rz (pat_lt w) hw rfl
  exact ⟨z, hz, f, e⟩

/-- The smallest positive number is `2^-200000 * 2^-62378`, and the quotient of it and `2^-62378` is `2^-200000`. -/
example : ∃ x y w : F256, IsFin x.pat ∧ IsFin y.pat ∧ ¬IsZero y.pat ∧ IsFin w.pat ∧ w.pat = 1 ∧ F256.mul x y = w ∧ F256.div w y = some x :=
  ⟨⟨U256.new (BitVec.ofNat 128 ((262143 - 200000) * 2 ^ 108)) 0#128⟩,
    ⟨U256.new (BitVec.ofNat 128 ((262143 - 62378) * 2 ^ 108)) 0#128⟩, ⟨U256.new 0#128 1#128⟩, by decide⟩

/-! ## C75 -/

theorem exists_pat {M : ℕ} (hM : M < 2 ^ 256) : ∃ w : F256, w.pat = M := by
  refine ⟨⟨U256.new (BitVec.ofNat 128 (M / 2 ^ 128)) (BitVec.ofNat 128 (M % 2 ^ 128))⟩, ?_⟩
  simp only [F256.pat, U256.new, BitVec.toNat_ofNat]
  omega

/-- Integers times powers of two in the range of `f256` -/
theorem exists_dyadic {c : ℤ} {e : ℤ} (hc : |c| ≤ 2 ^ 237) (h1 : -262378 ≤ e) (h2 : e ≤ 261906) :
    ∃ w : F256, IsFin w.pat ∧ val w.pat = c * (2 : ℝ) ^ e := by
  obtain ⟨t, ht⟩ : ∃ t : ℕ, e = (t : ℤ) - 262378 := ⟨(e + 262378).toNat, by omega⟩
  have hp : (0 : ℤ) < 2 ^ t := by positivity
  have ha : |c * 2 ^ t| = |c| * 2 ^ t := by rw [abs_mul, abs_of_pos hp]
  have ht' : t ≤ 524284 := by omega
  have hr : Rep (c * 2 ^ t) := by
    refine rep_of (t := t) (by omega) (Dvd.intro_left _ rfl) ?_ ?_
    · rw [ha]
      exact mul_le_mul_of_nonneg_right hc hp.le
    · rw [ha]
      refine lt_of_le_of_lt (mul_le_mul_of_nonneg_right hc hp.le) ?_
      exact mul_lt_mul_of_pos_left (pow_lt_pow_right₀ (by norm_num) (by omega)) (by positivity)
  obtain ⟨M, m1, m2, m3⟩ := pat_of_rep hr
  obtain ⟨w, rfl⟩ := exists_pat m1
  refine ⟨w, m2, ?_⟩
  rw [m3, ht, zpow_sub₀ (by norm_num), show (262378 : ℤ) = ((262378 : ℕ) : ℤ) by norm_num, zpow_natCast, zpow_natCast, Int.cast_mul,
    Int.cast_pow, Int.cast_ofNat, mul_div_assoc]

/-- An integer up to `2^237` in magnitude -/
theorem exists_integer {c : ℤ} (hc : |c| ≤ 2 ^ 237) : ∃ w : F256, IsFin w.pat ∧ val w.pat = c := by
  obtain ⟨w, f, e⟩ := exists_dyadic (e := 0) hc (by norm_num) (by norm_num)
  exact ⟨w, f, by rw [e, zpow_zero, mul_one]⟩

/-- C75: sums, differences and products of integers are exact as long as they do not exceed `2^237`, and so are quotients without
remainder. -/
theorem C75_int (x y : F256) (m n : ℤ) (hx : IsFin x.pat) (hy : IsFin y.pat) (vx : val x.pat = m) (vy : val y.pat = n) :
    (|m + n| ≤ 2 ^ 237 → ∃ z, F256.add x y = some z ∧ IsFin z.pat ∧ val z.pat = (m + n : ℤ)) ∧
    (|m - n| ≤ 2 ^ 237 → ∃ z, F256.sub x y = some z ∧ IsFin z.pat ∧ val z.pat = (m - n : ℤ)) ∧
    (|m * n| ≤ 2 ^ 237 → IsFin (F256.mul x y).pat ∧ val (F256.mul x y).pat = (m * n : ℤ)) ∧
    (∀ k : ℤ, n ≠ 0 → m = k * n → |k| ≤ 2 ^ 237 → ∃ z, F256.div x y = some z ∧ IsFin z.pat ∧ val z.pat = k) := by
  refine ⟨fun h => ?_, fun h => ?_, fun h => ?_, fun k h0 hk h => ?_⟩
  · obtain ⟨w, fw, vw⟩ := exists_integer h
    have := (C74_add x y w hx hy fw).1 (by rw [vx, vy, vw, Int.cast_add])
    rwa [vw] at this
  · obtain ⟨w, fw, vw⟩ := exists_integer h
    have := (C74_add x y w hx hy fw).2 (by rw [vx, vy, vw, Int.cast_sub])
    rwa [vw] at this
  · obtain ⟨w, fw, vw⟩ := exists_integer h
    have := C74_mul x y w hx hy fw (by rw [vx, vy, vw, Int.cast_mul])
    rwa [vw] at this
  · obtain ⟨w, fw, vw⟩ := exists_integer h
    have := C74_div x y w hx hy (fun hz => h0 (by
      rw [val_zero hz] at vy
      exact_mod_cast vy.symm)) fw (by rw [vx, vy, vw, hk, Int.cast_mul])
    rwa [vw] at this

theorem small_dyadic {N : ℕ} (h : Small.IsFin 11 52 N) : ∃ (c : ℤ) (e : ℤ), |c| < 2 ^ 53 ∧ -1074 ≤ e ∧ e ≤ 971 ∧
    Small.val 11 52 N = c * (2 : ℝ) ^ e := by
  have hf : Small.fraction 52 N < 2 ^ 52 := Nat.mod_lt _ (by norm_num)
  have he : Small.exponent 11 52 N < 2 ^ 11 := Nat.mod_lt _ (by norm_num)
  unfold Small.IsFin at h
  have habs : ∀ (s : ℕ) (k : ℕ), |(-1 : ℤ) ^ s * k| = k := fun s k => by rw [abs_mul, abs_pow, abs_neg, abs_one, one_pow, one_mul, Nat.abs_cast]
  unfold Small.val
  by_cases h0 : Small.exponent 11 52 N = 0
  · refine ⟨(-1) ^ Small.sign 11 52 N * (Small.fraction 52 N : ℕ), -1074, ?_, by norm_num, by norm_num, ?_⟩
    · rw [habs]; omega
    · rw [if_pos h0, if_pos h0]
      push_cast
      norm_num
  · refine ⟨(-1) ^ Small.sign 11 52 N * (2 ^ 52 + Small.fraction 52 N : ℕ), (Small.exponent 11 52 N : ℤ) - 1075, ?_, by omega, by omega, ?_⟩
    · rw [habs]; push_cast; omega
    · rw [if_neg h0, if_neg h0]
      push_cast
      congr 2
      norm_num
      ring

/-- C75: the product of two finite `f64` numbers is exact. -/
theorem C75_f64_mul (a b : BitVec 64) (ha : Small.IsFin 11 52 a.toNat) (hb : Small.IsFin 11 52 b.toNat) :
    IsFin (F256.mul (F256.fromF64 a) (F256.fromF64 b)).pat ∧
      val (F256.mul (F256.fromF64 a) (F256.fromF64 b)).pat = Small.val 11 52 a.toNat * Small.val 11 52 b.toNat := by
  obtain ⟨fa, va, -⟩ := (C29_f64 a).1 ha
  obtain ⟨fb, vb, -⟩ := (C29_f64 b).1 hb
  obtain ⟨c, e, c1, e1, e2, c2⟩ := small_dyadic ha
  obtain ⟨d, g, d1, g1, g2, d2⟩ := small_dyadic hb
  obtain ⟨w, fw, vw⟩ := exists_dyadic (c := c * d) (e := e + g) (by
    rw [abs_mul]
    refine le_trans (mul_le_mul c1.le d1.le (abs_nonneg _) (by positivity)) (by norm_num)) (by omega) (by omega)
  have hv : Small.val 11 52 a.toNat * Small.val 11 52 b.toNat = val w.pat := by
    rw [c2, d2, vw, zpow_add₀ (by norm_num), Int.cast_mul]
    ring
  rw [hv]
  exact C74_mul _ _ w fa fb fw (by rw [va, vb, hv])

/-- The product of the smallest positive `f64` and `0.1` -/
example : Small.IsFin 11 52 (1#64).toNat ∧ Small.IsFin 11 52 (0x3fb999999999999a#64).toNat := by
  unfold Small.IsFin; decide

/-- `(2^236 - 1) + (2^236 + 1)` -/
example : |((2 : ℤ) ^ 236 - 1) + (2 ^ 236 + 1)| ≤ 2 ^ 237 := by norm_num

/-! ## C76 -/

/-- C76: for integers `0 ≤ m < 2^237` and `n > 0` the floor of the quotient is the integer quotient. -/
theorem C76_floor_div (x y : F256) (m n : ℕ) (hx : IsFin x.pat) (hy : IsFin y.pat) (vx : val x.pat = m) (vy : val y.pat = n)
    (hm : m < 2 ^ 237) (hn : 0 < n) :
    ∃ z w, F256.div x y = some z ∧ F256.floor z = some w ∧ IsFin w.pat ∧ val w.pat = (m / n : ℕ) := by
  have hn' : (0 : ℝ) < n := by exact_mod_cast hn
  obtain ⟨z, hz, rz, -⟩ := C06_div x y hx hy (fun hc => by rw [val_zero hc] at vy; exact hn'.ne vy)
  rw [vx, vy] at rz
  have hdm := Nat.div_add_mod m n
  have hml := Nat.mod_lt m hn
  have hk : m / n < 2 ^ 237 := lt_of_le_of_lt (Nat.div_le_self _ _) hm
  obtain ⟨lo, flo, vlo⟩ := exists_integer (c := (m / n : ℕ)) (by rw [Nat.abs_cast]; exact_mod_cast hk.le)
  obtain ⟨hi, fhi, vhi⟩ := exists_integer (c := (m / n + 1 : ℕ)) (by rw [Nat.abs_cast]; exact_mod_cast hk)
  rw [Int.cast_natCast] at vlo vhi
  have q1 : ((m / n : ℕ) : ℝ) ≤ (m : ℝ) / n := by
    rw [le_div_iff₀ hn']
    exact_mod_cast Nat.div_mul_le_self m n
  have q2 : (m : ℝ) / n + 1 / n ≤ ((m / n + 1 : ℕ) : ℝ) := by
    rw [← add_div, div_le_iff₀ hn']
    have : m + 1 ≤ (m / n + 1) * n := by rw [add_mul, one_mul, mul_comm (m / n)]; omega
    exact_mod_cast this
  have q0 : (0 : ℝ) ≤ (m : ℝ) / n := div_nonneg (Nat.cast_nonneg _) hn'.le
  have fz : IsFin z.pat := rz.fin (by
    have := abs_val_lt (pat_lt hi) fhi
    rw [vhi, abs_of_nonneg (Nat.cast_nonneg _)] at this
    rw [abs_of_nonneg q0]
    have h1 : (0 : ℝ) ≤ 1 / n := by positivity
    linarith)
  have z1 : ((m / n : ℕ) : ℝ) ≤ val z.pat := by
    have := IsRNE.mono (isRNE_self (pat_lt lo) flo) rz (by rw [vlo]; exact q1)
    rwa [extVal_fin flo, extVal_fin fz, EReal.coe_le_coe_iff, vlo] at this
  have z2 : val z.pat < ((m / n + 1 : ℕ) : ℝ) := by
    rcases Nat.eq_zero_or_pos m with h0 | h0
    · subst h0
      obtain ⟨-, e⟩ := IsRNE.exact rz (M := 0) (by norm_num) (by decide) (by rw [val_zero (by decide), Nat.cast_zero, zero_div])
      rw [e, Nat.cast_zero, zero_div]
      positivity
    have hm0 : (0 : ℝ) < m := by exact_mod_cast h0
    have ht : |(m : ℝ) / n| < overflowThreshold := by
      have := abs_val_lt (pat_lt hi) fhi
      rw [vhi, abs_of_nonneg (Nat.cast_nonneg _)] at this
      rw [abs_of_nonneg q0]
      have h1 : (0 : ℝ) ≤ 1 / n := by positivity
      linarith
    by_cases hs : (2 : ℝ) ^ 236 ≤ |(m : ℝ) / n| * 2 ^ 262378
    · have h1 := le_trans (le_abs_self _) (IsRNE.rel_error rz hs ht)
      rw [abs_of_nonneg q0] at h1
      have h2 : (m : ℝ) / n / 2 ^ 237 < 1 / n := by
        rw [div_div, mul_comm, ← div_div, div_lt_div_iff_of_pos_right hn', div_lt_one (by positivity)]
        exact_mod_cast hm
      linarith
    · push Not at hs
      -- the quotient is tiny, then the result is at most one half
      obtain ⟨h, fh, vh⟩ := exists_dyadic (c := 1) (e := -1) (by norm_num) (by norm_num) (by norm_num)
      have h1 : (m : ℝ) / n ≤ val h.pat := by
        rw [vh, Int.cast_one, one_mul]
        rw [abs_of_nonneg q0] at hs
        have h2 : (2 : ℝ) ^ 236 ≤ (2 : ℝ) ^ (-1 : ℤ) * 2 ^ 262378 := by
          rw [zpow_neg_one, show (262378 : ℕ) = 262377 + 1 from rfl, pow_succ (2 : ℝ) 262377]
          have : (2 : ℝ) ^ 236 ≤ 2 ^ 262377 := pow_le_pow_right₀ (by norm_num) (by norm_num)
          generalize (2 : ℝ) ^ 262377 = K at *
          linarith
        exact (lt_of_mul_lt_mul_right (lt_of_lt_of_le hs h2) (by positivity)).le
      have := IsRNE.mono rz (isRNE_self (pat_lt h) fh) h1
      rw [extVal_fin fh, extVal_fin fz, EReal.coe_le_coe_iff, vh] at this
      refine lt_of_le_of_lt this ?_
      rw [Int.cast_one, one_mul, zpow_neg_one, Nat.cast_add, Nat.cast_one]
      have : (0 : ℝ) ≤ ((m / n : ℕ) : ℝ) := Nat.cast_nonneg _
      linarith
  obtain ⟨w, hw, fw, vw⟩ := C20_floor z fz
  refine ⟨z, w, hz, hw, fw, ?_⟩
  have h1 : ⌊val z.pat⌋ = ((m / n : ℕ) : ℤ) := by
    rw [Int.floor_eq_iff, Int.cast_natCast]
    rw [Nat.cast_add, Nat.cast_one] at z2
    exact ⟨z1, z2⟩
  rw [vw, h1, Int.cast_natCast]

/-- `2 / 3` and the largest dividend with a small divisor -/
example : (∃ x : F256, IsFin x.pat ∧ val x.pat = (2 ^ 237 - 1 : ℤ)) ∧ ∃ y : F256, IsFin y.pat ∧ val y.pat = (3 : ℤ) :=
  ⟨exists_integer (by norm_num), exists_integer (by norm_num)⟩

end Verif.Props
