import Verif.Proofs.TrigPi
import Verif.Proofs.TrigUlp
import Verif.Proofs.TrigFrom
import Verif.Proofs.ExactClose
import Verif.Props.Add
import Verif.Props.Conv
import Mathlib.Analysis.Real.Pi.Bounds

/-!
# The reduction of arguments below 8
-/

set_option exponentiation.threshold 2000

namespace Verif.Trig

open FP492 Spec

/-- The distance of a number to the multiples of `π/2` -/
theorem far {x : F256} {m : ℕ} {E : ℤ} (h : Arg x m E) (hE : 0 ≤ E) (k : ℤ) :
    3 / 2 ^ 255 * (Real.pi / 2) ≤ |val x.pat - k * (Real.pi / 2)| := by
  obtain ⟨e, rfl⟩ := Int.eq_ofNat_of_zero_le hE
  have h2 := h.E_range
  have hd := TrigCert.dist_lower (e := e) (m := m) (by omega) h.m_pos h.m_lt k
  have hv : val x.pat = (m : ℝ) / 2 ^ 236 * 2 ^ e := by
    rw [h.val_eq, zpow_sub₀ (by norm_num), zpow_natCast]
    have e3 : ((2 : ℝ) ^ (236 : ℤ)) = 2 ^ 236 := rfl
    rw [e3, mul_div_assoc', div_mul_eq_mul_div]
  rw [← hv] at hd
  have hp := Real.pi_pos
  have e : val x.pat - k * (Real.pi / 2) = (val x.pat * (2 / Real.pi) - k) * (Real.pi / 2) := by
    field_simp
  rw [e, abs_mul, abs_of_pos (by positivity : 0 < Real.pi / 2)]
  exact mul_le_mul_of_nonneg_right hd (by positivity)

theorem reduced_of' {x : ℝ} {Y : FP492} (k : ℤ) {q : ℕ} (hq : k % 4 = q)
    (h1 : |(sval Y : ℝ) - (x - k * (Real.pi / 2)) * 2 ^ 492| ≤ 3 + |(sval Y : ℝ)| / 2 ^ 245)
    (h2 : |x - k * (Real.pi / 2)| ≤ 79 / 100) (h3 : 3 / 2 ^ 255 * (Real.pi / 2) ≤ |x - k * (Real.pi / 2)|) :
    Reduced x q Y := by
  have hpi := Real.pi_gt_d2
  have h4 : |(sval Y : ℝ) / 2 ^ 492 - (x - k * (Real.pi / 2))| ≤ 3 / 2 ^ 492 + |(sval Y : ℝ) / 2 ^ 492| / 2 ^ 245 := by
    have e1 : (sval Y : ℝ) / 2 ^ 492 - (x - k * (Real.pi / 2)) =
      ((sval Y : ℝ) - (x - k * (Real.pi / 2)) * 2 ^ 492) / 2 ^ 492 := by field_simp
    have e2 : 3 / 2 ^ 492 + |(sval Y : ℝ) / 2 ^ 492| / 2 ^ 245 = (3 + |(sval Y : ℝ)| / 2 ^ 245) / 2 ^ 492 := by
      rw [abs_div, abs_of_pos (by positivity : (0 : ℝ) < 2 ^ 492)]
      ring
    rw [e1, e2, abs_div, abs_of_pos (by positivity : (0 : ℝ) < 2 ^ 492)]
    gcongr
  have h8 : |(sval Y : ℝ) / 2 ^ 492| / 2 ^ 245 ≤ 1 / 1000 * |(sval Y : ℝ) / 2 ^ 492| := by
    rw [div_eq_mul_inv, mul_comm]
    exact mul_le_mul_of_nonneg_right (by norm_num) (abs_nonneg _)
  have h8' : |(sval Y : ℝ) / 2 ^ 492| / 2 ^ 245 ≤ 1 / 100 * |(sval Y : ℝ) / 2 ^ 492| := by
    linarith [abs_nonneg ((sval Y : ℝ) / 2 ^ 492)]
  refine ⟨k, x - k * (Real.pi / 2), by ring, hq, ?_, ?_, ?_⟩
  · have := abs_add_le ((sval Y : ℝ) / 2 ^ 492 - (x - k * (Real.pi / 2))) (x - k * (Real.pi / 2))
    rw [sub_add_cancel] at this
    have h5 : (3 : ℝ) / 2 ^ 492 ≤ 1 / 1000 := by norm_num
    linarith
  all_goals
    have h5 : 1 / 2 ^ 253 ≤ |(sval Y : ℝ) / 2 ^ 492| := by
      have := abs_sub_abs_le_abs_sub (x - k * (Real.pi / 2)) ((sval Y : ℝ) / 2 ^ 492)
      rw [abs_sub_comm (x - k * (Real.pi / 2)) ((sval Y : ℝ) / 2 ^ 492)] at this
      have h6 : (3 : ℝ) / 2 ^ 255 * (Real.pi / 2) ≥ 3 / 2 ^ 255 * (3.14 / 2) := by
        refine mul_le_mul_of_nonneg_left (by linarith) (by positivity)
      have h7 : (3 : ℝ) / 2 ^ 255 * (3.14 / 2) - 3 / 2 ^ 492 ≥ 101 / 100 * (1 / 2 ^ 253) := by norm_num
      linarith
  · intro hz
    rw [hz, Int.cast_zero, zero_div, abs_zero] at h5
    exact absurd h5 (not_le.mpr (by positivity))
  · exact Or.inr ⟨h5, h4⟩

theorem reduced_of {x : ℝ} {Y : FP492} (k : ℤ) {q : ℕ} (hq : k % 4 = q)
    (h1 : |(sval Y : ℝ) - (x - k * (Real.pi / 2)) * 2 ^ 492| ≤ 3)
    (h2 : |x - k * (Real.pi / 2)| ≤ 79 / 100) (h3 : 3 / 2 ^ 255 * (Real.pi / 2) ≤ |x - k * (Real.pi / 2)|) :
    Reduced x q Y :=
  reduced_of' k hq (h1.trans (le_add_of_nonneg_right (by positivity))) h2 h3

/-- Small arguments need no reduction. -/
theorem reduced_direct {x : F256} {m : ℕ} {E : ℤ} (h : Arg x m E) (hE : E ≤ -1) (hE2 : -256 ≤ E)
    (h1 : val x.pat ≤ 4 / 5) : Reduced (val x.pat) 0 (FP492.fromF256 x) := by
  have hv := sval_from_exact h (by omega) hE2
  have h0 : 0 < val x.pat := by
    rw [h.val_eq]
    exact mul_pos (by exact_mod_cast h.m_pos) (by positivity)
  refine ⟨0, val x.pat, by rw [Int.cast_zero, zero_mul, zero_add], rfl, ?_, ?_, Or.inl hv⟩
  · rw [hv, abs_of_pos h0]; exact h1
  · intro hz
    rw [hz, Int.cast_zero, zero_div] at hv
    linarith

theorem sval_sub {x y : FP492} (hx : (sval x).natAbs ≤ 2 ^ 498) (hy : (sval y).natAbs ≤ 2 ^ 498) :
    sval (FP492.sub x y) = sval x - sval y := by
  unfold FP492.sub
  have h1 : sval (ineg y) = - sval y := sval_ineg (by omega)
  rw [sval_add (by rw [h1]; omega) (by rw [h1]; omega), h1]
  ring

theorem sval_add' {x y : FP492} (hx : (sval x).natAbs ≤ 2 ^ 498) (hy : (sval y).natAbs ≤ 2 ^ 498) :
    sval (FP492.add x y) = sval x + sval y := by
  refine sval_add ?_ ?_ <;> omega

theorem sub_k {x y : FP492} {n : ℕ} (hx : (sval x).natAbs ≤ n * 2 ^ 495) (hy : (sval y).natAbs ≤ 2 ^ 495)
    (hn : n ≤ 7 := by norm_num) :
    sval (FP492.sub x y) = sval x - sval y ∧ (sval (FP492.sub x y)).natAbs ≤ (n + 1) * 2 ^ 495 := by
  have h := sval_sub (x := x) (y := y) (by omega) (by omega)
  refine ⟨h, ?_⟩
  rw [h, Nat.add_mul, Nat.one_mul]
  exact (Int.natAbs_sub_le _ _).trans (Nat.add_le_add hx hy)

theorem add_k {x y : FP492} {n : ℕ} (hx : (sval x).natAbs ≤ n * 2 ^ 495) (hy : (sval y).natAbs ≤ 2 ^ 495)
    (hn : n ≤ 7 := by norm_num) :
    sval (FP492.add x y) = sval x + sval y ∧ (sval (FP492.add x y)).natAbs ≤ (n + 1) * 2 ^ 495 := by
  have h := sval_add' (x := x) (y := y) (by omega) (by omega)
  refine ⟨h, ?_⟩
  rw [h, Nat.add_mul, Nat.one_mul]
  exact (Int.natAbs_add_le _ _).trans (Nat.add_le_add hx hy)

/-- The value of a positive number lies between the powers of two given by its exponent. -/
theorem Arg.range {x : F256} {m : ℕ} {E : ℤ} (h : Arg x m E) (hE : -262142 < E) :
    (2 : ℝ) ^ E ≤ val x.pat ∧ val x.pat < 2 * 2 ^ E := by
  rw [h.val_eq]
  have h1 : (2 : ℝ) ^ 236 ≤ m := by exact_mod_cast h.m_ge hE
  have h2 : (m : ℝ) < 2 ^ 237 := by exact_mod_cast h.m_lt
  have e : (2 : ℝ) ^ E = 2 ^ 236 * 2 ^ (E - 236) := by
    rw [← zpow_natCast, ← zpow_add₀ (by norm_num)]
    congr 1
    push_cast
    ring
  have hp : (0 : ℝ) < 2 ^ (E - 236) := by positivity
  constructor
  · rw [e]; exact mul_le_mul_of_nonneg_right h1 hp.le
  · rw [e, ← mul_assoc]
    refine mul_lt_mul_of_pos_right ?_ hp
    linarith [show (2 : ℝ) ^ 237 = 2 * 2 ^ 236 by norm_num]

theorem consts_small : (sval FP_FRAC_PI_2).natAbs ≤ 2 ^ 495 ∧ (sval FP_PI).natAbs ≤ 2 ^ 495 ∧
    (sval FP492.TWO).natAbs ≤ 2 ^ 495 ∧ sval FP492.TWO = 2 * 2 ^ 492 := by decide +kernel

/-- Comparisons with real bounds -/
theorem le_real {X Y : FP492} {a b c : ℝ} (h : FP492.le X Y = true) (hX : (sval X : ℝ) = a * 2 ^ 492)
    (hY : |(sval Y : ℝ) + c * 2 ^ 492 - b * 2 ^ 492| ≤ 1) : a ≤ b - c + 1 / 1000 := by
  rw [le_iff] at h
  have h1 : (sval X : ℝ) ≤ sval Y := by exact_mod_cast h
  rw [hX] at h1
  rw [abs_le] at hY
  have h2 : a * 2 ^ 492 ≤ (b - c + 1 / 1000) * 2 ^ 492 := by
    have : (1 : ℝ) ≤ 1 / 1000 * 2 ^ 492 := by norm_num
    linarith
  exact le_of_mul_le_mul_right h2 (by positivity)

theorem gt_real {X Y : FP492} {a b c : ℝ} (h : ¬ FP492.le X Y = true) (hX : (sval X : ℝ) = a * 2 ^ 492)
    (hY : |(sval Y : ℝ) + c * 2 ^ 492 - b * 2 ^ 492| ≤ 1) : b - c - 1 / 1000 ≤ a := by
  rw [le_iff, not_le] at h
  have h1 : (sval Y : ℝ) < sval X := by exact_mod_cast h
  rw [hX] at h1
  rw [abs_le] at hY
  have h2 : (b - c - 1 / 1000) * 2 ^ 492 ≤ a * 2 ^ 492 := by
    have : (1 : ℝ) ≤ 1 / 1000 * 2 ^ 492 := by norm_num
    linarith
  exact le_of_mul_le_mul_right h2 (by positivity)

theorem zero_form {a b : ℝ} (h : |a - b * 2 ^ 492| ≤ 1) : |a + 0 * 2 ^ 492 - b * 2 ^ 492| ≤ 1 := by
  rwa [zero_mul, add_zero]

theorem natAbs_val {X : FP492} {a : ℝ} (hX : (sval X : ℝ) = a * 2 ^ 492) (h0 : 0 ≤ a) (h : a ≤ 8) :
    (sval X).natAbs ≤ 2 ^ 495 := by
  refine natAbs_le_of (r := 8 * 2 ^ 492) ?_ (by norm_num)
  rw [hX, abs_of_nonneg (by positivity)]
  exact mul_le_mul_of_nonneg_right h (by positivity)

theorem fpReduce_m1 {x : F256} {m : ℕ} (h : Arg x m (-1)) :
    ∃ q Y, fpReduce (-1) x = some (q, Y) ∧ Reduced (val x.pat) q Y := by
  obtain ⟨r1, r2⟩ := h.range (by norm_num)
  have hv := sval_from_exact h (by norm_num) (by norm_num)
  have hX : (sval (FP492.fromF256 x) : ℝ) = val x.pat * 2 ^ 492 := by rw [← hv]; field_simp
  obtain ⟨k1, k2, k3, k4, k5, k7, k9⟩ := consts_spec
  obtain ⟨n1, n2, n3, n4⟩ := consts_small
  have hp1 := Real.pi_gt_d4
  have hp2 := Real.pi_lt_d4
  norm_num at r1 r2
  have hn := natAbs_val hX (by linarith) (by linarith)
  unfold fpReduce
  rw [if_pos rfl]
  dsimp only
  by_cases hc : FP492.le (FP492.fromF256 x) FP_FRAC_PI_4 = true
  · rw [if_pos hc]
    have := le_real (c := 0) hc hX (zero_form k1)
    exact ⟨_, _, rfl, reduced_direct h (by norm_num) (by norm_num) (by linarith)⟩
  · rw [if_neg hc]
    have := gt_real (c := 0) hc hX (zero_form k1)
    refine ⟨_, _, rfl, reduced_of 1 rfl ?_ ?_ ?_⟩
    · rw [sval_sub (by omega) (by omega), Int.cast_sub, hX, Int.cast_one]
      rw [abs_le] at k2 ⊢
      constructor <;> linarith
    · rw [Int.cast_one, abs_le]
      constructor <;> linarith
    · rw [Int.cast_one, abs_of_neg (by linarith)]
      have : 3 / 2 ^ 255 * (Real.pi / 2) ≤ 1 / 1000 := by
        have : (3 : ℝ) / 2 ^ 255 * (Real.pi / 2) ≤ 3 / 2 ^ 255 * 2 := by gcongr; linarith
        refine this.trans (by norm_num)
      linarith

theorem fpReduce_0 {x : F256} {m : ℕ} (h : Arg x m 0) :
    ∃ q Y, fpReduce 0 x = some (q, Y) ∧ Reduced (val x.pat) q Y := by
  obtain ⟨r1, r2⟩ := h.range (by norm_num)
  have hv := sval_from_exact h (by norm_num) (by norm_num)
  have hX : (sval (FP492.fromF256 x) : ℝ) = val x.pat * 2 ^ 492 := by rw [← hv]; field_simp
  obtain ⟨k1, k2, k3, k4, k5, k7, k9⟩ := consts_spec
  obtain ⟨n1, n2, n3, n4⟩ := consts_small
  have hp1 := Real.pi_gt_d4
  have hp2 := Real.pi_lt_d4
  norm_num at r1 r2
  have hn := natAbs_val hX (by linarith) (by linarith)
  unfold fpReduce
  rw [if_neg (by norm_num), if_pos rfl]
  refine ⟨_, _, rfl, reduced_of 1 rfl ?_ ?_ (far h le_rfl 1)⟩
  · rw [sval_sub (by omega) (by omega), Int.cast_sub, hX, Int.cast_one]
    rw [abs_le] at k2 ⊢
    constructor <;> linarith
  · rw [Int.cast_one, abs_le]
    constructor <;> linarith

theorem fpReduce_1 {x : F256} {m : ℕ} (h : Arg x m 1) :
    ∃ q Y, fpReduce 1 x = some (q, Y) ∧ Reduced (val x.pat) q Y := by
  obtain ⟨r1, r2⟩ := h.range (by norm_num)
  have hv := sval_from_exact h (by norm_num) (by norm_num)
  have hX : (sval (FP492.fromF256 x) : ℝ) = val x.pat * 2 ^ 492 := by rw [← hv]; field_simp
  obtain ⟨k1, k2, k3, k4, k5, k7, k9⟩ := consts_spec
  obtain ⟨n1, n2, n3, n4⟩ := consts_small
  have hp1 := Real.pi_gt_d4
  have hp2 := Real.pi_lt_d4
  norm_num at r1 r2
  have hn := natAbs_val hX (by linarith) (by linarith)
  unfold fpReduce
  rw [if_neg (by norm_num), if_neg (by norm_num), if_pos rfl]
  dsimp only
  by_cases hc : FP492.le (FP492.fromF256 x) FP_FRAC_3_PI_4 = true
  · rw [if_pos hc]
    have := le_real (c := 0) hc hX (zero_form k3)
    refine ⟨_, _, rfl, reduced_of 1 rfl ?_ ?_ (far h (by norm_num) 1)⟩
    · rw [sval_sub (by omega) (by omega), Int.cast_sub, hX, Int.cast_one]
      rw [abs_le] at k2 ⊢
      constructor <;> linarith
    · rw [Int.cast_one, abs_le]
      constructor <;> linarith
  · rw [if_neg hc]
    have g1 := gt_real (c := 0) hc hX (zero_form k3)
    by_cases hc : FP492.le (FP492.fromF256 x) FP_FRAC_5_PI_4 = true
    · rw [if_pos hc]
      have := le_real (c := 0) hc hX (zero_form k5)
      refine ⟨_, _, rfl, reduced_of 2 rfl ?_ ?_ (far h (by norm_num) 2)⟩
      · rw [sval_sub (by omega) (by omega), Int.cast_sub, hX, Int.cast_ofNat]
        rw [abs_le] at k4 ⊢
        constructor <;> linarith
      · rw [Int.cast_ofNat, abs_le]
        constructor <;> linarith
    · rw [if_neg hc]
      have := gt_real (c := 0) hc hX (zero_form k5)
      refine ⟨_, _, rfl, reduced_of 3 rfl ?_ ?_ (far h (by norm_num) 3)⟩
      · have s1 := sval_sub (x := FP492.fromF256 x) (y := FP_PI) (by omega) (by omega)
        rw [sval_sub (by rw [s1]; omega) (by omega), s1, Int.cast_sub, Int.cast_sub, hX, Int.cast_ofNat]
        rw [abs_le] at k2 k4 ⊢
        constructor <;> linarith
      · rw [Int.cast_ofNat, abs_le]
        constructor <;> linarith

/-- Numbers with at most 237 significant bits are representable. -/
theorem exists_scaled_pat {n s : ℕ} (h0 : 0 < n) (hn : n < 2 ^ 237) (h1 : 236 ≤ s) (h2 : s ≤ 524285) :
    ∃ M, M < 2 ^ 256 ∧ IsFin M ∧ val M = n * 2 ^ s / 2 ^ 262378 := by
  have hL : n.log2 ≤ 236 := by
    have := (Nat.log2_lt h0.ne').mpr hn
    omega
  have l1 : 2 ^ n.log2 ≤ n := Nat.log2_self_le h0.ne'
  have l2 : n < 2 ^ (n.log2 + 1) := Nat.lt_log2_self
  obtain ⟨d, hd⟩ := Nat.exists_eq_add_of_le hL
  have a1 : 2 ^ 236 ≤ n * 2 ^ d := by
    rw [hd, pow_add]; exact Nat.mul_le_mul_right _ l1
  have a2 : n * 2 ^ d < 2 ^ 237 := by
    calc n * 2 ^ d < 2 ^ (n.log2 + 1) * 2 ^ d := Nat.mul_lt_mul_of_pos_right l2 (Nat.two_pow_pos d)
      _ = 2 ^ 237 := by rw [← pow_add]; congr 1; omega
  have hN : (s - d) * 2 ^ 236 + n * 2 ^ d < INF := by
    unfold INF
    have : (s - d) * 2 ^ 236 ≤ 524285 * 2 ^ 236 := Nat.mul_le_mul_right _ (by omega)
    omega
  have hmag := mag_asm (Or.inr a1) a2.le hN
  obtain ⟨A, hA⟩ : ∃ A, (s - d) * 2 ^ 236 + n * 2 ^ d = A := ⟨_, rfl⟩
  rw [hA] at hN hmag
  have hAl : A < 2 ^ 255 := by unfold INF at hN; omega
  have hmod : A % 2 ^ 255 = A := by omega
  have hsb : signBit A = 0 := by unfold signBit; omega
  refine ⟨A, by omega, ?_, ?_⟩
  · rw [fin_iff, hmod]; exact hN
  · have e2 : n * 2 ^ d * 2 ^ (s - d) = n * 2 ^ s := by
      rw [mul_assoc, ← pow_add]; congr 2; omega
    rw [_root_.Verif.val_eq, hsb, ← mag_abs, hmod, hmag, e2, Nat.cast_mul, Nat.cast_pow, Nat.cast_ofNat, pow_zero, one_mul]

theorem exact_of_rep {q : ℝ} {N M : ℕ} (h : IsRNE q N) (hM : M < 2 ^ 256) (fM : IsFin M) (hv : val M = q)
    (hq : |q| < overflowThreshold) : IsFin N ∧ val N = q := by
  obtain ⟨h1, h2⟩ := _root_.Verif.IsRNE.exact_close h hM fM hq (by
    rw [hv, sub_self, abs_zero]; positivity)
  exact ⟨h1, h2.trans hv⟩

theorem sval_from_zero {z : F256} (h : IsZero z.pat) : sval (FP492.fromF256 z) = 0 := by
  have hs : z = F256.ZERO ∨ z = F256.NEG_ZERO := by
    rw [isZero_iff] at h
    have hlt := pat_lt z
    rcases (by omega : z.pat = 0 ∨ z.pat = 2 ^ 255) with h1 | h1
    · left; exact pat_inj (by rw [h1]; decide)
    · right; exact pat_inj (by rw [h1]; decide)
  rcases hs with rfl | rfl <;> decide +kernel

/-- The subtraction of 4 is exact. -/
theorem sub_four {x : F256} {m : ℕ} (h : Arg x m 2) : ∃ z, F256.sub x (F256.fromU64 4#64) = some z ∧
    (sval (FP492.fromF256 z) : ℝ) = (val x.pat - 4) * 2 ^ 492 := by
  obtain ⟨d1, d2, -⟩ := Props.fromU64_denotes 4#64
  have h4 : val (F256.fromU64 4#64).pat = 4 := by
    rw [d2]
    have : (4#64).toNat = 4 := by decide
    rw [this]
    norm_num
  obtain ⟨z, hz, hr⟩ := Props.C02_sub x _ h.1 d1
  rw [h4] at hr
  refine ⟨z, hz, ?_⟩
  obtain ⟨r1, r2⟩ := h.range (by norm_num)
  have hge := h.m_ge (by norm_num)
  have hml := h.m_lt
  norm_num at r1 r2
  have hthr : |val x.pat - 4| < overflowThreshold := by
    rw [abs_of_nonneg (by linarith)]
    unfold overflowThreshold
    have h2 : (2 : ℝ) ^ (3 : ℤ) ≤ 2 ^ (262143 : ℤ) := zpow_le_zpow_right₀ (by norm_num) (by norm_num)
    have h5 : (2 : ℝ) ^ (3 : ℤ) = 8 := by norm_num
    have h6 : (1 : ℝ) ≤ 2 - (2 : ℝ) ^ (-237 : ℤ) := by
      have : (2 : ℝ) ^ (-237 : ℤ) ≤ 2 ^ (0 : ℤ) := zpow_le_zpow_right₀ (by norm_num) (by norm_num)
      rw [zpow_zero] at this
      linarith
    rw [h5] at h2
    have h7 := mul_le_mul h6 h2 (by norm_num) (by linarith)
    exact lt_of_lt_of_le (by linarith) h7
  obtain ⟨n, rfl⟩ := Nat.exists_eq_add_of_le hge
  have hv : val x.pat - 4 = n / 2 ^ 234 := by
    rw [h.val_eq, Nat.cast_add, Nat.cast_pow, Nat.cast_ofNat]
    have : (2 : ℝ) ^ (2 - 236 : ℤ) = 1 / 2 ^ 234 := by norm_num
    rw [this, add_mul]
    have : (2 : ℝ) ^ 236 * (1 / 2 ^ 234) = 4 := by norm_num
    rw [this]
    ring
  rcases Nat.eq_zero_or_pos n with h0 | h0
  · have hq : val x.pat - 4 = 0 := by rw [hv, h0]; simp
    rw [hq] at hr
    have hzero : val z.pat = 0 := by
      have := hr.nearest (by rw [abs_zero]; rw [hq, abs_zero] at hthr; exact hthr) 0 (by norm_num) (by decide)
      rw [val_zero (N := 0) (by decide), sub_zero, sub_zero, abs_zero] at this
      exact abs_eq_zero.mp (le_antisymm this (abs_nonneg _))
    have hfin := hr.fin (by rw [hq] at hthr; exact hthr)
    rw [sval_from_zero ((val_eq_zero_iff hfin).mp hzero), hq]
    simp
  · obtain ⟨M, m1, m2, m3⟩ := exists_scaled_pat h0 (by omega : n < 2 ^ 237) (s := 262144) (by norm_num) (by norm_num)
    have hq : val M = val x.pat - 4 := by
      rw [m3, hv]
      have e : (2 : ℝ) ^ 262378 = 2 ^ 262144 * 2 ^ 234 := by rw [← pow_add]
      have hK : (2 : ℝ) ^ 262144 ≠ 0 := pow_ne_zero _ (by norm_num)
      rw [e, mul_comm (n : ℝ), mul_div_mul_left _ _ hK]
    obtain ⟨f1, f2⟩ := exact_of_rep hr m1 m2 hq hthr
    have hpos : 0 < val x.pat - 4 := by rw [hv]; positivity
    have hnz : ¬ IsZero z.pat := by
      rw [← val_eq_zero_iff f1, f2]; exact hpos.ne'
    clear m3 hq m1 m2 M
    obtain ⟨m', E', hA⟩ := exists_arg z f1 hnz (hr.pos hpos)
    have hlow : 1 / 2 ^ 234 ≤ val z.pat := by
      rw [f2, hv]
      have : (1 : ℝ) ≤ n := by exact_mod_cast h0
      gcongr
    have hE1 : -256 ≤ E' := by
      by_contra hcon
      have t1 : val z.pat ≤ 2 ^ 237 * 2 ^ (E' - 236) := by
        rw [hA.val_eq]
        exact mul_le_mul_of_nonneg_right (by exact_mod_cast hA.m_lt.le) (by positivity)
      have t2 : (2 : ℝ) ^ (E' - 236) ≤ 2 ^ (-492 : ℤ) := zpow_le_zpow_right₀ (by norm_num) (by omega)
      have t3 : (2 : ℝ) ^ 237 * 2 ^ (-492 : ℤ) < 1 / 2 ^ 234 := by norm_num
      have t4 := mul_le_mul_of_nonneg_left t2 (by positivity : (0 : ℝ) ≤ 2 ^ 237)
      exact absurd (hlow.trans (t1.trans t4)) (not_le.mpr t3)
    have hE2 : E' ≤ 18 := by
      by_contra hcon
      obtain ⟨t1, -⟩ := hA.range (by omega)
      have t2 : (2 : ℝ) ^ (18 : ℤ) ≤ 2 ^ E' := zpow_le_zpow_right₀ (by norm_num) (by omega)
      rw [f2] at t1
      norm_num at t2
      linarith
    have := sval_from_exact hA hE2 hE1
    rw [f2] at this
    rw [← this]
    field_simp

theorem fpReduce_2 {x : F256} {m : ℕ} (h : Arg x m 2) :
    ∃ q Y, fpReduce 2 x = some (q, Y) ∧ Reduced (val x.pat) q Y := by
  obtain ⟨r1, r2⟩ := h.range (by norm_num)
  obtain ⟨k1, k2, k3, k4, k5, k7, k9⟩ := consts_spec
  obtain ⟨n1, n2, n3, n4⟩ := consts_small
  have n4' : (sval FP492.TWO : ℝ) = 2 * 2 ^ 492 := by rw [n4, Int.cast_mul, Int.cast_pow, Int.cast_ofNat]
  have hp1 := Real.pi_gt_d4
  have hp2 := Real.pi_lt_d4
  norm_num at r1 r2
  obtain ⟨z, hz, hX⟩ := sub_four h
  have hn : (sval (FP492.fromF256 z)).natAbs ≤ 1 * 2 ^ 495 := by
    rw [Nat.one_mul]; exact natAbs_val hX (by linarith) (by linarith)
  unfold fpReduce
  rw [if_neg (by norm_num), if_neg (by norm_num), if_neg (by norm_num), if_pos rfl, hz]
  simp only [Option.bind_eq_bind, Option.bind_some]
  generalize FP492.fromF256 z = F at *
  by_cases hc : FP492.le F FP_FRAC_7_PI_4_M4 = true
  · rw [if_pos hc]
    have g1 := le_real hc hX k7
    refine ⟨_, _, rfl, reduced_of 3 rfl ?_ ?_ (far h (by norm_num) 3)⟩
    · obtain ⟨s1, t1⟩ := add_k hn n3
      obtain ⟨s2, t2⟩ := sub_k t1 n2
      obtain ⟨s3, t3⟩ := add_k t2 n3
      obtain ⟨s4, -⟩ := sub_k t3 n1
      rw [s4, s3, s2, s1, Int.cast_sub, Int.cast_add, Int.cast_sub, Int.cast_add, hX, n4',
        Int.cast_ofNat]
      rw [abs_le] at k2 k4 ⊢
      constructor <;> linarith
    · rw [Int.cast_ofNat, abs_le]
      constructor <;> linarith
  · rw [if_neg hc]
    have g1 := gt_real hc hX k7
    obtain ⟨s1, t1⟩ := sub_k hn n2
    obtain ⟨s2, t2⟩ := add_k t1 n3
    obtain ⟨s3, t3⟩ := sub_k t2 n2
    obtain ⟨s4, t4⟩ := add_k t3 n3
    generalize FP492.add (FP492.sub (FP492.add (FP492.sub F FP_PI) FP492.TWO) FP_PI) FP492.TWO = G at *
    have hG : (sval G : ℝ) = sval F - sval FP_PI + sval FP492.TWO - sval FP_PI + sval FP492.TWO := by
      rw [s4, s3, s2, s1, Int.cast_add, Int.cast_sub, Int.cast_add, Int.cast_sub]
    rw [hX, n4'] at hG
    by_cases hc : FP492.le F FP_FRAC_9_PI_4_M4 = true
    · rw [if_pos hc]
      have g2 := le_real hc hX k9
      refine ⟨_, _, rfl, reduced_of 4 rfl ?_ ?_ (far h (by norm_num) 4)⟩
      · rw [hG, Int.cast_ofNat]
        rw [abs_le] at k2 k4 ⊢
        constructor <;> linarith
      · rw [Int.cast_ofNat, abs_le]
        constructor <;> linarith
    · rw [if_neg hc]
      have g2 := gt_real hc hX k9
      refine ⟨_, _, rfl, reduced_of 5 rfl ?_ ?_ (far h (by norm_num) 5)⟩
      · rw [(sub_k t4 n1).1, Int.cast_sub, hG, Int.cast_ofNat]
        rw [abs_le] at k2 k4 ⊢
        constructor <;> linarith
      · rw [Int.cast_ofNat, abs_le]
        constructor <;> linarith

end Verif.Trig
