import Verif.Proofs.Pi
import Verif.Model.TwoOverPi

/-!
# The table of the binary digits of `2/π` is correct

The partial sums of Machin's formula are evaluated by binary splitting.
-/

namespace Verif.PiBig

open Finset

/-- Numerator and denominator, without the powers of `q`, of the part of the series with the `2^k` terms from `a` on -/
def bs (q : ℕ) : ℕ → ℕ → ℕ × ℕ
  | 0, a => (1, 2 * a + 1)
  | k + 1, a =>
    let l := bs q k a
    let r := bs q k (a + 2 ^ k)
    (bif Nat.beq k 0 then l.1 * r.2 * q ^ (2 ^ k) - l.2 * r.1 else l.1 * r.2 * q ^ (2 ^ k) + l.2 * r.1, l.2 * r.2)

/-- The part of the series -/
noncomputable def part (q a n : ℕ) : ℝ := ∑ i ∈ range n, (-1) ^ i / ((2 * (a + i : ℕ) + 1) * (q : ℝ) ^ i)

theorem part_split (q a n m : ℕ) :
    part q a (n + m) = part q a n + (-1) ^ n / (q : ℝ) ^ n * part q (a + n) m := by
  unfold part
  rw [sum_range_add, mul_sum]
  congr 1
  refine sum_congr rfl fun i _ => ?_
  rw [add_assoc a n i, pow_add, pow_add, div_mul_div_comm]
  ring

theorem comb {l1 l2 r1 r2 q p P1 P2 σ : ℝ} (hp : p ≠ 0) (h1 : l1 * q = P1 * l2 * p) (h2 : r1 * q = P2 * r2 * p) :
    (l1 * r2 * p + σ * (l2 * r1)) * q = (P1 + σ / p * P2) * (l2 * r2) * (p * p) := by
  have : (P1 + σ / p * P2) * (l2 * r2) * (p * p) = P1 * l2 * p * (r2 * p) + σ * l2 * (P2 * r2 * p) := by
    field_simp
  rw [this, ← h1, ← h2]
  ring

theorem bs_spec {q : ℕ} (hq : 1 ≤ q) (k a : ℕ) : 0 < (bs q k a).2 ∧
    ((bs q k a).1 : ℝ) * q = part q a (2 ^ k) * (bs q k a).2 * (q : ℝ) ^ (2 ^ k) := by
  induction k generalizing a with
  | zero =>
    refine ⟨by simp [bs], ?_⟩
    simp only [bs, part]
    rw [pow_zero, sum_range_one]
    have : ((2 * a + 1 : ℕ) : ℝ) ≠ 0 := by positivity
    push_cast at *
    field_simp
    simp
  | succ k ih =>
    obtain ⟨l1, l2⟩ := ih a
    obtain ⟨r1, r2⟩ := ih (a + 2 ^ k)
    have hq0 : (q : ℝ) ≠ 0 := by
      have : (0 : ℝ) < q := by exact_mod_cast hq
      exact this.ne'
    have hp := pow_ne_zero (2 ^ k) hq0
    refine ⟨Nat.mul_pos l1 r1, ?_⟩
    have e : (2 : ℕ) ^ (k + 1) = 2 ^ k + 2 ^ k := by ring
    have hu : bs q (k + 1) a = (bif Nat.beq k 0
        then (bs q k a).1 * (bs q k (a + 2 ^ k)).2 * q ^ (2 ^ k) - (bs q k a).2 * (bs q k (a + 2 ^ k)).1
        else (bs q k a).1 * (bs q k (a + 2 ^ k)).2 * q ^ (2 ^ k) + (bs q k a).2 * (bs q k (a + 2 ^ k)).1,
        (bs q k a).2 * (bs q k (a + 2 ^ k)).2) := rfl
    rw [e, part_split, pow_add, hu, Nat.cast_mul]
    rw [← comb hp l2 r2]
    congr 1
    by_cases hk : k = 0
    · subst hk
      simp only [bs, pow_zero, pow_one, Nat.beq, cond_true]
      rw [Nat.cast_sub (by nlinarith)]
      push_cast
      ring
    · have hs : ((-1 : ℝ)) ^ (2 ^ k) = 1 := by
        apply Even.neg_one_pow
        exact (Nat.even_pow.mpr ⟨even_two, hk⟩)
      have hb : Nat.beq k 0 = false := by cases k <;> simp_all [Nat.beq]
      rw [hs, hb, cond_false, Nat.cast_add, Nat.cast_mul, Nat.cast_mul, Nat.cast_mul, Nat.cast_pow, one_mul]

/-- The partial sums of the series of `arctan (1/d)` -/
theorem atanSum_bs {d : ℕ} (hd : 1 ≤ d) (k : ℕ) :
    ((atanSum d (2 ^ k) : ℚ) : ℝ) * ((bs (d * d) k 0).2 * (d : ℝ) ^ (2 * 2 ^ k)) = d * (bs (d * d) k 0).1 := by
  have hq : 1 ≤ d * d := Nat.mul_pos hd hd
  have hd0 : (d : ℝ) ≠ 0 := by
    have : (0 : ℝ) < d := by exact_mod_cast hd
    exact this.ne'
  obtain ⟨-, h⟩ := bs_spec hq k 0
  have hpart : part (d * d) 0 (2 ^ k) = d * ((atanSum d (2 ^ k) : ℚ) : ℝ) := by
    rw [atanSum_eq, part, mul_sum]
    refine sum_congr rfl fun i _ => ?_
    rw [zero_add, Nat.cast_mul, ← pow_two, ← pow_mul, inv_pow, pow_succ]
    have h1 : (2 * (i : ℝ) + 1) ≠ 0 := by positivity
    have h2 := pow_ne_zero (2 * i) hd0
    field_simp
  rw [hpart, Nat.cast_mul, ← pow_two (d : ℝ), ← pow_mul] at h
  have : (d : ℝ) * (((atanSum d (2 ^ k) : ℚ) : ℝ) * ((bs (d * d) k 0).2 * (d : ℝ) ^ (2 * 2 ^ k))) =
      d * (d * (bs (d * d) k 0).1) := by linear_combination -h
  exact mul_left_cancel₀ hd0 this

/-- The comparison for the lower bound; `s`, `t`: the sums for `1/5` and `1/239`, `p`, `r`: the powers of 5 and 239 -/
def lowOk (T M p r : ℕ) (s t : ℕ × ℕ) : Bool :=
  Nat.ble (T * (16 * 5 * s.1 * t.2 * r + 16 * s.2 * t.2 * r))
    (M * (s.2 * p) * (t.2 * r) + T * (4 * 239 * t.1 * s.2 * p))

/-- The comparison for the upper bound -/
def highOk (T M p r : ℕ) (s t : ℕ × ℕ) : Bool :=
  Nat.blt (M * (s.2 * p) * (t.2 * r) + (T + 1) * (4 * 239 * t.1 * s.2 * p + 4 * s.2 * p * t.2))
    ((T + 1) * (16 * 5 * s.1 * t.2 * r))

set_option exponentiation.threshold 300000 in
theorem low_ok : lowOk Trig.TWO_OVER_PI (2 ^ 262873) (5 ^ (2 * 2 ^ 16)) (239 ^ (2 * 2 ^ 15)) (bs (5 * 5) 16 0)
    (bs (239 * 239) 15 0) = true := by decide +kernel

set_option exponentiation.threshold 300000 in
theorem high_ok : highOk Trig.TWO_OVER_PI (2 ^ 262873) (5 ^ (2 * 2 ^ 16)) (239 ^ (2 * 2 ^ 15)) (bs (5 * 5) 16 0)
    (bs (239 * 239) 15 0) = true := by decide +kernel

theorem low_core {T M p r s1 s2 t1 t2 : ℕ} {π S R : ℝ} (h : lowOk T M p r (s1, s2) (t1, t2) = true)
    (hs : 0 < s2) (ht : 0 < t2) (hp : 0 < p) (hr : 0 < r)
    (h5 : S * (s2 * p) = 5 * s1) (h239 : R * (t2 * r) = 239 * t1) (hπ : π ≤ 16 * (S + 1 / p) - 4 * R) :
    T * π ≤ M := by
  have h1 : T * (16 * 5 * s1 * t2 * r + 16 * s2 * t2 * r) ≤ M * (s2 * p) * (t2 * r) + T * (4 * 239 * t1 * s2 * p) :=
    Nat.le_of_ble_eq_true h
  have h2 : (T : ℝ) * (16 * 5 * s1 * t2 * r + 16 * s2 * t2 * r) ≤
      M * (s2 * p) * (t2 * r) + T * (4 * 239 * t1 * s2 * p) := by exact_mod_cast h1
  have hs' : (0 : ℝ) < s2 := by exact_mod_cast hs
  have ht' : (0 : ℝ) < t2 := by exact_mod_cast ht
  have hp' : (0 : ℝ) < p := by exact_mod_cast hp
  have hr' : (0 : ℝ) < r := by exact_mod_cast hr
  have hT : (0 : ℝ) ≤ T := Nat.cast_nonneg _
  have h3 : (T : ℝ) * (16 * (S + 1 / p) - 4 * R) * ((s2 * p) * (t2 * r)) ≤ M * ((s2 * p) * (t2 * r)) := by
    have e : (T : ℝ) * (16 * (S + 1 / p) - 4 * R) * ((s2 * p) * (t2 * r)) =
        T * (16 * (S * (s2 * p)) * (t2 * r) + 16 * s2 * (t2 * r) - 4 * (R * (t2 * r)) * (s2 * p)) := by
      field_simp
    rw [e, h5, h239]
    linarith
  have hpos : (0 : ℝ) < (s2 * p) * (t2 * r) := by positivity
  calc T * π ≤ T * (16 * (S + 1 / p) - 4 * R) := mul_le_mul_of_nonneg_left hπ hT
    _ ≤ M := le_of_mul_le_mul_right h3 hpos

theorem high_core {T M p r s1 s2 t1 t2 : ℕ} {π S R : ℝ} (h : highOk T M p r (s1, s2) (t1, t2) = true)
    (hs : 0 < s2) (ht : 0 < t2) (hp : 0 < p) (hr : 0 < r)
    (h5 : S * (s2 * p) = 5 * s1) (h239 : R * (t2 * r) = 239 * t1) (hπ : 16 * S - 4 * (R + 1 / r) ≤ π) :
    M < (T + 1) * π := by
  have h1 : M * (s2 * p) * (t2 * r) + (T + 1) * (4 * 239 * t1 * s2 * p + 4 * s2 * p * t2) <
      (T + 1) * (16 * 5 * s1 * t2 * r) := Nat.le_of_ble_eq_true h
  have h2 : (M : ℝ) * (s2 * p) * (t2 * r) + (T + 1) * (4 * 239 * t1 * s2 * p + 4 * s2 * p * t2) <
      (T + 1) * (16 * 5 * s1 * t2 * r) := by exact_mod_cast h1
  have hs' : (0 : ℝ) < s2 := by exact_mod_cast hs
  have ht' : (0 : ℝ) < t2 := by exact_mod_cast ht
  have hp' : (0 : ℝ) < p := by exact_mod_cast hp
  have hr' : (0 : ℝ) < r := by exact_mod_cast hr
  have hT : (0 : ℝ) ≤ T + 1 := by positivity
  have h3 : (M : ℝ) * ((s2 * p) * (t2 * r)) < (T + 1) * (16 * S - 4 * (R + 1 / r)) * ((s2 * p) * (t2 * r)) := by
    have e : ((T : ℝ) + 1) * (16 * S - 4 * (R + 1 / r)) * ((s2 * p) * (t2 * r)) =
        (T + 1) * (16 * (S * (s2 * p)) * (t2 * r) - 4 * (R * (t2 * r)) * (s2 * p) - 4 * (s2 * p) * t2) := by
      field_simp
      ring
    rw [e, h5, h239]
    linarith
  have hpos : (0 : ℝ) < (s2 * p) * (t2 * r) := by positivity
  calc (M : ℝ) < (T + 1) * (16 * S - 4 * (R + 1 / r)) := lt_of_mul_lt_mul_right h3 hpos.le
    _ ≤ (T + 1) * π := mul_le_mul_of_nonneg_left hπ hT

theorem atanSum_succ_le {d n : ℕ} (hd : 1 ≤ d) :
    ((atanSum d (n + 1) : ℚ) : ℝ) ≤ ((atanSum d n : ℚ) : ℝ) + 1 / ((d ^ (2 * n) : ℕ) : ℝ) := by
  have hd1 : (1 : ℝ) ≤ d := by exact_mod_cast hd
  have hd0 : (0 : ℝ) < d := by linarith
  rw [atanSum_eq, atanSum_eq, sum_range_succ]
  have h1 : ((-1 : ℝ)) ^ n * (((d : ℝ)⁻¹) ^ (2 * n + 1) / (2 * n + 1)) ≤ 1 / ((d ^ (2 * n) : ℕ) : ℝ) := by
    have a1 : ((-1 : ℝ)) ^ n ≤ 1 := by rcases neg_one_pow_eq_or ℝ n with h | h <;> rw [h]; norm_num
    have a2 : (0 : ℝ) ≤ ((d : ℝ)⁻¹) ^ (2 * n + 1) / (2 * n + 1) := by positivity
    have a3 : ((d : ℝ)⁻¹) ^ (2 * n + 1) / (2 * n + 1) ≤ ((d : ℝ)⁻¹) ^ (2 * n + 1) :=
      div_le_self (by positivity) (by have : (0 : ℝ) ≤ n := Nat.cast_nonneg _; linarith)
    have a4 : ((d : ℝ)⁻¹) ^ (2 * n + 1) ≤ ((d : ℝ)⁻¹) ^ (2 * n) :=
      pow_le_pow_of_le_one (by positivity) (inv_le_one_of_one_le₀ hd1) (by omega)
    calc _ ≤ 1 * (((d : ℝ)⁻¹) ^ (2 * n + 1) / (2 * n + 1)) := mul_le_mul_of_nonneg_right a1 a2
      _ ≤ ((d : ℝ)⁻¹) ^ (2 * n) := by linarith
      _ = 1 / ((d ^ (2 * n) : ℕ) : ℝ) := by rw [inv_pow, Nat.cast_pow, one_div]
  linarith

/-- Bounds for `π` with partial sums of the same length -/
theorem pi_between (n m : ℕ) :
    16 * ((atanSum 5 (2 * n) : ℚ) : ℝ) - 4 * ((atanSum 239 (2 * m) : ℚ) + 1 / ((239 ^ (2 * (2 * m)) : ℕ) : ℝ)) ≤ Real.pi ∧
      Real.pi ≤ 16 * (((atanSum 5 (2 * n) : ℚ) : ℝ) + 1 / ((5 ^ (2 * (2 * n)) : ℕ) : ℝ)) -
        4 * ((atanSum 239 (2 * m) : ℚ) : ℝ) := by
  obtain ⟨h1, h2⟩ := pi_bounds n m
  have h3 := atanSum_succ_le (d := 5) (n := 2 * n) (by norm_num)
  have h4 := atanSum_succ_le (d := 239) (n := 2 * m) (by norm_num)
  constructor <;> linarith

theorem assemble {N M : ℕ} {p5 p239 T : ℕ} (hN : p5 = 5 ^ (2 * 2 ^ (N + 1))) (hM : p239 = 239 ^ (2 * 2 ^ (M + 1)))
    {B : ℕ} (hl : lowOk T B p5 p239 (bs (5 * 5) (N + 1) 0) (bs (239 * 239) (M + 1) 0) = true)
    (hh : highOk T B p5 p239 (bs (5 * 5) (N + 1) 0) (bs (239 * 239) (M + 1) 0) = true) :
    T * Real.pi ≤ B ∧ B < (T + 1) * Real.pi := by
  obtain ⟨b1, b2⟩ := pi_between (2 ^ N) (2 ^ M)
  rw [show 2 * 2 ^ N = 2 ^ (N + 1) by ring, show 2 * 2 ^ M = 2 ^ (M + 1) by ring] at b1 b2
  rw [← hM] at b1
  rw [← hN] at b2
  have s5 := atanSum_bs (d := 5) (by norm_num) (N + 1)
  have s239 := atanSum_bs (d := 239) (by norm_num) (M + 1)
  have e5 : ((5 : ℕ) : ℝ) ^ (2 * 2 ^ (N + 1)) = (p5 : ℝ) := by rw [hN, Nat.cast_pow]
  have e239 : ((239 : ℕ) : ℝ) ^ (2 * 2 ^ (M + 1)) = (p239 : ℝ) := by rw [hM, Nat.cast_pow]
  rw [e5] at s5
  rw [e239] at s239
  rw [Nat.cast_ofNat] at s5 s239
  have q5 := (bs_spec (q := 5 * 5) (by norm_num) (N + 1) 0).1
  have q239 := (bs_spec (q := 239 * 239) (by norm_num) (M + 1) 0).1
  have r5 : 0 < p5 := by rw [hN]; positivity
  have r239 : 0 < p239 := by rw [hM]; positivity
  generalize bs (5 * 5) (N + 1) 0 = s at *
  generalize bs (239 * 239) (M + 1) 0 = t at *
  exact ⟨low_core hl q5 q239 r5 r239 s5 s239 b2, high_core hh q5 q239 r5 r239 s5 s239 b1⟩

set_option exponentiation.threshold 300000 in
theorem table_pi : (Trig.TWO_OVER_PI : ℝ) * Real.pi ≤ ((2 ^ 262873 : ℕ) : ℝ) ∧
    ((2 ^ 262873 : ℕ) : ℝ) < (Trig.TWO_OVER_PI + 1) * Real.pi :=
  assemble (N := 15) (M := 14) rfl rfl low_ok high_ok

end Verif.PiBig
