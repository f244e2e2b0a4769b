import Verif.Model.TwoOverPi
import Mathlib.Tactic.Linarith
import Mathlib.Tactic.Ring
import Mathlib.Tactic.LinearCombination
import Mathlib.Tactic.GCongr
import Mathlib.Algebra.Order.Ring.Int
import Mathlib.Algebra.Order.Ring.Abs

/-!
# How close a number with 237 bits can come to a multiple of `π/2`

For a window `A` of 512 bits of the expansion of `2/π`, a certificate consists of the denominators of two neighbouring
fractions that enclose `A/2^512`. The search for the certificates is part of the evaluated function, but nothing about
it is used: only the final check counts.
-/

namespace Verif.TrigCert

def lim : ℕ := 2 ^ 237
def one : ℕ := 2 ^ 512
def delta : ℕ := 2 ^ 259

/-- Evaluates the number before it is used -/
def force (n : ℕ) (k : ℕ → Bool) : Bool := Nat.casesOn n (k 0) (fun m => k (Nat.succ m))

/-- Steps of the continued fraction until the sum of the denominators is large enough -/
def grow (A : ℕ) : ℕ → ℕ → ℕ → (ℕ → ℕ → Bool) → Bool
  | 0, q0, q1, k => k q0 q1
  | f + 1, q0, q1, k =>
    bif Nat.ble lim (q0 + q1) then k q0 q1
    else
      force (q0 * A % one) fun d0 => force (one - q1 * A % one) fun d1 =>
      bif Nat.ble d0 d1 then
        force (q1 + Nat.min ((d1 - 1) / d0) ((lim - q1 - 1) / q0) * q0) fun q1 => grow A f q0 q1 k
      else
        force (q0 + Nat.min ((d0 - 1) / d1) ((lim - q0 - 1) / q1) * q1) fun q0 => grow A f q0 q1 k

/-- The certificate is valid -/
def check (A q0 q1 : ℕ) : Bool :=
  Nat.ble lim (q0 + q1) && (Nat.ble delta (q0 * A % one) && (Nat.ble delta (one - q1 * A % one) &&
    Nat.beq (q0 * (q1 * A / one + 1)) (q1 * (q0 * A / one) + 1)))

/-- The pair to start with at the next window -/
def halve (A q0 q1 : ℕ) (k : ℕ → ℕ → Bool) : Bool :=
  bif Nat.beq (q0 % 2) 0 then force (q0 / 2) fun q0 => k q0 q1
  else bif Nat.beq (q1 % 2) 0 then force (q1 / 2) fun q1 => k q0 q1
  else bif Nat.ble (q0 * A % one) (one - q1 * A % one) then force ((q0 + q1) / 2) fun q1 => k q0 q1
  else force ((q0 + q1) / 2) fun q0 => k q0 q1

/-- Checks the windows of `C` that end at the bits `n - 1, …, 0`. -/
def go (C : ℕ) : ℕ → ℕ → ℕ → Bool
  | 0, _, _ => true
  | n + 1, q0, q1 =>
    force (C >>> n % one) fun A =>
    grow A 400 q0 q1 fun q0 q1 => check A q0 q1 && halve A q0 q1 fun q0 q1 => go C n q0 q1

/-- Checks the windows that end at the bits `lo + n - 1, …, lo`. -/
def chunk (lo n : ℕ) : Bool := force (Trig.TWO_OVER_PI >>> lo % 2 ^ (512 + n)) fun C => go C n 1 0

theorem force_eq (n : ℕ) (k : ℕ → Bool) : force n k = k n := by cases n <;> rfl

theorem grow_cont {A f q0 q1 : ℕ} {k : ℕ → ℕ → Bool} (h : grow A f q0 q1 k = true) : ∃ a b, k a b = true := by
  induction f generalizing q0 q1 with
  | zero => exact ⟨_, _, h⟩
  | succ f ih =>
    rw [grow] at h
    simp only [force_eq] at h
    revert h
    cases Nat.ble lim (q0 + q1)
    · rw [cond_false]
      cases Nat.ble (q0 * A % one) (one - q1 * A % one)
      · rw [cond_false]; exact ih
      · rw [cond_true]; exact ih
    · rw [cond_true]; exact fun h => ⟨_, _, h⟩

theorem halve_cont {A q0 q1 : ℕ} {k : ℕ → ℕ → Bool} (h : halve A q0 q1 k = true) : ∃ a b, k a b = true := by
  rw [halve] at h
  simp only [force_eq] at h
  revert h
  cases Nat.beq (q0 % 2) 0
  · rw [cond_false]
    cases Nat.beq (q1 % 2) 0
    · rw [cond_false]
      cases Nat.ble (q0 * A % one) (one - q1 * A % one)
      · exact fun h => ⟨_, _, h⟩
      · exact fun h => ⟨_, _, h⟩
    · exact fun h => ⟨_, _, h⟩
  · exact fun h => ⟨_, _, h⟩

theorem go_sound {C n q0 q1 : ℕ} (h : go C n q0 q1 = true) {j : ℕ} (hj : j < n) :
    ∃ a b, check (C >>> j % one) a b = true := by
  induction n generalizing q0 q1 with
  | zero => omega
  | succ n ih =>
    rw [go, force_eq] at h
    obtain ⟨a, b, hab⟩ := grow_cont h
    rw [Bool.and_eq_true] at hab
    by_cases e : j = n
    · rw [e]; exact ⟨a, b, hab.1⟩
    · obtain ⟨a', b', h'⟩ := halve_cont hab.2
      exact ih h' (by omega)

theorem window_mod (T lo n j : ℕ) (hj : j < n) :
    (T >>> lo % 2 ^ (512 + n)) >>> j % one = T >>> (lo + j) % one := by
  rw [Nat.shiftRight_add, one]
  generalize T >>> lo = S
  rw [Nat.shiftRight_eq_div_pow, Nat.shiftRight_eq_div_pow, show 512 + n = j + (512 + (n - j)) by omega, pow_add 2 j,
    Nat.mod_mul_right_div_self, pow_add, Nat.mod_mul_right_mod]

theorem chunk_sound {lo n : ℕ} (h : chunk lo n = true) {j : ℕ} (h1 : lo ≤ j) (h2 : j < lo + n) :
    ∃ a b, check (Trig.TWO_OVER_PI >>> j % one) a b = true := by
  rw [chunk, force_eq] at h
  obtain ⟨a, b, hab⟩ := go_sound h (j := j - lo) (by omega)
  rw [window_mod _ _ _ _ (by omega), Nat.add_sub_cancel' h1] at hab
  exact ⟨a, b, hab⟩

/-- A valid certificate: no multiple `m * A` with `m < 2^237` is close to a multiple of `2^512`. -/
theorem check_sound {A q0 q1 : ℕ} (h : check A q0 q1 = true) {m : ℕ} (h1 : 1 ≤ m) (h2 : m < lim) (k : ℤ) :
    (delta : ℤ) ≤ |(m : ℤ) * A - k * one| := by
  simp only [check, Bool.and_eq_true] at h
  obtain ⟨e1, e2, e3, e4⟩ := h
  have c1 := Nat.le_of_ble_eq_true e1
  have c2 := Nat.le_of_ble_eq_true e2
  have c3 := Nat.le_of_ble_eq_true e3
  have c4 := Nat.eq_of_beq_eq_true e4
  clear e1 e2 e3 e4
  have hone : 0 < one := by unfold one; positivity
  have hdelta : 0 < delta := by unfold delta; positivity
  have m0 := Nat.div_add_mod (q0 * A) one
  have m1 := Nat.div_add_mod (q1 * A) one
  have l1 := Nat.mod_lt (q1 * A) hone
  obtain ⟨d0, hd0⟩ : ∃ d0, q0 * A % one = d0 := ⟨_, rfl⟩
  obtain ⟨d1, hd1⟩ : ∃ d1, one - q1 * A % one = d1 := ⟨_, rfl⟩
  obtain ⟨p0, hp0⟩ : ∃ p0, q0 * A / one = p0 := ⟨_, rfl⟩
  obtain ⟨p1, hp1⟩ : ∃ p1, q1 * A / one + 1 = p1 := ⟨_, rfl⟩
  rw [hd0] at c2 m0
  rw [hd1] at c3
  rw [hp0, hp1] at c4
  rw [hp0] at m0
  have m1' : q1 * A + d1 = one * p1 := by rw [← hp1, ← hd1, mul_add, mul_one]; omega
  generalize one = W at *
  have c4' : (q0 : ℤ) * p1 = q1 * p0 + 1 := by exact_mod_cast c4
  have m0' : (W : ℤ) * p0 + d0 = q0 * A := by exact_mod_cast m0
  have m1'' : (q1 : ℤ) * A + d1 = W * p1 := by exact_mod_cast m1'
  obtain ⟨u, hu⟩ : ∃ u : ℤ, u = m * p1 - k * q1 := ⟨_, rfl⟩
  obtain ⟨v, hv⟩ : ∃ v : ℤ, v = k * q0 - m * p0 := ⟨_, rfl⟩
  have em : (m : ℤ) = u * q0 + v * q1 := by rw [hu, hv]; linear_combination (-(m : ℤ)) * c4'
  have ek : k = u * p0 + v * p1 := by rw [hu, hv]; linear_combination (-k) * c4'
  have ev : (m : ℤ) * A - k * W = u * d0 - v * d1 := by
    linear_combination A * em - W * ek - u * m0' + v * m1''
  have d0' : (delta : ℤ) ≤ d0 := by exact_mod_cast c2
  have d1' : (delta : ℤ) ≤ d1 := by exact_mod_cast c3
  have hde : (0 : ℤ) < delta := by exact_mod_cast hdelta
  have hm1 : (1 : ℤ) ≤ m := by exact_mod_cast h1
  have hm2 : (m : ℤ) < q0 + q1 := by exact_mod_cast lt_of_lt_of_le h2 c1
  have hq0 : (0 : ℤ) ≤ q0 := Int.natCast_nonneg _
  have hq1 : (0 : ℤ) ≤ q1 := Int.natCast_nonneg _
  rw [ev]
  rcases le_or_gt u 0 with hu0 | hu0
  · have hv1 : 1 ≤ v := by
      by_contra hc
      have : v ≤ 0 := by omega
      have a1 : u * q0 ≤ 0 := mul_nonpos_of_nonpos_of_nonneg hu0 hq0
      have a2 : v * q1 ≤ 0 := mul_nonpos_of_nonpos_of_nonneg this hq1
      omega
    have b1 : u * d0 ≤ 0 := mul_nonpos_of_nonpos_of_nonneg hu0 (by omega)
    have b2 : 1 * (d1 : ℤ) ≤ v * d1 := mul_le_mul_of_nonneg_right hv1 (by omega)
    rw [abs_of_nonpos (by omega)]
    omega
  · have hv1 : v ≤ 0 := by
      by_contra hc
      have a1 : 1 * (q0 : ℤ) ≤ u * q0 := mul_le_mul_of_nonneg_right hu0 hq0
      have a2 : 1 * (q1 : ℤ) ≤ v * q1 := mul_le_mul_of_nonneg_right (by omega) hq1
      omega
    have b1 : v * d1 ≤ 0 := mul_nonpos_of_nonpos_of_nonneg hv1 (by omega)
    have b2 : 1 * (d0 : ℤ) ≤ u * d0 := mul_le_mul_of_nonneg_right hu0 (by omega)
    rw [abs_of_nonneg (by omega)]
    omega

end Verif.TrigCert
