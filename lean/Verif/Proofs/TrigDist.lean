import Verif.Proofs.TrigCert0
import Verif.Proofs.TrigCert1
import Verif.Proofs.TrigCert2
import Verif.Proofs.TrigCert3
import Verif.Proofs.PiBig

/-!
# The distance of an `f256` to the multiples of `π/2`
-/

namespace Verif.TrigCert

set_option exponentiation.threshold 2000

theorem all_windows {j : ℕ} (h1 : 453 ≤ j) (h2 : j < 262597) :
    ∃ a b, check (Trig.TWO_OVER_PI >>> j % one) a b = true := by
  have key : ∀ i < 64, chunk (453 + 4096 * i) 4096 = true := by
    intro i hi
    match i, hi with
    | 0, _ => exact chunk0
    | 1, _ => exact chunk1
    | 2, _ => exact chunk2
    | 3, _ => exact chunk3
    | 4, _ => exact chunk4
    | 5, _ => exact chunk5
    | 6, _ => exact chunk6
    | 7, _ => exact chunk7
    | 8, _ => exact chunk8
    | 9, _ => exact chunk9
    | 10, _ => exact chunk10
    | 11, _ => exact chunk11
    | 12, _ => exact chunk12
    | 13, _ => exact chunk13
    | 14, _ => exact chunk14
    | 15, _ => exact chunk15
    | 16, _ => exact chunk16
    | 17, _ => exact chunk17
    | 18, _ => exact chunk18
    | 19, _ => exact chunk19
    | 20, _ => exact chunk20
    | 21, _ => exact chunk21
    | 22, _ => exact chunk22
    | 23, _ => exact chunk23
    | 24, _ => exact chunk24
    | 25, _ => exact chunk25
    | 26, _ => exact chunk26
    | 27, _ => exact chunk27
    | 28, _ => exact chunk28
    | 29, _ => exact chunk29
    | 30, _ => exact chunk30
    | 31, _ => exact chunk31
    | 32, _ => exact chunk32
    | 33, _ => exact chunk33
    | 34, _ => exact chunk34
    | 35, _ => exact chunk35
    | 36, _ => exact chunk36
    | 37, _ => exact chunk37
    | 38, _ => exact chunk38
    | 39, _ => exact chunk39
    | 40, _ => exact chunk40
    | 41, _ => exact chunk41
    | 42, _ => exact chunk42
    | 43, _ => exact chunk43
    | 44, _ => exact chunk44
    | 45, _ => exact chunk45
    | 46, _ => exact chunk46
    | 47, _ => exact chunk47
    | 48, _ => exact chunk48
    | 49, _ => exact chunk49
    | 50, _ => exact chunk50
    | 51, _ => exact chunk51
    | 52, _ => exact chunk52
    | 53, _ => exact chunk53
    | 54, _ => exact chunk54
    | 55, _ => exact chunk55
    | 56, _ => exact chunk56
    | 57, _ => exact chunk57
    | 58, _ => exact chunk58
    | 59, _ => exact chunk59
    | 60, _ => exact chunk60
    | 61, _ => exact chunk61
    | 62, _ => exact chunk62
    | 63, _ => exact chunk63
    | n + 64, h => omega
  exact chunk_sound (key ((j - 453) / 4096) (by omega)) (by omega) (by omega)

theorem window_core {T lo a N : ℕ} (hN : N = lo + a) {r : ℝ} (h1 : (T : ℝ) ≤ 2 ^ N * r) (h2 : 2 ^ N * r < T + 1) :
    ((T >>> lo : ℕ) : ℝ) ≤ 2 ^ a * r ∧ 2 ^ a * r < ((T >>> lo : ℕ) : ℝ) + 1 := by
  rw [Nat.shiftRight_eq_div_pow]
  have a1 : 2 ^ lo * (T / 2 ^ lo) ≤ T := Nat.mul_div_le _ _
  have a2 : T + 1 ≤ 2 ^ lo * (T / 2 ^ lo + 1) := Nat.lt_mul_div_succ T (by positivity)
  have b1 : (2 : ℝ) ^ lo * ((T / 2 ^ lo : ℕ) : ℝ) ≤ T := by exact_mod_cast a1
  have b2 : (T : ℝ) + 1 ≤ (2 : ℝ) ^ lo * (((T / 2 ^ lo : ℕ) : ℝ) + 1) := by exact_mod_cast a2
  have hp : (0 : ℝ) < 2 ^ lo := by positivity
  rw [hN, pow_add, mul_assoc] at h1 h2
  exact ⟨le_of_mul_le_mul_left (b1.trans h1) hp, lt_of_mul_lt_mul_left (h2.trans_le b2) hp.le⟩

theorem table_two_over_pi : ∃ N : ℕ, N = 262872 ∧ (Trig.TWO_OVER_PI : ℝ) ≤ 2 ^ N * (2 / Real.pi) ∧
    2 ^ N * (2 / Real.pi) < Trig.TWO_OVER_PI + 1 := by
  obtain ⟨h1, h2⟩ := PiBig.table_pi
  obtain ⟨N, hN⟩ : ∃ N : ℕ, N = 262872 := ⟨_, rfl⟩
  refine ⟨N, hN, ?_⟩
  rw [show 262873 = N + 1 by omega, Nat.cast_pow, Nat.cast_ofNat, pow_succ] at h1 h2
  have hpi := Real.pi_pos
  generalize (Trig.TWO_OVER_PI : ℝ) = T at *
  rw [← mul_div_assoc]
  exact ⟨(le_div_iff₀ hpi).mpr h1, (div_lt_iff₀ hpi).mpr h2⟩

theorem window_index {e N : ℕ} (he : e ≤ 262143) (hN : N = 262872) : N = (262596 - e) + (e + 276) := by
  rw [← Nat.add_assoc, Nat.sub_add_cancel (he.trans (by norm_num)), hN]

/-- The window of the table for the exponent `e` -/
theorem window_real {e : ℕ} (he : e ≤ 262143) :
    ((Trig.TWO_OVER_PI >>> (262596 - e) : ℕ) : ℝ) ≤ 2 ^ (e + 276) * (2 / Real.pi) ∧
      2 ^ (e + 276) * (2 / Real.pi) < ((Trig.TWO_OVER_PI >>> (262596 - e) : ℕ) : ℝ) + 1 := by
  obtain ⟨N, hN, h1, h2⟩ := table_two_over_pi
  have hN' : N = (262596 - e) + (e + 276) := window_index he hN
  clear hN
  generalize Trig.TWO_OVER_PI = T at *
  generalize 262596 - e = lo at *
  exact window_core hN' h1 h2

theorem dist_core {S W m : ℕ} {z d : ℝ} (h1 : (S : ℝ) ≤ z) (h2 : z < S + 1) (k : ℤ)
    (h : ∀ k : ℤ, d ≤ ((|(m : ℤ) * (S % W : ℕ) - k * W| : ℤ) : ℝ)) : d - m ≤ |m * z - k * W| := by
  have h3 := h (k - m * (S / W : ℕ))
  have e : (S : ℤ) = W * (S / W : ℕ) + (S % W : ℕ) := by exact_mod_cast (Nat.div_add_mod S W).symm
  have e2 : (m : ℤ) * (S % W : ℕ) - (k - m * (S / W : ℕ)) * W = m * S - k * W := by rw [e]; ring
  rw [e2, Int.cast_abs] at h3
  rw [Int.cast_sub, Int.cast_mul, Int.cast_mul, Int.cast_natCast, Int.cast_natCast, Int.cast_natCast] at h3
  have h4 : |(m : ℝ) * S - k * W| ≤ |m * z - k * W| + |m * (z - S)| := by
    have := abs_sub (m * z - k * W : ℝ) (m * (z - S))
    have e3 : (m : ℝ) * z - k * W - m * (z - S) = m * S - k * W := by ring
    rwa [e3] at this
  have h5 : |(m : ℝ) * (z - S)| ≤ m := by
    rw [abs_mul, Nat.abs_cast, abs_of_nonneg (by linarith)]
    exact mul_le_of_le_one_right (Nat.cast_nonneg _) (by linarith)
  linarith

/-- For a number `x = m * 2^(e - 236)` with at most 237 significant bits, `x * 2/π` is not closer than `3 * 2^-255` to any
integer. -/
theorem dist_lower {e m : ℕ} (he : e ≤ 262143) (h1 : 1 ≤ m) (h2 : m < 2 ^ 237) (k : ℤ) :
    3 / (2 : ℝ) ^ 255 ≤ |(m : ℝ) / 2 ^ 236 * 2 ^ e * (2 / Real.pi) - k| := by
  obtain ⟨w1, w2⟩ := window_real he
  obtain ⟨a, b, hab⟩ := all_windows (j := 262596 - e) (by omega) (by omega)
  have hd := dist_core (d := (delta : ℕ)) (m := m) w1 w2 k (W := one) (by
    intro k
    have := check_sound hab h1 (by unfold lim; exact h2) k
    calc ((delta : ℕ) : ℝ) = (((delta : ℕ) : ℤ) : ℝ) := (Int.cast_natCast _).symm
      _ ≤ _ := Int.cast_le.mpr this)
  have hm : (m : ℝ) ≤ 2 ^ 237 := by exact_mod_cast h2.le
  have e1 : ((one : ℕ) : ℝ) = 2 ^ 236 * 2 ^ 276 := by rw [one, Nat.cast_pow, Nat.cast_ofNat, ← pow_add]
  have e2 : ((delta : ℕ) : ℝ) = 2 ^ 259 := by rw [delta, Nat.cast_pow, Nat.cast_ofNat]
  rw [e1, e2, pow_add] at hd
  have e3 : (m : ℝ) * (2 ^ e * 2 ^ 276 * (2 / Real.pi)) - k * (2 ^ 236 * 2 ^ 276) =
      ((m : ℝ) / 2 ^ 236 * 2 ^ e * (2 / Real.pi) - k) * (2 ^ 236 * 2 ^ 276) := by
    have : (2 : ℝ) ^ 236 ≠ 0 := by positivity
    generalize (2 : ℝ) ^ 236 = t at *
    generalize (2 : ℝ) ^ 276 = u at *
    generalize (2 : ℝ) ^ e = v at *
    generalize 2 / Real.pi = r at *
    field_simp
  rw [e3, abs_mul, abs_of_nonneg (by positivity : (0 : ℝ) ≤ 2 ^ 236 * 2 ^ 276)] at hd
  have hp : (0 : ℝ) < 2 ^ 236 * 2 ^ 276 := by positivity
  refine le_of_mul_le_mul_right ?_ hp
  refine le_trans ?_ hd
  have e4 : (3 : ℝ) / 2 ^ 255 * (2 ^ 236 * 2 ^ 276) = 3 * 2 ^ 257 := by norm_num
  rw [e4]
  have e5 : (2 : ℝ) ^ 259 = 4 * 2 ^ 257 := by norm_num
  have e6 : (2 : ℝ) ^ 237 ≤ 2 ^ 257 := by norm_num
  linarith

end Verif.TrigCert
