import Verif.Model.FromStr
import Verif.Proofs.U256Nat
import Mathlib.Data.Real.Basic
import Mathlib.Algebra.Order.Field.Power
import Mathlib.Tactic.Linarith
import Mathlib.Tactic.FieldSimp
import Mathlib.Tactic.Positivity
import Mathlib.Tactic.Ring

/-!
# The table of powers of five holds the leading 256 bits

Each of the 2049 rows is checked by the kernel: `T * 2^(e-255) ≤ 5^k < (T+1) * 2^(e-255)`.
-/

namespace Verif

/-- `T * 2^(e-255)` is `5^(i-1024)`, rounded down. -/
def rowVal (T i : Nat) : Int → Bool
  | .ofNat e => Nat.ble 1024 i && Nat.ble e 2400 &&
      Nat.ble (T * 2 ^ e) (5 ^ (i - 1024) * 2 ^ 255) &&
      Nat.ble (5 ^ (i - 1024) * 2 ^ 255 + 1) ((T + 1) * 2 ^ e)
  | .negSucc e => Nat.ble i 1023 && Nat.ble e 2400 &&
      Nat.ble (T * 5 ^ (1024 - i)) (2 ^ (256 + e)) &&
      Nat.ble (2 ^ (256 + e) + 1) ((T + 1) * 5 ^ (1024 - i))

/-- The row with index `i` is right. -/
def rowOk (i : Nat) (r : Nat × Nat × Int) : Bool :=
  Nat.ble (2 ^ 127) r.1 && Nat.ble (r.1 + 1) (2 ^ 128) && Nat.ble (r.2.1 + 1) (2 ^ 128) &&
  rowVal (r.1 * 2 ^ 128 + r.2.1) i r.2.2

def tblOk : Nat → List (Nat × Nat × Int) → Bool
  | _, [] => true
  | i, r :: rs => rowOk i r && tblOk (i + 1) rs

theorem tblOk_append (i : Nat) (a b : List (Nat × Nat × Int)) :
    tblOk i (a ++ b) = (tblOk i a && tblOk (i + a.length) b) := by
  induction a generalizing i with
  | nil => simp [tblOk]
  | cons r rs ih =>
    rw [List.cons_append, tblOk, tblOk, ih, List.length_cons, Bool.and_assoc,
      show i + (rs.length + 1) = i + 1 + rs.length by omega]

theorem tblOk_get {i : Nat} {l : List (Nat × Nat × Int)} (h : tblOk i l = true) {j : Nat}
    {r : Nat × Nat × Int} (hj : l[j]? = some r) : rowOk (i + j) r = true := by
  induction l generalizing i j with
  | nil => simp at hj
  | cons q qs ih =>
    rw [tblOk, Bool.and_eq_true] at h
    cases j with
    | zero => simp only [List.getElem?_cons_zero, Option.some.injEq] at hj; subst hj; exact h.1
    | succ j =>
      rw [List.getElem?_cons_succ] at hj
      have := ih h.2 hj
      rwa [show i + (j + 1) = i + 1 + j by omega]

theorem table_length : powersOfFive2.length = 2049 := by decide +kernel

theorem table_ok : tblOk 0 powersOfFive2 = true := by decide +kernel

theorem rowVal_spec {T : ℕ} {e e2 : ℤ} (he : e.natAbs ≤ 1024)
    (h4 : rowVal T (e + 1024).toNat e2 = true) : e2.natAbs ≤ 2401 ∧ (T : ℝ) * 2 ^ (e2 - 255) ≤ 5 ^ e ∧
    (5 : ℝ) ^ e < (T + 1) * 2 ^ (e2 - 255) := by
  have h20 : (2 : ℝ) ≠ 0 := by norm_num
  cases e2 with
  | ofNat m =>
    simp only [rowVal, Bool.and_eq_true, Nat.ble_eq] at h4
    obtain ⟨⟨⟨h5, h6⟩, h7⟩, h8⟩ := h4
    obtain ⟨k, rfl⟩ : ∃ k : ℕ, e = k := ⟨e.toNat, by omega⟩
    rw [show ((k : ℤ) + 1024).toNat - 1024 = k by omega] at h7 h8
    have h7' : (T : ℝ) * 2 ^ m ≤ 5 ^ k * 2 ^ 255 := by exact_mod_cast h7
    have h8' : (5 : ℝ) ^ k * 2 ^ 255 < (T + 1) * 2 ^ m := by exact_mod_cast h8
    have e1 : (2 : ℝ) ^ ((Int.ofNat m) - 255) = 2 ^ m / 2 ^ 255 := by
      rw [zpow_sub₀ h20]; rfl
    rw [e1, zpow_natCast]
    refine ⟨by simp only [Int.ofNat_eq_natCast]; omega, ?_, ?_⟩
    · rw [mul_div_assoc', div_le_iff₀ (by positivity)]; exact h7'
    · rw [mul_div_assoc', lt_div_iff₀ (by positivity)]; exact h8'
  | negSucc m =>
    simp only [rowVal, Bool.and_eq_true, Nat.ble_eq] at h4
    obtain ⟨⟨⟨h5, h6⟩, h7⟩, h8⟩ := h4
    obtain ⟨k, rfl⟩ : ∃ k : ℕ, e = -(k : ℤ) := ⟨(-e).toNat, by omega⟩
    rw [show 1024 - (-(k : ℤ) + 1024).toNat = k by omega] at h7 h8
    have h7' : (T : ℝ) * 5 ^ k ≤ 2 ^ (256 + m) := by exact_mod_cast h7
    have h8' : (2 : ℝ) ^ (256 + m) < (T + 1) * 5 ^ k := by exact_mod_cast h8
    have e1 : (2 : ℝ) ^ ((Int.negSucc m) - 255) = 1 / 2 ^ (256 + m) := by
      rw [show (Int.negSucc m) - 255 = -((256 + m : ℕ) : ℤ) by rw [Int.negSucc_eq]; push_cast; ring,
        zpow_neg, zpow_natCast, one_div]
    rw [e1, zpow_neg, zpow_natCast]
    refine ⟨by omega, ?_, ?_⟩
    · rw [mul_one_div, ← one_div, div_le_div_iff₀ (by positivity) (by positivity), one_mul]; exact h7'
    · rw [mul_one_div, ← one_div, div_lt_div_iff₀ (by positivity) (by positivity), one_mul]; exact h8'

/-- What the table holds, for all exponents it is made for -/
theorem getPowerOfFive_spec {e : ℤ} (he : e.natAbs ≤ 1024) : ∃ T e2, getPowerOfFive e = some (T, e2) ∧
    2 ^ 255 ≤ nat256 T ∧ e2.natAbs ≤ 2401 ∧ (nat256 T : ℝ) * 2 ^ (e2 - 255) ≤ 5 ^ e ∧
    (5 : ℝ) ^ e < (nat256 T + 1) * 2 ^ (e2 - 255) := by
  have hlt : (e + 1024).toNat < powersOfFive2.length := by rw [table_length]; omega
  obtain ⟨r, hr⟩ : ∃ r, powersOfFive2[(e + 1024).toNat]? = some r := ⟨_, List.getElem?_eq_getElem hlt⟩
  have hrow := tblOk_get table_ok hr
  obtain ⟨hi, lo, e2⟩ := r
  rw [rowOk, Bool.and_eq_true, Bool.and_eq_true, Bool.and_eq_true, Nat.ble_eq, Nat.ble_eq, Nat.ble_eq,
    Nat.zero_add] at hrow
  obtain ⟨⟨⟨h1, h2⟩, h3⟩, h4⟩ := hrow
  simp only at h1 h2 h3 h4
  have hT : nat256 (U256.new (BitVec.ofNat 128 hi) (BitVec.ofNat 128 lo)) = hi * 2 ^ 128 + lo := by
    rw [nat256_new, BitVec.toNat_ofNat, BitVec.toNat_ofNat, Nat.mod_eq_of_lt (by omega),
      Nat.mod_eq_of_lt (by omega)]
  refine ⟨_, e2, by rw [getPowerOfFive, hr]; rfl, ?_, ?_⟩
  · rw [hT]; omega
  rw [hT]
  exact rowVal_spec he h4

end Verif
