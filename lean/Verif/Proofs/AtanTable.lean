import Verif.Model.Atan
import Verif.Proofs.TrigApprox
import Mathlib.Analysis.SpecialFunctions.Complex.Arctan

/-!
# The series of the arctangent and the table of its values
-/

set_option exponentiation.threshold 2000

namespace Verif.Trig

open FP492 Finset

/-- The coefficients of the series of the arctangent -/
noncomputable def atanA (i : ℕ) : ℝ := (-1) ^ i / ((2 * i + 1 : ℕ) : ℝ)

theorem atanA_le (i : ℕ) : |atanA i| ≤ 1 := abs_le_one_of i (by omega)

theorem atanCoeffs_ok : CoeffsOk atanA atanCoeffs := by
  have h : coeffsCheck (fun i => 2 * i + 1) atanCoeffs = true := by decide +kernel
  exact coeffsCheck_sound (fun i => by omega) h

theorem atan_taylor {x : ℝ} (h0 : 0 ≤ x) (h1 : x ≤ 1 / 200) :
    |Real.arctan x - x * ∑ i ∈ range 33, atanA i * (x ^ 2) ^ i| ≤ x / 2 ^ 504 := by
  have hlt : ‖x‖ < 1 := by rw [Real.norm_eq_abs, abs_of_nonneg h0]; linarith
  have ht := (Real.hasSum_arctan hlt).tendsto_sum_nat
  have hx1 : x ≤ 1 := h1.trans (by norm_num)
  have ha : Antitone fun i : ℕ => x ^ (2 * i + 1) / (2 * i + 1 : ℕ) := by
    refine antitone_nat_of_succ_le fun i => ?_
    have h2 : x ^ (2 * (i + 1) + 1) ≤ x ^ (2 * i + 1) := pow_le_pow_of_le_one h0 hx1 (by omega)
    have h3 : ((2 * i + 1 : ℕ) : ℝ) ≤ (2 * (i + 1) + 1 : ℕ) := by exact_mod_cast (by omega)
    have h4 : (0 : ℝ) < (2 * i + 1 : ℕ) := by exact_mod_cast (by omega)
    gcongr
  have ht' : Filter.Tendsto (fun n => ∑ i ∈ range n, (-1) ^ i * (x ^ (2 * i + 1) / (2 * i + 1 : ℕ)))
      Filter.atTop (nhds (Real.arctan x)) := by
    refine ht.congr fun n => sum_congr rfl fun i _ => ?_
    ring
  have hs : x * ∑ i ∈ range 33, atanA i * (x ^ 2) ^ i =
      ∑ i ∈ range 33, (-1) ^ i * (x ^ (2 * i + 1) / (2 * i + 1 : ℕ)) := by
    rw [mul_sum]
    refine sum_congr rfl fun i _ => ?_
    rw [atanA, ← pow_mul, pow_succ]
    ring
  have e1 := ha.tendsto_le_alternating_series ht' 16
  have e2 := ha.alternating_series_le_tendsto ht' 17
  rw [show 2 * 16 + 1 = 33 by norm_num, ← hs] at e1
  rw [show 2 * 17 = 33 + 1 by norm_num, sum_range_succ, ← hs] at e2
  have e3 : x ^ (2 * 33 + 1) / (2 * 33 + 1 : ℕ) ≤ x / 2 ^ 504 := by
    have h5 : x ^ (2 * 33) ≤ (1 / 200) ^ (2 * 33) := pow_le_pow_left₀ h0 h1 _
    have h6 : ((1 : ℝ) / 200) ^ (2 * 33) ≤ 1 / 2 ^ 504 := by
      rw [div_pow, one_pow]
      refine one_div_le_one_div_of_le (by positivity) ?_
      have : (2 : ℕ) ^ 504 ≤ 200 ^ (2 * 33) := by decide +kernel
      have h : (((2 : ℕ) ^ 504 : ℕ) : ℝ) ≤ ((200 ^ (2 * 33) : ℕ) : ℝ) := Nat.cast_le.mpr this
      rw [Nat.cast_pow, Nat.cast_pow, Nat.cast_ofNat, Nat.cast_ofNat] at h
      exact h
    have h8 := h5.trans h6
    clear h5 h6 e1 e2
    have h7 : x ^ (2 * 33 + 1) ≤ x / 2 ^ 504 := by
      rw [pow_succ, div_eq_mul_one_div, mul_comm x]
      exact mul_le_mul_of_nonneg_right h8 h0
    clear h8
    generalize x / 2 ^ 504 = R at *
    refine le_trans (div_le_self (by positivity) ?_) h7
    norm_num
  have e4 : 0 ≤ x / 2 ^ 504 := by positivity
  rw [abs_le]
  have : (-1 : ℝ) ^ 33 = -1 := by norm_num
  rw [this] at e2
  constructor <;> linarith

/-- The sum of the terms of the series at `n / d`, with 600 fractional bits, each term rounded down -/
def atanInt (n d : ℕ) : ℕ → ℤ
  | 0 => 0
  | i + 1 => atanInt n d i + (-1) ^ i * ((2 ^ 600 * n ^ (2 * i + 1) / (d ^ (2 * i + 1) * (2 * i + 1)) : ℕ) : ℤ)

theorem floor_close (a b : ℕ) (hb : 0 < b) : |((a / b : ℕ) : ℝ) - (a : ℝ) / b| ≤ 1 := by
  have h1 := Nat.div_add_mod a b
  have h2 := Nat.mod_lt a hb
  have hb' : (0 : ℝ) < b := by exact_mod_cast hb
  have h3 : (a : ℝ) = b * (a / b : ℕ) + (a % b : ℕ) := by exact_mod_cast h1.symm
  have h4 : ((a % b : ℕ) : ℝ) ≤ b := by exact_mod_cast h2.le
  have h5 : (0 : ℝ) ≤ (a % b : ℕ) := Nat.cast_nonneg _
  generalize ((a % b : ℕ) : ℝ) = r at *
  generalize ((a / b : ℕ) : ℝ) = q at *
  rw [h3, abs_le]
  have e : q - (b * q + r) / b = -(r / b) := by field_simp; ring
  rw [e]
  have h6 : r / b ≤ 1 := by rw [div_le_one hb']; exact h4
  have h7 : 0 ≤ r / b := by positivity
  constructor <;> linarith

theorem atanInt_close {n d : ℕ} (hd : 0 < d) (m : ℕ) :
    |(atanInt n d m : ℝ) - 2 ^ 600 * ((n / d : ℝ) * ∑ i ∈ range m, atanA i * ((n / d : ℝ) ^ 2) ^ i)| ≤ (m : ℝ) := by
  have hd' : (0 : ℝ) < d := by exact_mod_cast hd
  induction m with
  | zero => simp [atanInt]
  | succ m ih =>
    rw [atanInt, sum_range_succ, Int.cast_add, Int.cast_mul, Int.cast_natCast, Int.cast_pow, Int.cast_neg, Int.cast_one]
    have h := floor_close (2 ^ 600 * n ^ (2 * m + 1)) (d ^ (2 * m + 1) * (2 * m + 1)) (by positivity)
    have e : (((2 ^ 600 * n ^ (2 * m + 1) : ℕ) : ℝ)) / ((d ^ (2 * m + 1) * (2 * m + 1) : ℕ) : ℝ) * (-1) ^ m =
        2 ^ 600 * ((n / d : ℝ) * (atanA m * ((n / d : ℝ) ^ 2) ^ m)) := by
      rw [atanA, ← pow_mul, div_pow, Nat.cast_mul, Nat.cast_mul, Nat.cast_pow, Nat.cast_pow, Nat.cast_pow, Nat.cast_ofNat]
      have h2 : (0 : ℝ) < ((2 * m + 1 : ℕ) : ℝ) := by exact_mod_cast (by omega)
      generalize ((2 * m + 1 : ℕ) : ℝ) = w at *
      generalize (2 : ℝ) ^ 600 = W
      rw [pow_succ, pow_succ]
      field_simp
    generalize ((2 ^ 600 * n ^ (2 * m + 1) / (d ^ (2 * m + 1) * (2 * m + 1)) : ℕ) : ℝ) = T at *
    generalize (((2 ^ 600 * n ^ (2 * m + 1) : ℕ) : ℝ)) / ((d ^ (2 * m + 1) * (2 * m + 1) : ℕ) : ℝ) = T' at *
    have h3 : |(-1) ^ m * T - 2 ^ 600 * ((n / d : ℝ) * (atanA m * ((n / d : ℝ) ^ 2) ^ m))| ≤ 1 := by
      rw [← e, mul_comm, ← sub_mul, abs_mul, abs_pow, abs_neg, abs_one, one_pow, mul_one]
      exact h
    have e2 : (atanInt n d m : ℝ) + (-1) ^ m * T - 2 ^ 600 * ((n / d : ℝ) * (∑ i ∈ range m, atanA i * ((n / d : ℝ) ^ 2) ^ i +
        atanA m * ((n / d : ℝ) ^ 2) ^ m)) = ((atanInt n d m : ℝ) - 2 ^ 600 * ((n / d : ℝ) *
        ∑ i ∈ range m, atanA i * ((n / d : ℝ) ^ 2) ^ i)) + ((-1) ^ m * T -
        2 ^ 600 * ((n / d : ℝ) * (atanA m * ((n / d : ℝ) ^ 2) ^ m))) := by ring
    rw [e2]
    refine (abs_add_le _ _).trans ?_
    push_cast
    linarith

/-- The table against the sums of `arctan ((k+1)/256) - arctan (k/256) = arctan (256 / (65536 + k (k+1)))` -/
def atanCheck : ℤ → ℕ → List FP492 → Bool
  | _, _, [] => true
  | acc, k, c :: rest => decide ((sval c * 2 ^ 108 - acc).natAbs ≤ 2 ^ 108 - 2 ^ 106) &&
      atanCheck (acc + atanInt 256 (65536 + k * (k + 1)) 33) (k + 1) rest

theorem arctan_succ (k : ℕ) : Real.arctan ((k : ℝ) / 256) +
    Real.arctan (((256 : ℕ) : ℝ) / ((65536 + k * (k + 1) : ℕ) : ℝ)) = Real.arctan (((k + 1 : ℕ) : ℝ) / 256) := by
  have h : (0 : ℝ) < 65536 + k * (k + 1) := by positivity
  rw [Real.arctan_add]
  · congr 1
    push_cast
    have h2 : (0 : ℝ) < 65536 + k * (k + 1) - k := by nlinarith [(Nat.cast_nonneg k : (0 : ℝ) ≤ k)]
    have e : (1 : ℝ) - (k : ℝ) / 256 * (256 / (65536 + k * (k + 1))) = (65536 + k * (k + 1) - k) / (65536 + k * (k + 1)) := by
      field_simp
    rw [e, div_eq_div_iff (by positivity) (by norm_num), div_add_div _ _ (by norm_num) h.ne']
    field_simp
    ring
  · push_cast
    rw [div_mul_div_comm, div_lt_one (by positivity)]
    nlinarith [(Nat.cast_nonneg k : (0 : ℝ) ≤ k)]

theorem atan_piece (k : ℕ) : |(atanInt 256 (65536 + k * (k + 1)) 33 : ℝ) -
    2 ^ 600 * Real.arctan (((256 : ℕ) : ℝ) / ((65536 + k * (k + 1) : ℕ) : ℝ))| ≤ 2 ^ 97 := by
  have h1 := atanInt_close (n := 256) (d := 65536 + k * (k + 1)) (by omega) 33
  have hx : ((256 : ℕ) : ℝ) / ((65536 + k * (k + 1) : ℕ) : ℝ) ≤ 1 / 200 := by
    have h : (0 : ℝ) < ((65536 + k * (k + 1) : ℕ) : ℝ) := by positivity
    rw [div_le_div_iff₀ h (by norm_num)]
    push_cast
    nlinarith [(Nat.cast_nonneg k : (0 : ℝ) ≤ k)]
  have hx0 : 0 ≤ ((256 : ℕ) : ℝ) / ((65536 + k * (k + 1) : ℕ) : ℝ) := by positivity
  have h2 := atan_taylor hx0 hx
  generalize ((256 : ℕ) : ℝ) / ((65536 + k * (k + 1) : ℕ) : ℝ) = x at *
  generalize x * ∑ i ∈ range 33, atanA i * (x ^ 2) ^ i = S at *
  have h3 : x / 2 ^ 504 ≤ 1 / 200 / 2 ^ 504 := div_le_div_of_nonneg_right hx (by positivity)
  have h4 : |2 ^ 600 * S - 2 ^ 600 * Real.arctan x| ≤ 2 ^ 600 * (1 / 200 / 2 ^ 504) := by
    rw [← mul_sub, abs_mul, abs_of_pos (by positivity : (0 : ℝ) < 2 ^ 600), abs_sub_comm]
    exact mul_le_mul_of_nonneg_left (h2.trans h3) (by positivity)
  have h5 : (2 : ℝ) ^ 600 * (1 / 200 / 2 ^ 504) + (33 : ℕ) ≤ 2 ^ 97 := by norm_num
  have h6 := abs_add_le ((atanInt 256 (65536 + k * (k + 1)) 33 : ℝ) - 2 ^ 600 * S) (2 ^ 600 * S - 2 ^ 600 * Real.arctan x)
  rw [sub_add_sub_cancel] at h6
  generalize (2 : ℝ) ^ 600 * (1 / 200 / 2 ^ 504) = A at *
  generalize (2 : ℝ) ^ 97 = B at *
  linarith

theorem atanCheck_sound : ∀ (l : List FP492) (acc : ℤ) (k : ℕ), k + l.length ≤ 256 →
    |(acc : ℝ) - 2 ^ 600 * Real.arctan ((k : ℝ) / 256)| ≤ (k : ℝ) * 2 ^ 97 → atanCheck acc k l = true →
    ∀ i (h : i < l.length), |(sval l[i] : ℝ) - Real.arctan (((k + i : ℕ) : ℝ) / 256) * 2 ^ 492| ≤ 1 := by
  intro l
  induction l with
  | nil => intro acc k _ _ _ i h; simp at h
  | cons c rest ih =>
    intro acc k hk hacc hc i hi
    rw [atanCheck, Bool.and_eq_true, decide_eq_true_iff] at hc
    obtain ⟨h1, h2⟩ := hc
    rw [List.length_cons] at hk hi
    cases i with
    | zero =>
      rw [List.getElem_cons_zero, Nat.add_zero]
      have h3 : |(sval c : ℝ) * 2 ^ 108 - acc| ≤ 2 ^ 108 - 2 ^ 106 := by
        have h4 : |sval c * 2 ^ 108 - acc| ≤ ((2 ^ 108 - 2 ^ 106 : ℕ) : ℤ) := by
          rw [Int.abs_eq_natAbs]; exact_mod_cast h1
        have h5 : |((sval c * 2 ^ 108 - acc : ℤ) : ℝ)| ≤ (((2 ^ 108 - 2 ^ 106 : ℕ) : ℤ) : ℝ) := by exact_mod_cast h4
        rw [Int.cast_sub, Int.cast_mul, Int.cast_pow, Int.cast_ofNat] at h5
        refine h5.trans ?_
        norm_num
      have h6 : (k : ℝ) * 2 ^ 97 ≤ 256 * 2 ^ 97 := by
        have : (k : ℝ) ≤ 256 := by exact_mod_cast (by omega)
        exact mul_le_mul_of_nonneg_right this (by positivity)
      have h7 := abs_add_le ((sval c : ℝ) * 2 ^ 108 - acc) (acc - 2 ^ 600 * Real.arctan ((k : ℝ) / 256))
      rw [sub_add_sub_cancel] at h7
      have e : (sval c : ℝ) * 2 ^ 108 - 2 ^ 600 * Real.arctan ((k : ℝ) / 256) =
          ((sval c : ℝ) - Real.arctan ((k : ℝ) / 256) * 2 ^ 492) * 2 ^ 108 := by ring
      rw [e, abs_mul, abs_of_pos (by positivity : (0 : ℝ) < 2 ^ 108)] at h7
      have h8 : (256 : ℝ) * 2 ^ 97 ≤ 2 ^ 106 := by norm_num
      have h9 : |(sval c : ℝ) - Real.arctan ((k : ℝ) / 256) * 2 ^ 492| * 2 ^ 108 ≤ 1 * 2 ^ 108 := by
        generalize |(sval c : ℝ) - Real.arctan ((k : ℝ) / 256) * 2 ^ 492| * 2 ^ 108 = A at *
        generalize (2 : ℝ) ^ 106 = B at *
        generalize (2 : ℝ) ^ 108 = B' at *
        linarith
      exact le_of_mul_le_mul_right h9 (by positivity)
    | succ i =>
      rw [List.getElem_cons_succ]
      have := ih (acc + atanInt 256 (65536 + k * (k + 1)) 33) (k + 1) (by omega) ?_ h2 i (by omega)
      · rw [show k + (i + 1) = k + 1 + i by ring]; exact this
      · rw [Int.cast_add, ← arctan_succ, mul_add (2 ^ 600)]
        have h3 := atan_piece k
        have e : ((acc : ℝ) + (atanInt 256 (65536 + k * (k + 1)) 33 : ℝ) - (2 ^ 600 * Real.arctan ((k : ℝ) / 256) +
            2 ^ 600 * Real.arctan (((256 : ℕ) : ℝ) / ((65536 + k * (k + 1) : ℕ) : ℝ)))) =
            ((acc : ℝ) - 2 ^ 600 * Real.arctan ((k : ℝ) / 256)) + ((atanInt 256 (65536 + k * (k + 1)) 33 : ℝ) -
            2 ^ 600 * Real.arctan (((256 : ℕ) : ℝ) / ((65536 + k * (k + 1) : ℕ) : ℝ))) := by ring
        rw [e]
        refine (abs_add_le _ _).trans ?_
        rw [Nat.cast_add k 1, Nat.cast_one, add_mul, one_mul]
        exact add_le_add hacc h3

theorem atans_check : ATANS.length = 256 ∧ atanCheck 0 0 ATANS = true := by decide +kernel

/-- Every entry of the table is within one unit of `arctan (k/256)`. -/
theorem atans_ok {k : ℕ} (h : k < 256) :
    ∃ c, ATANS[k]? = some c ∧ |(sval c : ℝ) - Real.arctan ((k : ℝ) / 256) * 2 ^ 492| ≤ 1 := by
  obtain ⟨h1, h2⟩ := atans_check
  have h3 := atanCheck_sound ATANS 0 0 (by omega) (by simp) h2 k (by omega)
  rw [Nat.zero_add] at h3
  exact ⟨_, List.getElem?_eq_getElem _, h3⟩

end Verif.Trig
