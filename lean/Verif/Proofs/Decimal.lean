import Verif.Proofs.Parse
import Verif.Model.Decimal
import Mathlib.Data.Real.Basic
import Mathlib.Algebra.Order.Field.Power
import Mathlib.Tactic.Linarith
import Mathlib.Tactic.FieldSimp
import Mathlib.Tactic.Positivity
import Mathlib.Tactic.Ring
import Mathlib.Tactic.GCongr

/-!
# Shifting of high precision decimals

`left_shift` multiplies by a power of two, `right_shift` divides by one. If more than `MAX_DIGITS` digits
come out the result is cut off; the relative error is less than `2^-600`.
-/

namespace Verif

open Spec

/-! ## Digit lists -/

theorem decVal_nil : decVal [] = 0 := rfl

theorem decVal_single (c : ℕ) : decVal [c] = c := by simp [decVal]

theorem decVal_cons (c : ℕ) (l : List ℕ) : decVal (c :: l) = c * 10 ^ l.length + decVal l := by
  rw [show c :: l = [c] ++ l from rfl, decVal_append, decVal_single]

theorem decVal_concat (l : List ℕ) (c : ℕ) : decVal (l ++ [c]) = decVal l * 10 + c := by
  rw [decVal_append, decVal_single, List.length_singleton, pow_one]

theorem padTake_length (n : ℕ) (l : List ℕ) : (padTake n l).length = n := by
  induction n generalizing l with
  | zero => rfl
  | succ n ih => cases l <;> simp [padTake, ih]

theorem padTake_succ (n : ℕ) (l : List ℕ) : padTake (n + 1) l = padTake n l ++ [l.getD n 0] := by
  induction n generalizing l with
  | zero => cases l <;> rfl
  | succ n ih =>
    cases l with
    | nil =>
      show 0 :: padTake (n + 1) [] = (0 :: padTake n []) ++ _
      rw [ih]; simp
    | cons a l =>
      show a :: padTake (n + 1) l = (a :: padTake n l) ++ _
      rw [ih]; simp

theorem padTake_append (a b : List ℕ) : padTake a.length (a ++ b) = a := by
  induction a with
  | nil => rfl
  | cons c a ih => show c :: padTake a.length (a ++ b) = _; rw [ih]

theorem padTake_zero (l : List ℕ) : padTake 0 l = [] := by cases l <;> rfl

namespace Decimal

theorem trim_spec (buf : List ℕ) (m : ℕ) : trim buf m ≤ m ∧
    decVal (padTake m buf) = decVal (padTake (trim buf m) buf) * 10 ^ (m - trim buf m) := by
  induction m with
  | zero => simp [trim]
  | succ m ih =>
    rw [trim]
    split_ifs with h
    · refine ⟨by omega, ?_⟩
      rw [padTake_succ, decVal_concat, h, ih.2, Nat.add_zero, mul_assoc, ← pow_succ]
      congr 2
      omega
    · simp

theorem trim_digits (buf : List ℕ) (m : ℕ) : ∀ c ∈ padTake (trim buf m) buf, c ∈ padTake m buf := by
  induction m with
  | zero => simp [trim]
  | succ m ih =>
    rw [trim]
    split_ifs with h
    · intro c hc
      rw [padTake_succ]
      exact List.mem_append_left _ (ih c hc)
    · simp

/-! ## Values -/

/-- The number held -/
noncomputable def value (d : Decimal) : ℝ := (decVal d.digits : ℝ) * 10 ^ (d.dp - d.nDigits)

/-- Digits are digits and the first one is not zero. -/
structure Norm (d : Decimal) : Prop where
  digit : ∀ c ∈ d.digits, c < 10
  lead : 10 ^ d.nDigits ≤ 10 * decVal d.digits

theorem Norm.pos {d : Decimal} (h : d.Norm) : d.nDigits ≠ 0 := by
  intro h0
  have := h.lead
  rw [digits, h0, padTake_zero] at this
  simp [decVal] at this

theorem digits_length (d : Decimal) : d.digits.length = d.nDigits := padTake_length _ _

/-- Bounds by the number of digits -/
theorem bounds {D len : ℕ} (dp : ℤ) (h1 : 10 ^ len ≤ 10 * D) (h2 : D < 10 ^ len) :
    (10 : ℝ) ^ (dp - 1) ≤ D * 10 ^ (dp - len) ∧ (D : ℝ) * 10 ^ (dp - len) < 10 ^ dp := by
  have h10 : (10 : ℝ) ≠ 0 := by norm_num
  have h1' : (10 : ℝ) ^ len ≤ 10 * D := by exact_mod_cast h1
  have h2' : (D : ℝ) < 10 ^ len := by exact_mod_cast h2
  have e1 : (10 : ℝ) ^ (dp - len) = 10 ^ dp / 10 ^ len := by rw [zpow_sub₀ h10, zpow_natCast]
  have e2 : (10 : ℝ) ^ (dp - 1) = 10 ^ dp / 10 := by rw [zpow_sub₀ h10, zpow_one]
  have hp : (0 : ℝ) < 10 ^ dp := by positivity
  rw [e1, e2]
  constructor
  · rw [mul_div_assoc', div_le_div_iff₀ (by norm_num) (by positivity)]
    nlinarith
  · rw [mul_div_assoc', div_lt_iff₀ (by positivity)]
    nlinarith

theorem Norm.ge {d : Decimal} (h : d.Norm) : (10 : ℝ) ^ (d.dp - 1) ≤ d.value := by
  have := decVal_lt h.digit
  rw [digits_length] at this
  exact (bounds d.dp h.lead this).1

theorem Norm.lt {d : Decimal} (h : d.Norm) : d.value < (10 : ℝ) ^ d.dp := by
  have := decVal_lt h.digit
  rw [digits_length] at this
  exact (bounds d.dp h.lead this).2

theorem Norm.value_pos {d : Decimal} (h : d.Norm) : 0 < d.value :=
  lt_of_lt_of_le (by positivity) h.ge

/-- The number after `p` operations, each with a relative error less than `2^-600` and not upwards -/
structure Near (d : Decimal) (x : ℝ) (p : ℕ) : Prop where
  norm : d.Norm
  le : d.value ≤ x
  ge : x * (1 - p / 2 ^ 600) ≤ d.value

theorem Near.mono {d : Decimal} {x : ℝ} {p q : ℕ} (h : d.Near x p) (hpq : p ≤ q) : d.Near x q := by
  refine ⟨h.norm, h.le, le_trans ?_ h.ge⟩
  have hx : 0 ≤ x := (h.norm.value_pos.le).trans h.le
  apply mul_le_mul_of_nonneg_left _ hx
  have : (p : ℝ) ≤ q := by exact_mod_cast hpq
  have : (p : ℝ) / 2 ^ 600 ≤ q / 2 ^ 600 := by gcongr
  linarith

theorem Near.trans {d d' : Decimal} {x c : ℝ} {p : ℕ} (h : d.Near x p) (hc : 0 < c)
    (h' : d'.Near (d.value * c) 1) : d'.Near (x * c) (p + 1) := by
  refine ⟨h'.norm, h'.le.trans (mul_le_mul_of_nonneg_right h.le hc.le), le_trans ?_ h'.ge⟩
  have hx : 0 ≤ x := (h.norm.value_pos.le).trans h.le
  have h1 : (0 : ℝ) ≤ 1 - (1 : ℕ) / 2 ^ 600 := by rw [Nat.cast_one, sub_nonneg, div_le_one (by positivity)]; exact one_le_pow₀ (by norm_num)
  calc x * c * (1 - (p + 1 : ℕ) / 2 ^ 600) ≤ x * (1 - p / 2 ^ 600) * c * (1 - (1 : ℕ) / 2 ^ 600) := by
        have : (1 - ((p + 1 : ℕ) : ℝ) / 2 ^ 600) ≤ (1 - p / 2 ^ 600) * (1 - (1 : ℕ) / 2 ^ 600) := by
          rw [Nat.cast_add, Nat.cast_one]
          have h3 : (0 : ℝ) ≤ (p : ℝ) / 2 ^ 600 * (1 / 2 ^ 600) := by positivity
          rw [add_div]
          linarith
        calc x * c * (1 - (p + 1 : ℕ) / 2 ^ 600) ≤ x * c * ((1 - p / 2 ^ 600) * (1 - (1 : ℕ) / 2 ^ 600)) :=
              mul_le_mul_of_nonneg_left this (by positivity)
          _ = _ := by ring
    _ ≤ _ := by
        apply mul_le_mul_of_nonneg_right _ h1
        exact mul_le_mul_of_nonneg_right h.ge hc.le

theorem max_digits_pow : (2 : ℝ) ^ 600 ≤ 10 ^ (MAX_DIGITS - 1) := by
  calc (2 : ℝ) ^ 600 ≤ 10 ^ 600 := pow_le_pow_left₀ (by norm_num) (by norm_num) _
    _ ≤ _ := pow_le_pow_right₀ (by norm_num) (by unfold MAX_DIGITS; norm_num)

/-- Digits written to the buffer, as many as there is space for, without trailing zeroes -/
theorem near_of_list {d : Decimal} {full : List ℕ} (h1 : ∀ c ∈ full, c < 10)
    (h2 : 10 ^ full.length ≤ 10 * decVal full)
    (h3 : padTake (min full.length MAX_DIGITS) d.buf = full.take MAX_DIGITS)
    (h4 : d.nDigits = trim d.buf (min full.length MAX_DIGITS)) :
    d.Near (decVal full * 10 ^ (d.dp - full.length)) 1 := by
  obtain ⟨ht1, ht2⟩ := trim_spec d.buf (min full.length MAX_DIGITS)
  have ht3 := trim_digits d.buf (min full.length MAX_DIGITS)
  rw [← h4] at ht1 ht2 ht3
  rw [h3] at ht2 ht3
  have hsplit := decVal_append (full.take MAX_DIGITS) (full.drop MAX_DIGITS)
  rw [List.take_append_drop] at hsplit
  have hdrop : decVal (full.drop MAX_DIGITS) < 10 ^ (full.drop MAX_DIGITS).length :=
    decVal_lt fun c hc => h1 c (List.mem_of_mem_drop hc)
  set j := (full.drop MAX_DIGITS).length with hj
  have hjl : min full.length MAX_DIGITS + j = full.length := by
    rw [hj, List.length_drop]; omega
  set m := min full.length MAX_DIGITS with hm
  change decVal (full.take MAX_DIGITS) = decVal d.digits * 10 ^ (m - d.nDigits) at ht2
  have hlead : 10 ^ m ≤ 10 * decVal (full.take MAX_DIGITS) := by
    by_contra hcon
    push Not at hcon
    have a1 : 10 ^ full.length = 10 ^ m * 10 ^ j := by rw [← pow_add, hjl]
    have hm0 : m ≠ 0 := by
      intro h0
      rw [h0] at hcon
      have : full.length ≠ 0 := by
        intro hl
        rw [List.length_eq_zero_iff.mp hl] at h2
        simp [decVal] at h2
      have : MAX_DIGITS ≠ 0 := by decide
      omega
    obtain ⟨k, hk⟩ := Nat.exists_eq_succ_of_ne_zero hm0
    rw [hk, pow_succ] at hcon a1
    have a2 : decVal (full.take MAX_DIGITS) + 1 ≤ 10 ^ k := by omega
    have a3 := Nat.mul_le_mul_right (10 ^ j) a2
    rw [add_mul, one_mul] at a3
    have a4 : 10 ^ k * 10 * 10 ^ j = 10 * (10 ^ k * 10 ^ j) := by ring
    rw [a1, a4, hsplit] at h2
    omega
  have hnorm : d.Norm := by
    refine ⟨fun c hc => h1 c (List.mem_of_mem_take (ht3 c hc)), ?_⟩
    rw [ht2] at hlead
    have : 10 ^ m = 10 ^ d.nDigits * 10 ^ (m - d.nDigits) := by rw [← pow_add]; congr 1; omega
    rw [this, ← mul_assoc] at hlead
    exact Nat.le_of_mul_le_mul_right hlead (by positivity)
  have h10 : (10 : ℝ) ≠ 0 := by norm_num
  have hval : d.value = (decVal (full.take MAX_DIGITS) : ℝ) * 10 ^ j * 10 ^ (d.dp - full.length) := by
    unfold value
    rw [ht2, Nat.cast_mul, Nat.cast_pow, Nat.cast_ofNat, mul_assoc, mul_assoc, ← zpow_natCast,
      ← zpow_natCast, ← zpow_add₀ h10, ← zpow_add₀ h10]
    congr 2
    rw [Nat.cast_sub ht1]
    omega
  have hs : (decVal full : ℝ) = decVal (full.take MAX_DIGITS) * 10 ^ j + decVal (full.drop MAX_DIGITS) := by
    exact_mod_cast hsplit
  have hd : (decVal (full.drop MAX_DIGITS) : ℝ) < 10 ^ j := by exact_mod_cast hdrop
  have hd0 : (0 : ℝ) ≤ decVal (full.drop MAX_DIGITS) := Nat.cast_nonneg _
  have hE : (0 : ℝ) < 10 ^ (d.dp - full.length) := by positivity
  refine ⟨hnorm, ?_, ?_⟩
  · rw [hval]
    apply mul_le_mul_of_nonneg_right _ hE.le
    rw [hs]; linarith
  · rw [hval]
    have key : (decVal full : ℝ) * (1 - (1 : ℕ) / 2 ^ 600) ≤ decVal (full.take MAX_DIGITS) * 10 ^ j := by
      by_cases hj0 : full.length ≤ MAX_DIGITS
      · have : full.drop MAX_DIGITS = [] := List.drop_eq_nil_of_le hj0
        rw [this, decVal_nil, Nat.cast_zero, add_zero] at hs
        rw [← hs]
        have : (0 : ℝ) ≤ (decVal full : ℝ) * ((1 : ℕ) / 2 ^ 600) := by positivity
        linarith
      · have hmM : m = MAX_DIGITS := by omega
        have a1 : (10 : ℝ) ^ m ≤ 10 * decVal (full.take MAX_DIGITS) := by exact_mod_cast hlead
        have a2 : (10 : ℝ) ^ m = 10 * 10 ^ (MAX_DIGITS - 1) := by
          rw [hmM, ← pow_succ']; congr 1
        have a3 : (2 : ℝ) ^ 600 ≤ decVal (full.take MAX_DIGITS) := by
          have := max_digits_pow
          linarith
        have a4 : (10 : ℝ) ^ j ≤ decVal full * ((1 : ℕ) / 2 ^ 600) := by
          rw [Nat.cast_one, mul_one_div, le_div_iff₀ (by positivity), hs]
          have := mul_le_mul_of_nonneg_right a3 (show (0 : ℝ) ≤ 10 ^ j by positivity)
          linarith
        rw [mul_sub, mul_one]
        linarith
    calc _ = (decVal full : ℝ) * (1 - (1 : ℕ) / 2 ^ 600) * 10 ^ (d.dp - full.length) := by ring
      _ ≤ _ := mul_le_mul_of_nonneg_right key hE.le

/-! ## `left_shift` -/

theorem extraDigits_spec (fuel acc : ℕ) (h : acc < 10 ^ fuel) :
    decVal (extraDigits fuel acc).reverse = acc ∧ (∀ c ∈ extraDigits fuel acc, c < 10) ∧
    (extraDigits fuel acc ≠ [] → 10 ^ ((extraDigits fuel acc).length - 1) ≤ acc) := by
  induction fuel generalizing acc with
  | zero =>
    simp only [pow_zero, Nat.lt_one_iff] at h
    subst h
    simp [extraDigits, decVal]
  | succ fuel ih =>
    rw [extraDigits]
    split_ifs with h0
    · subst h0; simp [decVal]
    · rw [pow_succ] at h
      obtain ⟨a, b, c⟩ := ih (acc / 10) (by omega)
      refine ⟨?_, ?_, fun _ => ?_⟩
      · rw [List.reverse_cons, decVal_concat, a]; omega
      · intro x hx
        rcases List.mem_cons.mp hx with rfl | hx
        · omega
        · exact b x hx
      · rw [List.length_cons, Nat.add_sub_cancel]
        by_cases hn : extraDigits fuel (acc / 10) = []
        · rw [hn]; simp; omega
        · have := c hn
          have hl : (extraDigits fuel (acc / 10)).length ≠ 0 := by
            rwa [Ne, List.length_eq_zero_iff]
          obtain ⟨k, hk⟩ := Nat.exists_eq_succ_of_ne_zero hl
          rw [hk] at this ⊢
          rw [Nat.succ_eq_add_one, pow_succ]
          rw [Nat.succ_eq_add_one, Nat.add_sub_cancel] at this
          omega

/-- The accumulator of `left_shift` fits into 64 bits: it is less than `10 * 2^60` before it is divided. -/
theorem leftOut_acc {n acc d : ℕ} (h : acc < 2 ^ n) (hd : d < 10) :
    acc + d * 2 ^ n < 10 * 2 ^ n ∧ (acc + d * 2 ^ n) / 10 < 2 ^ n := by
  have : d * 2 ^ n ≤ 9 * 2 ^ n := Nat.mul_le_mul_right _ (by omega)
  omega

theorem leftOut_spec {n : ℕ} (hn : n ≤ 60) (rds : List ℕ) (hd : ∀ c ∈ rds, c < 10) (acc : ℕ)
    (ha : acc < 2 ^ n) :
    decVal (leftOut n acc rds).reverse = acc + decVal rds.reverse * 2 ^ n ∧
    (∀ c ∈ leftOut n acc rds, c < 10) ∧ rds.length ≤ (leftOut n acc rds).length ∧
    (rds.length < (leftOut n acc rds).length →
      10 ^ ((leftOut n acc rds).length - 1) ≤ acc + decVal rds.reverse * 2 ^ n) := by
  induction rds generalizing acc with
  | nil =>
    have h1 : acc < 10 ^ 20 := by
      have : 2 ^ n ≤ 2 ^ 60 := Nat.pow_le_pow_right (by norm_num) hn
      have : 2 ^ 60 < 10 ^ 20 := by norm_num
      omega
    obtain ⟨a, b, c⟩ := extraDigits_spec 20 acc h1
    refine ⟨by rw [leftOut, a]; simp [decVal], b, by simp, fun hl => ?_⟩
    have : extraDigits 20 acc ≠ [] := by
      intro h
      rw [leftOut, h] at hl
      simp at hl
    have := c this
    rw [leftOut]
    simpa [decVal] using this
  | cons d ds ih =>
    have hdd := hd d List.mem_cons_self
    obtain ⟨h1, h2⟩ := leftOut_acc ha hdd
    obtain ⟨a, b, c, e⟩ := ih (fun x hx => hd x (List.mem_cons_of_mem _ hx)) _ h2
    rw [leftOut, List.reverse_cons, decVal_concat, a, List.reverse_cons, decVal_concat]
    have key : ((acc + d * 2 ^ n) / 10 + decVal ds.reverse * 2 ^ n) * 10 + (acc + d * 2 ^ n) % 10 =
        acc + (decVal ds.reverse * 10 + d) * 2 ^ n := by
      have := Nat.div_add_mod (acc + d * 2 ^ n) 10
      have e1 : (decVal ds.reverse * 10 + d) * 2 ^ n = decVal ds.reverse * 2 ^ n * 10 + d * 2 ^ n := by ring
      rw [e1]
      omega
    refine ⟨key, ?_, by simpa using c, fun hl => ?_⟩
    · intro x hx
      rcases List.mem_cons.mp hx with rfl | hx
      · exact Nat.mod_lt _ (by norm_num)
      · exact b x hx
    · rw [← key]
      rw [List.length_cons, List.length_cons] at hl
      have h5 := e (by omega)
      rw [List.length_cons, Nat.add_sub_cancel]
      obtain ⟨k, hk⟩ : ∃ k, (leftOut n ((acc + d * 2 ^ n) / 10) ds).length = k + 1 := ⟨_, (Nat.succ_pred_eq_of_pos (by omega)).symm⟩
      rw [hk, Nat.add_sub_cancel] at h5
      rw [hk, pow_succ]
      omega

theorem ltLimit_iff (p l : List ℕ) (hp : ∀ c ∈ p, c < 10) (hl : ∀ c ∈ l, c < 10) :
    ltLimit p l = true ↔ decVal p * 10 ^ l.length < decVal l * 10 ^ p.length := by
  induction p generalizing l with
  | nil =>
    simp only [ltLimit, decVal_nil, zero_mul, List.length_nil, pow_zero, mul_one]
    induction l with
    | nil => simp [decVal]
    | cons b l ih =>
      rw [List.any_cons, Bool.or_eq_true, ih fun c hc => hl c (List.mem_cons_of_mem _ hc), decVal_cons]
      have : 0 < 10 ^ l.length := by positivity
      constructor
      · rintro (h | h)
        · have : b ≠ 0 := by simpa using h
          have : 0 < b * 10 ^ l.length := by positivity
          omega
        · omega
      · intro h
        by_cases hb : b = 0
        · subst hb; right; omega
        · left; simpa using hb
  | cons a p ih =>
    cases l with
    | nil => simp [ltLimit, decVal_nil]
    | cons b l =>
      have hp' := fun c hc => hp c (List.mem_cons_of_mem a hc)
      have hl' := fun c hc => hl c (List.mem_cons_of_mem b hc)
      have h1 := decVal_lt hp'
      have h2 := decVal_lt hl'
      rw [ltLimit, decVal_cons, decVal_cons, List.length_cons, List.length_cons, pow_succ, pow_succ]
      have hP : 0 < 10 ^ p.length := by positivity
      have hL : 0 < 10 ^ l.length := by positivity
      have e1 : (a * 10 ^ p.length + decVal p) * (10 ^ l.length * 10) =
          10 * (a * (10 ^ p.length * 10 ^ l.length) + decVal p * 10 ^ l.length) := by ring
      have e2 : (b * 10 ^ l.length + decVal l) * (10 ^ p.length * 10) =
          10 * (b * (10 ^ p.length * 10 ^ l.length) + decVal l * 10 ^ p.length) := by ring
      rw [e1, e2]
      have h3 : decVal p * 10 ^ l.length < 10 ^ p.length * 10 ^ l.length :=
        Nat.mul_lt_mul_of_pos_right h1 hL
      have h4 : decVal l * 10 ^ p.length < 10 ^ p.length * 10 ^ l.length := by
        rw [mul_comm (10 ^ p.length)]; exact Nat.mul_lt_mul_of_pos_right h2 hP
      split_ifs with hab
      · subst hab
        rw [ih l hp' hl']
        omega
      · rw [decide_eq_true_iff]
        generalize 10 ^ p.length * 10 ^ l.length = K at *
        constructor
        · intro hlt
          have : (a + 1) * K ≤ b * K := Nat.mul_le_mul_right _ hlt
          rw [add_mul] at this
          omega
        · intro hlt
          by_contra hcon
          have : (b + 1) * K ≤ a * K := Nat.mul_le_mul_right _ (by omega)
          rw [add_mul] at this
          omega

/-- The helper table: number of digits by which `2^n` enlarges a number, at most, and the limit below
which it is one less -/
theorem helper_table : ∀ n, n < 61 → n ≠ 0 →
    (∀ c ∈ (LEFT_SHIFT_HELPER_TABLE.getD n (0, [])).2, c < 10) ∧
    1 ≤ (LEFT_SHIFT_HELPER_TABLE.getD n (0, [])).1 ∧
    10 ^ ((LEFT_SHIFT_HELPER_TABLE.getD n (0, [])).1 - 1) *
      10 ^ (LEFT_SHIFT_HELPER_TABLE.getD n (0, [])).2.length =
      decVal (LEFT_SHIFT_HELPER_TABLE.getD n (0, [])).2 * 2 ^ n ∧
    2 ^ n ≤ 10 ^ (LEFT_SHIFT_HELPER_TABLE.getD n (0, [])).1 ∧
    10 ^ ((LEFT_SHIFT_HELPER_TABLE.getD n (0, [])).1 - 1) ≤ 2 ^ n := by decide +kernel

/-- `left_shift` multiplies by `2^n`. -/
theorem leftShift_spec {d : Decimal} (h : d.Norm) {n : ℕ} (h0 : n ≠ 0) (hn : n ≤ 60) :
    (d.leftShift n).Near (d.value * 2 ^ n) 1 ∧ (d.leftShift n).sign = d.sign := by
  obtain ⟨t1, t2, t3, t4, t5⟩ := helper_table n (by omega) h0
  have hD := decVal_lt h.digit
  rw [digits_length] at hD
  have hlead := h.lead
  have hpos := h.pos
  have hlt := ltLimit_iff d.digits _ h.digit t1
  rw [digits_length] at hlt
  unfold leftShift
  rw [if_neg hpos]
  generalize LEFT_SHIFT_HELPER_TABLE.getD n (0, []) = q at *
  obtain ⟨t0, lim⟩ := q
  simp only at t1 t2 t3 t4 t5 hlt ⊢
  generalize hnew : (if ltLimit d.digits lim = true then t0 - 1 else t0) = nNew
  have hrev : ∀ c ∈ d.digits.reverse, c < 10 := fun c hc => h.digit c (List.mem_reverse.mp hc)
  obtain ⟨o1, o2, o3, o4⟩ := leftOut_spec hn d.digits.reverse hrev 0 (by positivity)
  generalize leftOut n 0 d.digits.reverse = out at *
  rw [List.reverse_reverse, Nat.zero_add] at o1 o4
  rw [List.length_reverse, digits_length] at o3 o4
  generalize hDD : decVal d.digits = D at *
  -- the number of digits is the one expected
  have hs : 10 ^ (d.nDigits + nNew) ≤ 10 * (D * 2 ^ n) ∧ D * 2 ^ n < 10 ^ (d.nDigits + nNew) := by
    obtain ⟨k, rfl⟩ : ∃ k, t0 = k + 1 := ⟨t0 - 1, by omega⟩
    rw [Nat.add_sub_cancel] at t3 t5 hnew
    have hl10 : 0 < 10 ^ lim.length := by positivity
    have h2n : 0 < 2 ^ n := by positivity
    have c1 : D * 2 ^ n < 10 ^ d.nDigits * 10 ^ k ↔ ltLimit d.digits lim = true := by
      rw [hlt]
      have e1 : D * 10 ^ lim.length * 2 ^ n = D * 2 ^ n * 10 ^ lim.length := by ring
      have e2 : decVal lim * 10 ^ d.nDigits * 2 ^ n = 10 ^ d.nDigits * 10 ^ k * 10 ^ lim.length := by
        rw [mul_right_comm, ← t3]; ring
      rw [← Nat.mul_lt_mul_right (a := 2 ^ n) h2n (b := D * 10 ^ lim.length), e1, e2,
        Nat.mul_lt_mul_right hl10]
    by_cases hb : ltLimit d.digits lim = true
    · rw [if_pos hb] at hnew
      subst hnew
      refine ⟨?_, by rw [pow_add]; exact c1.mpr hb⟩
      rw [pow_add]
      calc 10 ^ d.nDigits * 10 ^ k ≤ (10 * D) * 2 ^ n := Nat.mul_le_mul hlead t5
        _ = _ := by ring
    · rw [if_neg hb] at hnew
      subst hnew
      rw [← c1, not_lt] at hb
      constructor
      · rw [← add_assoc, pow_succ, pow_add]
        omega
      · rw [pow_add]
        exact lt_of_lt_of_le (Nat.mul_lt_mul_of_pos_right hD h2n) (Nat.mul_le_mul_left _ t4)
  have hlen : out.length = d.nDigits + nNew := by
    have h6 : D * 2 ^ n < 10 ^ out.length := by
      rw [← o1, ← List.length_reverse]
      exact decVal_lt fun c hc => o2 c (List.mem_reverse.mp hc)
    have h7 : d.nDigits + nNew ≤ out.length := by
      by_contra hcon
      have : 10 ^ (out.length + 1) ≤ 10 ^ (d.nDigits + nNew) := Nat.pow_le_pow_right (by norm_num) (by omega)
      rw [pow_succ] at this
      omega
    have h8 : out.length ≤ d.nDigits + nNew := by
      by_contra hcon
      have h9 := o4 (by omega)
      have : 10 ^ (d.nDigits + nNew) ≤ 10 ^ (out.length - 1) := Nat.pow_le_pow_right (by norm_num) (by omega)
      omega
    omega
  have hw : padTake (d.nDigits + nNew - out.length) d.buf ++
      out.reverse.drop (out.length - (d.nDigits + nNew)) = out.reverse := by
    rw [hlen, Nat.sub_self, padTake_zero, List.drop_zero, List.nil_append]
  rw [hw]
  refine ⟨?_, trivial⟩
  have := near_of_list (full := out.reverse) (d := { d with
      nDigits := trim ((out.reverse ++ d.buf.drop (d.nDigits + nNew)).take MAX_DIGITS) (min (d.nDigits + nNew) MAX_DIGITS)
      dp := d.dp + nNew
      truncated := d.truncated || (out.reverse.take (out.length - (d.nDigits + nNew)) ++ out.reverse.drop MAX_DIGITS).any (· != 0)
      buf := (out.reverse ++ d.buf.drop (d.nDigits + nNew)).take MAX_DIGITS })
    (fun c hc => o2 c (List.mem_reverse.mp hc)) (by rw [List.length_reverse, hlen, o1]; exact hs.1) ?_ ?_
  · convert this using 1
    rw [o1, List.length_reverse, hlen, value, hDD, Nat.cast_mul, Nat.cast_pow, Nat.cast_ofNat,
      mul_right_comm]
    congr 2
    push_cast
    ring
  · simp only
    rw [List.take_append]
    have e1 : (out.reverse.take MAX_DIGITS).length = min out.reverse.length MAX_DIGITS := by
      rw [List.length_take, min_comm]
    rw [← e1, padTake_append]
  · simp only [List.length_reverse, hlen]

/-! ## `right_shift` -/

theorem rsPad_spec (n : ℕ) : ∀ (fuel acc c : ℕ), 0 < acc → acc < 10 * 2 ^ n → 2 ^ n ≤ acc * 10 ^ fuel →
    ∃ a k, rsPad n fuel acc c = (a, c + k) ∧ a = acc * 10 ^ k ∧ 2 ^ n ≤ a ∧ a < 10 * 2 ^ n
  | 0, acc, c, _, h1, h2 => ⟨acc, 0, rfl, by simp, by simpa using h2, h1⟩
  | fuel + 1, acc, c, h0, h1, h2 => by
    rw [rsPad]
    have hp : 0 < 2 ^ n := by positivity
    split_ifs with h
    · rw [Nat.div_eq_zero_iff] at h
      obtain ⟨a, k, e1, e2, e3, e4⟩ := rsPad_spec n fuel (acc * 10) (c + 1) (by omega) (by omega)
        (by rw [pow_succ] at h2; calc 2 ^ n ≤ acc * (10 ^ fuel * 10) := h2
              _ = _ := by ring)
      exact ⟨a, k + 1, by rw [e1]; congr 1; omega, by rw [e2, pow_succ]; ring, e3, e4⟩
    · rw [Nat.div_eq_zero_iff] at h
      exact ⟨acc, 0, rfl, by simp, by omega, h1⟩

/-- The accumulator of `right_shift` is less than `10 * 2^60`, too. -/
theorem rsStart_spec (n : ℕ) : ∀ (ds : List ℕ) (acc c : ℕ), (∀ x ∈ ds, x < 10) → acc < 10 * 2 ^ n →
    0 < acc * 10 ^ ds.length + decVal ds →
    ∃ a rest k, rsStart n acc c ds = some (a, rest, c + k) ∧ 2 ^ n ≤ a ∧ a < 10 * 2 ^ n ∧
      (∀ x ∈ rest, x < 10) ∧
      (acc * 10 ^ ds.length + decVal ds) * 10 ^ (k + rest.length) =
        (a * 10 ^ rest.length + decVal rest) * 10 ^ ds.length
  | [], acc, c, _, h1, h2 => by
    have hp : 0 < 2 ^ n := by positivity
    rw [rsStart]
    simp only [decVal_nil, List.length_nil, pow_zero, mul_one, add_zero] at h2 ⊢
    by_cases h : acc / 2 ^ n ≠ 0
    · rw [if_pos h]
      rw [Ne, Nat.div_eq_zero_iff] at h
      exact ⟨acc, [], 0, rfl, by omega, h1, by simp, by simp [decVal]⟩
    · rw [if_neg h, if_neg (by omega)]
      have hge : 2 ^ n ≤ acc * 10 ^ n := by
        calc 2 ^ n ≤ 10 ^ n := Nat.pow_le_pow_left (by norm_num) _
          _ ≤ _ := Nat.le_mul_of_pos_left _ h2
      obtain ⟨a, k, e1, e2, e3, e4⟩ := rsPad_spec n n acc c h2 h1 hge
      refine ⟨a, [], k, by rw [e1], e3, e4, by simp, ?_⟩
      simp [decVal, e2]
  | d :: ds, acc, c, hd, h1, h2 => by
    have hp : 0 < 2 ^ n := by positivity
    rw [rsStart]
    have hd0 := hd d List.mem_cons_self
    by_cases h : acc / 2 ^ n ≠ 0
    · rw [if_pos h]
      rw [Ne, Nat.div_eq_zero_iff] at h
      exact ⟨acc, d :: ds, 0, rfl, by omega, h1, hd, by rw [Nat.zero_add]⟩
    · rw [if_neg h]
      rw [not_not, Nat.div_eq_zero_iff] at h
      have e0 : acc * 10 ^ (d :: ds).length + decVal (d :: ds) =
          (10 * acc + d) * 10 ^ ds.length + decVal ds := by
        rw [List.length_cons, decVal_cons, pow_succ]; ring
      obtain ⟨a, rest, k, e1, e2, e3, e4, e5⟩ := rsStart_spec n ds (10 * acc + d) (c + 1)
        (fun x hx => hd x (List.mem_cons_of_mem _ hx)) (by omega) (by rw [← e0]; exact h2)
      refine ⟨a, rest, k + 1, by rw [e1]; congr 3; omega, e2, e3, e4, ?_⟩
      rw [e0, show k + 1 + rest.length = (k + rest.length) + 1 by omega, pow_succ, ← mul_assoc, e5,
        List.length_cons, pow_succ, mul_assoc]

theorem rsMain_spec (n : ℕ) : ∀ (ds : List ℕ) (acc : ℕ), (∀ x ∈ ds, x < 10) → acc < 10 * 2 ^ n →
    (rsMain n acc ds).1.length = ds.length ∧ (∀ x ∈ (rsMain n acc ds).1, x < 10) ∧
    (rsMain n acc ds).2 < 10 * 2 ^ n ∧
    acc * 10 ^ ds.length + decVal ds = decVal (rsMain n acc ds).1 * (10 * 2 ^ n) + (rsMain n acc ds).2
  | [], acc, _, h => ⟨rfl, by simp [rsMain], h, by simp [rsMain, decVal]⟩
  | d :: ds, acc, hd, h => by
    have hp : 0 < 2 ^ n := by positivity
    have hd0 := hd d List.mem_cons_self
    have hm := Nat.mod_lt acc hp
    obtain ⟨a, b, c, e⟩ := rsMain_spec n ds (10 * (acc % 2 ^ n) + d)
      (fun x hx => hd x (List.mem_cons_of_mem _ hx)) (by omega)
    rw [rsMain]
    refine ⟨by simp [a], ?_, c, ?_⟩
    · intro x hx
      rcases List.mem_cons.mp hx with rfl | hx
      · rw [Nat.div_lt_iff_lt_mul hp]; exact h
      · exact b x hx
    · simp only
      rw [decVal_cons, decVal_cons, a, List.length_cons, add_mul, add_assoc, ← e]
      have hdm := Nat.div_add_mod acc (2 ^ n)
      calc acc * 10 ^ (ds.length + 1) + (d * 10 ^ ds.length + decVal ds)
          = (2 ^ n * (acc / 2 ^ n) + acc % 2 ^ n) * 10 ^ (ds.length + 1) +
            (d * 10 ^ ds.length + decVal ds) := by rw [hdm]
        _ = _ := by rw [pow_succ]; ring

theorem rsTail_spec (n : ℕ) : ∀ (fuel acc : ℕ), acc < 10 * 2 ^ n → fuel ≤ n + 1 → (fuel = 0 → acc = 0) →
    2 ^ (n + 1 - fuel) ∣ acc →
    (∀ x ∈ rsTail n fuel acc, x < 10) ∧
    acc * 10 ^ (rsTail n fuel acc).length = decVal (rsTail n fuel acc) * (10 * 2 ^ n)
  | 0, acc, _, _, h0, _ => by rw [h0 rfl]; simp [rsTail, decVal]
  | fuel + 1, acc, h, hf, _, hd => by
    have hp : 0 < 2 ^ n := by positivity
    rw [rsTail]
    split_ifs with h0
    · subst h0; simp [decVal]
    · have hm := Nat.mod_lt acc hp
      rw [Nat.add_sub_add_right] at hd
      have hd2 : 2 ^ (n - fuel) ∣ acc % 2 ^ n :=
        (Nat.dvd_mod_iff (Nat.pow_dvd_pow 2 (Nat.sub_le _ _))).mpr hd
      obtain ⟨a, b⟩ := rsTail_spec n fuel (10 * (acc % 2 ^ n)) (by omega) (by omega)
        (by
          rintro rfl
          rw [Nat.sub_zero] at hd
          rw [Nat.mod_eq_zero_of_dvd hd])
        (by
          rw [show n + 1 - fuel = n - fuel + 1 by omega, pow_succ, mul_comm]
          exact Nat.mul_dvd_mul (by norm_num) hd2)
      refine ⟨?_, ?_⟩
      · intro x hx
        rcases List.mem_cons.mp hx with rfl | hx
        · rw [Nat.div_lt_iff_lt_mul hp]; exact h
        · exact a x hx
      · rw [decVal_cons, List.length_cons, add_mul, ← b]
        have hdm := Nat.div_add_mod acc (2 ^ n)
        calc acc * 10 ^ ((rsTail n fuel (10 * (acc % 2 ^ n))).length + 1)
            = (2 ^ n * (acc / 2 ^ n) + acc % 2 ^ n) *
              10 ^ ((rsTail n fuel (10 * (acc % 2 ^ n))).length + 1) := by rw [hdm]
          _ = _ := by rw [pow_succ]; ring

/-- `right_shift` divides by `2^n`. -/
theorem rightShift_spec {d : Decimal} (h : d.Norm) (n : ℕ) :
    (d.rightShift n).Near (d.value * (1 / 2 ^ n)) 1 ∧ (d.rightShift n).sign = d.sign := by
  have hlead := h.lead
  have hp : 0 < 2 ^ n := by positivity
  obtain ⟨a, rest, c, e1, e2, e3, e4, e5⟩ := rsStart_spec n d.digits 0 0 h.digit (by omega)
    (by have : 0 < 10 ^ d.nDigits := by positivity
        omega)
  rw [Nat.zero_add] at e1
  rw [zero_mul, Nat.zero_add, digits_length] at e5
  obtain ⟨m1, m2, m3, m4⟩ := rsMain_spec n rest a e4 e3
  unfold rightShift
  rw [e1]
  simp only
  generalize rsMain n a rest = om at *
  obtain ⟨o, acc⟩ := om
  simp only at m1 m2 m3 m4 ⊢
  obtain ⟨t1, t2⟩ := rsTail_spec n (n + 1) acc m3 le_rfl (by omega) (by simp)
  generalize rsTail n (n + 1) acc = T at *
  refine ⟨?_, trivial⟩
  have hval : decVal (o ++ T) * (10 * 2 ^ n) = (a * 10 ^ rest.length + decVal rest) * 10 ^ T.length := by
    rw [decVal_append, m4, add_mul, add_mul, t2]; ring
  have := near_of_list (full := o ++ T) (d := { d with
      nDigits := trim ((o ++ T).take MAX_DIGITS ++ d.buf.drop (min (o ++ T).length MAX_DIGITS)) (min (o ++ T).length MAX_DIGITS)
      dp := d.dp - ((c : Int) - 1)
      truncated := d.truncated || ((o ++ T).drop MAX_DIGITS).any (· != 0)
      buf := (o ++ T).take MAX_DIGITS ++ d.buf.drop (min (o ++ T).length MAX_DIGITS) })
    (fun x hx => (List.mem_append.mp hx).elim (m2 x) (t1 x)) ?_ ?_ rfl
  · convert this using 1
    have h10 : (10 : ℝ) ≠ 0 := by norm_num
    have hv : (decVal (o ++ T) : ℝ) * (10 * 2 ^ n) * 10 ^ d.nDigits =
        decVal d.digits * 10 ^ (c + rest.length) * 10 ^ T.length := by
      have : decVal (o ++ T) * (10 * 2 ^ n) * 10 ^ d.nDigits =
        decVal d.digits * 10 ^ (c + rest.length) * 10 ^ T.length := by
        rw [hval, e5]; ring
      exact_mod_cast this
    have hz : (10 : ℝ) ^ (d.dp - ((c : ℤ) - 1) - ((o ++ T).length : ℕ)) =
        10 ^ d.dp * 10 / (10 ^ (c + rest.length) * 10 ^ T.length) := by
      rw [List.length_append, m1,
        show d.dp - ((c : ℤ) - 1) - ((rest.length + T.length : ℕ) : ℤ) =
          d.dp + 1 - ((c + rest.length : ℕ) + (T.length : ℕ)) by push_cast; ring,
        zpow_sub₀ h10, zpow_add₀ h10, zpow_add₀ h10, zpow_natCast, zpow_natCast, zpow_one]
    have hz2 : (10 : ℝ) ^ (d.dp - d.nDigits) = 10 ^ d.dp / 10 ^ d.nDigits := by
      rw [zpow_sub₀ h10, zpow_natCast]
    rw [hz, value, hz2, mul_one_div, div_eq_iff (by positivity)]
    have hN : (10 : ℝ) ^ d.nDigits ≠ 0 := by positivity
    have hC : (10 : ℝ) ^ (c + rest.length) * 10 ^ T.length ≠ 0 := by positivity
    field_simp
    linear_combination -hv
  · rw [List.length_append, m1]
    have h9 : 2 ^ n * 10 ^ (rest.length + T.length) ≤ 2 ^ n * (10 * decVal (o ++ T)) := by
      calc 2 ^ n * 10 ^ (rest.length + T.length) ≤ a * 10 ^ (rest.length + T.length) := Nat.mul_le_mul_right _ e2
        _ = a * 10 ^ rest.length * 10 ^ T.length := by rw [pow_add]; ring
        _ ≤ (a * 10 ^ rest.length + decVal rest) * 10 ^ T.length := Nat.mul_le_mul_right _ (Nat.le_add_right _ _)
        _ = _ := by rw [← hval]; ring
    exact Nat.le_of_mul_le_mul_left h9 hp
  · simp only
    have e1 : ((o ++ T).take MAX_DIGITS).length = min (o ++ T).length MAX_DIGITS := by
      rw [List.length_take, min_comm]
    rw [← e1, padTake_append]

end Decimal

end Verif
