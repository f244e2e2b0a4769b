import Verif.Proofs.Decimal
import Verif.Proofs.Near
import Verif.Proofs.New
import Verif.Proofs.Wide
import Verif.Model.FromStr

/-!
# `slow_exact`: the result is a nearest one for an approximation from below
-/

namespace Verif

open Spec

theorem padTake_add (a b : ℕ) (l : List ℕ) : padTake (a + b) l = padTake a l ++ padTake b (l.drop a) := by
  induction b with
  | zero => simp [padTake_zero]
  | succ b ih =>
    rw [← add_assoc, padTake_succ, ih, padTake_succ, List.append_assoc]
    congr 3
    simp [List.getD_eq_getElem?_getD]

theorem padTake_cons (b : ℕ) (l : List ℕ) (a : ℕ) :
    padTake (b + 1) (l.drop a) = l.getD a 0 :: padTake b (l.drop (a + 1)) := by
  have := padTake_add 1 b (l.drop a)
  rw [add_comm, this, List.drop_drop, padTake_succ, padTake_zero, List.nil_append, List.singleton_append]
  congr 1
  simp [List.getD_eq_getElem?_getD]

theorem fold_imul {ds : List ℕ} (hd : ∀ c ∈ ds, c < 10) : ∀ (n : U256),
    nat256 n * 10 ^ ds.length + decVal ds < 2 ^ 256 →
    nat256 (ds.foldl (fun n c => imul10Add n (BitVec.ofNat 8 c)) n) = nat256 n * 10 ^ ds.length + decVal ds := by
  induction ds with
  | nil => intro n _; simp [decVal]
  | cons c ds ih =>
    intro n h
    have hc := hd c List.mem_cons_self
    rw [List.length_cons, decVal_cons, pow_succ] at h
    have e : nat256 n * (10 ^ ds.length * 10) + (c * 10 ^ ds.length + decVal ds) =
        (nat256 n * 10 + c) * 10 ^ ds.length + decVal ds := by ring
    rw [e] at h
    have h1 : nat256 n * 10 + c < 2 ^ 256 := by
      have : 1 ≤ 10 ^ ds.length := Nat.one_le_pow _ _ (by norm_num)
      have : (nat256 n * 10 + c) * 1 ≤ (nat256 n * 10 + c) * 10 ^ ds.length := Nat.mul_le_mul_left _ this
      omega
    have h2 : nat256 (imul10Add n (BitVec.ofNat 8 c)) = nat256 n * 10 + c := by
      have e8 : (BitVec.ofNat 8 c).toNat = c := by rw [BitVec.toNat_ofNat]; omega
      have := imul10Add_spec n (BitVec.ofNat 8 c) (by rw [e8]; exact h1)
      rw [e8] at this
      exact this
    rw [List.foldl_cons, ih (fun x hx => hd x (List.mem_cons_of_mem _ hx)) _ (by rw [h2]; exact h), h2,
      List.length_cons, decVal_cons, pow_succ, e]

namespace Decimal

theorem dp_le {d : Decimal} (h : d.Norm) {k : ℕ} (hk : d.value < 10 ^ k) : d.dp ≤ k := by
  have h1 := lt_of_le_of_lt h.ge hk
  rw [← zpow_natCast, zpow_lt_zpow_iff_right₀ (by norm_num)] at h1
  omega

/-- `round` gives a nearest integer unless the number is an integer. -/
theorem round_spec {d : Decimal} (h : d.Norm) (hlt : d.value < 2 ^ 237)
    (hni : ∀ m : ℕ, d.value ≠ m) :
    |d.value - (nat256 d.round : ℝ)| ≤ 1 / 2 := by
  have h77 : d.dp ≤ (77 : ℕ) := dp_le h (hlt.trans_le (by norm_num))
  unfold round
  by_cases hneg : d.dp < 0
  · rw [if_pos (Or.inr hneg)]
    have h1 : d.value < 1 / 2 := by
      refine h.lt.trans_le ?_
      calc (10 : ℝ) ^ d.dp ≤ 10 ^ (-1 : ℤ) := zpow_le_zpow_right₀ (by norm_num) (by omega)
        _ ≤ _ := by norm_num
    have : nat256 (U256.new 0 0) = 0 := rfl
    rw [this, Nat.cast_zero, sub_zero, abs_of_pos h.value_pos]
    exact h1.le
  rw [if_neg (not_or.mpr ⟨h.pos, hneg⟩), if_neg (by push_cast at h77; omega)]
  obtain ⟨p, hp⟩ : ∃ p : ℕ, d.dp = p := ⟨d.dp.toNat, by omega⟩
  have hp77 : p ≤ 77 := by omega
  have h10 : (10 : ℝ) ≠ 0 := by norm_num
  rcases Nat.lt_or_ge p d.nDigits with hpn | hpn
  · obtain ⟨r, hr⟩ := Nat.exists_eq_add_of_lt hpn
    -- digits before and behind the decimal point
    have hdig : d.digits = padTake p d.buf ++ d.buf.getD p 0 :: padTake r (d.buf.drop (p + 1)) := by
      rw [digits, hr, Nat.add_assoc, padTake_add, padTake_cons]
    have hall := h.digit
    rw [hdig] at hall
    have ha : ∀ c ∈ padTake p d.buf, c < 10 := fun c hc => hall c (List.mem_append_left _ hc)
    have hc10 : d.buf.getD p 0 < 10 := hall _ (List.mem_append_right _ List.mem_cons_self)
    have hrest : ∀ c ∈ padTake r (d.buf.drop (p + 1)), c < 10 := fun c hc =>
      hall c (List.mem_append_right _ (List.mem_cons_of_mem _ hc))
    have hI := decVal_lt ha
    have hQ := decVal_lt hrest
    rw [padTake_length] at hI hQ
    have hI256 : decVal (padTake p d.buf) + 1 < 2 ^ 256 := by
      have : 10 ^ p ≤ 10 ^ 77 := Nat.pow_le_pow_right (by norm_num) hp77
      have : 10 ^ 77 < 2 ^ 256 := by norm_num
      omega
    have hfold := fold_imul ha (U256.new 0 0)
    rw [show nat256 (U256.new 0 0) = 0 from rfl, zero_mul, zero_add] at hfold
    have hfold := hfold (by omega)
    have hv : d.value = decVal (padTake p d.buf) +
        ((d.buf.getD p 0 : ℕ) * 10 ^ r + (decVal (padTake r (d.buf.drop (p + 1))) : ℕ)) / 10 ^ (r + 1) := by
      rw [value, hdig, decVal_append, decVal_cons, List.length_cons, padTake_length, hp, hr,
        show ((p : ℤ) - ((p + r + 1 : ℕ) : ℤ)) = -((r + 1 : ℕ) : ℤ) by push_cast; ring, zpow_neg, zpow_natCast]
      push_cast
      field_simp
    rw [hp, Int.toNat_natCast]
    simp only
    clear hall hdig hrest ha
    generalize (padTake p d.buf).foldl (fun n c => imul10Add n (BitVec.ofNat 8 c)) (U256.new 0 0) = n at *
    generalize decVal (padTake p d.buf) = I at *
    generalize decVal (padTake r (d.buf.drop (p + 1))) = Q at *
    generalize d.buf.getD p 0 = c at *
    have hQ' : (Q : ℝ) < 10 ^ r := by exact_mod_cast hQ
    have hQ0 : (0 : ℝ) ≤ Q := Nat.cast_nonneg _
    have hR : (0 : ℝ) < 10 ^ r := by positivity
    have hfr : ((c : ℝ) * 10 ^ r + Q) / 10 ^ (r + 1) = (c + Q / 10 ^ r) / 10 := by
      rw [pow_succ]; field_simp
    have hq1 : (Q : ℝ) / 10 ^ r < 1 := (div_lt_one hR).mpr hQ'
    have hq0 : (0 : ℝ) ≤ Q / 10 ^ r := by positivity
    rw [hv, hfr]
    by_cases hup : c > 5 ∨ (c = 5 ∧ (p < d.nDigits - 1 ∨ d.truncated = true))
    · rw [if_pos hup, nat_incr256, hfold, Nat.mod_eq_of_lt hI256]
      have hc5 : (5 : ℝ) ≤ c := by
        have : 5 ≤ c := by omega
        exact_mod_cast this
      have hc9 : (c : ℝ) ≤ 9 := by
        have : c ≤ 9 := by omega
        exact_mod_cast this
      rw [Nat.cast_add, Nat.cast_one, abs_le]
      constructor <;> linarith
    · rw [if_neg hup, hfold]
      have hc0 : (0 : ℝ) ≤ c := Nat.cast_nonneg _
      by_cases hc5 : c = 5
      · have hr0 : r = 0 := by
          by_contra hne
          exact hup (Or.inr ⟨hc5, Or.inl (by omega)⟩)
        subst hr0
        rw [pow_zero] at hQ'
        have : Q = 0 := by
          have : Q < 1 := by exact_mod_cast hQ'
          omega
        subst this
        subst hc5
        norm_num
      · have hc4 : (c : ℝ) ≤ 4 := by
          have : c ≤ 4 := by omega
          exact_mod_cast this
        rw [abs_le]
        constructor <;> linarith
  · exfalso
    apply hni (decVal d.digits * 10 ^ (p - d.nDigits))
    rw [value, hp, Nat.cast_mul, Nat.cast_pow, Nat.cast_ofNat, ← zpow_natCast, Nat.cast_sub hpn]

theorem Near.refl {d : Decimal} (h : d.Norm) : d.Near d.value 0 := ⟨h, le_rfl, by simp⟩

theorem shift_table : ∀ k, k < 20 → k ≠ 0 →
    3 ≤ [0, 3, 6, 9, 13, 16, 19, 23, 26, 29, 33, 36, 39, 43, 46, 49, 53, 56, 59, 60].getD k 0 ∧
    [0, 3, 6, 9, 13, 16, 19, 23, 26, 29, 33, 36, 39, 43, 46, 49, 53, 56, 59, 60].getD k 0 ≤ 60 ∧
    2 ^ [0, 3, 6, 9, 13, 16, 19, 23, 26, 29, 33, 36, 39, 43, 46, 49, 53, 56, 59, 60].getD k 0 ≤ 10 ^ k := by
  decide +kernel

theorem decToBinShift_spec {k : ℕ} (hk : k ≠ 0) :
    3 ≤ decToBinShift k ∧ decToBinShift k ≤ 60 ∧ 2 ^ decToBinShift k ≤ 10 ^ k := by
  obtain ⟨a, b, c⟩ := shift_table (min k 19) (by omega) (by omega)
  exact ⟨a, b, c.trans (Nat.pow_le_pow_right (by norm_num) (by omega))⟩

theorem half_le : (1 : ℝ) / 2 ≤ 1 - ((1 : ℕ) : ℝ) / 2 ^ 600 := by
  have : (2 : ℝ) ≤ 2 ^ 600 := le_self_pow₀ (by norm_num) (by norm_num)
  have : (1 : ℝ) / 2 ^ 600 ≤ 1 / 2 := one_div_le_one_div_of_le (by norm_num) this
  rw [Nat.cast_one]
  linarith

theorem scale_mul (v : ℝ) (e : ℤ) (n : ℕ) : v * 2 ^ (-e) * (1 / 2 ^ n) = v * (2 : ℝ) ^ (-(e + n)) := by
  rw [neg_add, zpow_add₀ (by norm_num), zpow_neg 2 (n : ℤ), zpow_natCast, one_div, mul_assoc]

theorem scale_mul' (v : ℝ) (e : ℤ) (n : ℕ) : v * 2 ^ (-e) * 2 ^ n = v * (2 : ℝ) ^ (-(e - n)) := by
  rw [neg_sub, sub_eq_neg_add, zpow_add₀ (by norm_num), zpow_natCast, mul_assoc]

theorem scaleDown_spec (v : ℝ) : ∀ (fuel : ℕ) (d : Decimal) (e : ℤ) (p : ℕ), d.Near (v * 2 ^ (-e)) p →
    d.value < 8 ^ fuel → ∃ d' e' q, scaleDown fuel d e = (d', e') ∧ q ≤ p + fuel ∧
      d'.Near (v * 2 ^ (-e')) q ∧ d'.dp ≤ 0 ∧ min d.dp (-20) ≤ d'.dp ∧ d'.sign = d.sign ∧
      e ≤ e' ∧ e' ≤ e + 60 * fuel
  | 0, d, e, p, h, hv => by
    refine ⟨d, e, p, rfl, by omega, h, ?_, by omega, rfl, le_rfl, by simp⟩
    rw [pow_zero] at hv
    have := dp_le h.norm (k := 0) (by simpa using hv)
    simpa using this
  | fuel + 1, d, e, p, h, hv => by
    rw [scaleDown]
    by_cases hdp : d.dp > 0
    · rw [if_pos hdp]
      simp only
      obtain ⟨n1, n2, n3⟩ := decToBinShift_spec (k := d.dp.toNat) (by omega)
      generalize decToBinShift d.dp.toNat = n at *
      obtain ⟨hs, hsg⟩ := rightShift_spec h.norm n
      have ht := h.trans (by positivity) hs
      rw [scale_mul] at ht
      have hv1 : (1 : ℝ) ≤ d.value := by
        refine le_trans ?_ h.norm.ge
        exact one_le_zpow₀ (by norm_num) (by omega)
      have h8 : (8 : ℝ) ≤ 2 ^ n := by
        calc (8 : ℝ) = 2 ^ 3 := by norm_num
          _ ≤ _ := pow_le_pow_right₀ (by norm_num) n1
      have h60 : (2 : ℝ) ^ n ≤ 2 ^ 60 := pow_le_pow_right₀ (by norm_num) n2
      obtain ⟨d', e', q, a1, a2, a3, a4, a5, a6, a7, a8⟩ := scaleDown_spec v fuel _ _ _ ht (by
        refine lt_of_le_of_lt hs.le ?_
        rw [mul_one_div, div_lt_iff₀ (by positivity)]
        rw [pow_succ] at hv
        refine hv.trans_le ?_
        exact mul_le_mul_of_nonneg_left h8 (by positivity))
      refine ⟨d', e', q, a1, by omega, a3, a4, ?_, a6.trans hsg, by omega, ?_⟩
      · -- the number does not become very small
        have hval : (10 : ℝ) ^ (-19 : ℤ) ≤ (d.rightShift n).value := by
          refine le_trans ?_ hs.ge
          have h1 : (1 : ℝ) / 2 ^ 60 ≤ d.value * (1 / 2 ^ n) := by
            rw [mul_one_div, div_le_div_iff₀ (by positivity) (by positivity)]
            nlinarith
          have h2 := half_le
          have h3 : (1 : ℝ) / 2 ^ 60 * (1 / 2) ≤ d.value * (1 / 2 ^ n) * (1 - ((1 : ℕ) : ℝ) / 2 ^ 600) :=
            mul_le_mul h1 h2 (by norm_num) (le_trans (by positivity) h1)
          refine le_trans ?_ h3
          norm_num
        have := lt_of_le_of_lt hval hs.norm.lt
        rw [zpow_lt_zpow_iff_right₀ (by norm_num)] at this
        omega
      · push_cast
        omega
    · rw [if_neg hdp]
      exact ⟨d, e, p, rfl, by omega, h, by omega, by omega, rfl, le_rfl, by push_cast; omega⟩

/-- The first digit tells in which tenth the number is. -/
theorem first_digit {d : Decimal} (h : d.Norm) (hdp : d.dp = 0) :
    (d.buf.getD 0 0 : ℝ) / 10 ≤ d.value ∧ d.value < (d.buf.getD 0 0 + 1) / 10 := by
  obtain ⟨k, hk⟩ := Nat.exists_eq_succ_of_ne_zero h.pos
  have hdig : d.digits = d.buf.getD 0 0 :: padTake k (d.buf.drop 1) := by
    rw [digits, hk]
    have := padTake_cons k d.buf 0
    rwa [List.drop_zero] at this
  have hall := h.digit
  rw [hdig] at hall
  have hlt := decVal_lt fun c hc => hall c (List.mem_cons_of_mem _ hc)
  rw [padTake_length] at hlt
  have hlt' : (decVal (padTake k (d.buf.drop 1)) : ℝ) < 10 ^ k := by exact_mod_cast hlt
  have h0 : (0 : ℝ) ≤ decVal (padTake k (d.buf.drop 1)) := Nat.cast_nonneg _
  have hv : d.value = ((d.buf.getD 0 0 : ℕ) * 10 ^ k + (decVal (padTake k (d.buf.drop 1)) : ℕ)) / 10 ^ (k + 1) := by
    rw [value, hdig, decVal_cons, padTake_length, hdp, hk, zero_sub, zpow_neg, zpow_natCast, Nat.succ_eq_add_one]
    push_cast
    field_simp
  have hp : (0 : ℝ) < 10 ^ k := by positivity
  rw [hv, pow_succ]
  constructor
  · rw [div_le_div_iff₀ (by norm_num) (by positivity)]
    nlinarith
  · rw [div_lt_div_iff₀ (by positivity) (by norm_num)]
    nlinarith

theorem scaleUp_step {v : ℝ} {d : Decimal} {e : ℤ} {p n fuel : ℕ} (h : d.Near (v * 2 ^ (-e)) p)
    (h0 : n ≠ 0) (hn : n ≤ 60) (hlt : d.value * 2 ^ n < 1) (hv : 1 ≤ d.value * (3 / 2) ^ (fuel + 1)) :
    (d.leftShift n).Near (v * 2 ^ (-(e - n))) (p + 1) ∧ (d.leftShift n).dp ≤ 0 ∧
    1 ≤ (d.leftShift n).value * (3 / 2) ^ fuel ∧ (d.leftShift n).sign = d.sign := by
  obtain ⟨hs, hsg⟩ := leftShift_spec h.norm h0 hn
  have ht := h.trans (by positivity) hs
  rw [scale_mul'] at ht
  refine ⟨ht, ?_, ?_, hsg⟩
  · have := dp_le hs.norm (k := 0) (by simpa using lt_of_le_of_lt hs.le hlt)
    simpa using this
  · refine hv.trans ?_
    rw [pow_succ, ← mul_assoc, mul_right_comm]
    apply mul_le_mul_of_nonneg_right _ (by positivity)
    refine le_trans ?_ hs.ge
    have h2 : (2 : ℝ) ≤ 2 ^ n := le_self_pow₀ (by norm_num) h0
    have h3 : (3 : ℝ) / 4 ≤ 1 - ((1 : ℕ) : ℝ) / 2 ^ 600 := by
      have : (4 : ℝ) ≤ 2 ^ 600 := by
        calc (4 : ℝ) = 2 ^ 2 := by norm_num
          _ ≤ _ := pow_le_pow_right₀ (by norm_num) (by norm_num)
      have : (1 : ℝ) / 2 ^ 600 ≤ 1 / 4 := one_div_le_one_div_of_le (by norm_num) this
      rw [Nat.cast_one]
      linarith
    have hp := h.norm.value_pos
    calc d.value * (3 / 2) = d.value * 2 * (3 / 4) := by ring
      _ ≤ d.value * 2 ^ n * (1 - ((1 : ℕ) : ℝ) / 2 ^ 600) :=
        mul_le_mul (mul_le_mul_of_nonneg_left h2 hp.le) h3 (by norm_num) (by positivity)

theorem scaleUp_spec (v : ℝ) : ∀ (fuel : ℕ) (d : Decimal) (e : ℤ) (p : ℕ), d.Near (v * 2 ^ (-e)) p →
    d.dp ≤ 0 → 1 ≤ d.value * (3 / 2) ^ fuel → ∃ d' e' q, scaleUp fuel d e = (d', e') ∧ q ≤ p + fuel ∧
      d'.Near (v * 2 ^ (-e')) q ∧ d'.dp = 0 ∧ 1 / 2 ≤ d'.value ∧ d'.sign = d.sign ∧
      e' ≤ e ∧ e - 60 * fuel ≤ e'
  | 0, d, e, p, h, hdp, hv => by
    exfalso
    rw [pow_zero, mul_one] at hv
    have h1 : (10 : ℝ) ^ d.dp ≤ 1 := zpow_le_one_of_nonpos₀ (by norm_num) hdp
    have := h.norm.lt
    linarith
  | fuel + 1, d, e, p, h, hdp, hv => by
    rw [scaleUp, if_pos hdp]
    have hnext : ∀ n, n ≠ 0 → n ≤ 60 → d.value * 2 ^ n < 1 → ∃ d' e' q,
        scaleUp fuel (d.leftShift n) (e - n) = (d', e') ∧ q ≤ p + (fuel + 1) ∧
        d'.Near (v * 2 ^ (-e')) q ∧ d'.dp = 0 ∧ 1 / 2 ≤ d'.value ∧ d'.sign = d.sign ∧
        e' ≤ e ∧ e - 60 * ((fuel + 1 : ℕ) : ℤ) ≤ e' := by
      intro n h0 hn hlt
      obtain ⟨b1, b2, b3, b4⟩ := scaleUp_step h h0 hn hlt hv
      obtain ⟨d', e', q, a1, a2, a3, a4, a5, a6, a7, a8⟩ := scaleUp_spec v fuel _ _ _ b1 b2 b3
      exact ⟨d', e', q, a1, by omega, a3, a4, a5, a6.trans b4, by omega, by push_cast; omega⟩
    by_cases h0 : d.dp = 0
    · rw [if_pos h0]
      simp only
      obtain ⟨f1, f2⟩ := first_digit h.norm h0
      by_cases c1 : d.buf.getD 0 0 ≤ 1
      · rw [if_pos c1]
        have : (d.buf.getD 0 0 : ℝ) ≤ 1 := by exact_mod_cast c1
        exact hnext 2 (by norm_num) (by norm_num) (by linarith)
      · rw [if_neg c1]
        by_cases c4 : d.buf.getD 0 0 ≤ 4
        · rw [if_pos c4]
          have : (d.buf.getD 0 0 : ℝ) ≤ 4 := by exact_mod_cast c4
          exact hnext 1 (by norm_num) (by norm_num) (by linarith)
        · rw [if_neg c4]
          have : (5 : ℝ) ≤ d.buf.getD 0 0 := by
            have : 5 ≤ d.buf.getD 0 0 := by omega
            exact_mod_cast this
          exact ⟨d, e, p, rfl, by omega, h, h0, by linarith, rfl, le_rfl, by push_cast; omega⟩
    · rw [if_neg h0]
      simp only
      obtain ⟨n1, n2, n3⟩ := decToBinShift_spec (k := (-d.dp).toNat) (by omega)
      refine hnext _ (by omega) n2 ?_
      have n3' : (2 : ℝ) ^ decToBinShift (-d.dp).toNat ≤ 10 ^ (-d.dp).toNat := by exact_mod_cast n3
      have e1 : (10 : ℝ) ^ d.dp * 10 ^ (-d.dp).toNat = 1 := by
        rw [← zpow_natCast, ← zpow_add₀ (by norm_num), show d.dp + ((-d.dp).toNat : ℤ) = 0 by omega, zpow_zero]
      rw [← e1]
      exact mul_lt_mul h.norm.lt n3' (by positivity) (by positivity)

theorem scaleSub_spec (v : ℝ) : ∀ (fuel : ℕ) (d : Decimal) (e : ℤ) (p : ℕ), d.Near (v * 2 ^ (-(e + 1))) p →
    (EMIN - e).toNat ≤ fuel → ∃ d' e' q, scaleSub fuel d e = (d', e') ∧ q ≤ p + fuel ∧
      d'.Near (v * 2 ^ (-(e' + 1))) q ∧ d'.sign = d.sign ∧ (d.value < 1 → d'.value < 1) ∧ EMIN ≤ e' ∧
      (e' = EMIN ∨ (d' = d ∧ e' = e))
  | 0, d, e, p, h, hf => ⟨d, e, p, rfl, by omega, h, rfl, fun h => h, by omega, Or.inr ⟨rfl, rfl⟩⟩
  | fuel + 1, d, e, p, h, hf => by
    rw [scaleSub]
    by_cases he : e < EMIN
    · rw [if_pos he]
      simp only
      obtain ⟨n, hn⟩ : ∃ n, min (EMIN - e).toNat 60 = n := ⟨_, rfl⟩
      rw [hn]
      obtain ⟨hs, hsg⟩ := rightShift_spec h.norm n
      have ht := h.trans (by positivity) hs
      rw [scale_mul, show e + 1 + (n : ℤ) = e + n + 1 by ring] at ht
      obtain ⟨d', e', q, a1, a2, a3, a4, a5, a6, a7⟩ := scaleSub_spec v fuel _ (e + n) _ ht (by omega)
      refine ⟨d', e', q, a1, by omega, a3, a4.trans hsg, fun hlt => a5 ?_, a6, ?_⟩
      · refine lt_of_le_of_lt hs.le (lt_of_le_of_lt ?_ hlt)
        rw [mul_one_div]
        exact div_le_self h.norm.value_pos.le (one_le_pow₀ (by norm_num))
      · rcases a7 with a7 | ⟨-, a7⟩
        · exact Or.inl a7
        · left; omega
    · rw [if_neg he]
      exact ⟨d, e, p, rfl, by omega, h, rfl, fun h => h, by omega, Or.inr ⟨rfl, rfl⟩⟩

theorem shiftSignif_spec {d : Decimal} {x : ℝ} {p : ℕ} (h : d.Near x p) :
    (shiftSignif d).Near (x * 2 ^ 237) (p + 4) ∧ (shiftSignif d).sign = d.sign := by
  obtain ⟨h1, s1⟩ := leftShift_spec h.norm (n := 60) (by norm_num) (by norm_num)
  obtain ⟨h2, s2⟩ := leftShift_spec h1.norm (n := 60) (by norm_num) (by norm_num)
  obtain ⟨h3, s3⟩ := leftShift_spec h2.norm (n := 60) (by norm_num) (by norm_num)
  obtain ⟨h4, s4⟩ := leftShift_spec h3.norm (n := 57) (by norm_num) (by norm_num)
  refine ⟨?_, by rw [shiftSignif, s4, s3, s2, s1]⟩
  have := (((h.trans (by positivity) h1).trans (by positivity) h2).trans (by positivity) h3).trans
    (by positivity) h4
  rw [mul_assoc, mul_assoc, mul_assoc, ← pow_add, ← pow_add, ← pow_add] at this
  exact this

end Decimal

theorem signedZero_pat {s : ℕ} (hs : s ≤ 1) : (signedZero s).pat = s * 2 ^ 255 := by
  rcases Nat.le_one_iff_eq_zero_or_eq_one.mp hs with rfl | rfl <;> decide

theorem signedInf_pat {s : ℕ} (hs : s ≤ 1) : (signedInf s).pat = s * 2 ^ 255 + INF := by
  rcases Nat.le_one_iff_eq_zero_or_eq_one.mp hs with rfl | rfl <;> decide

theorem exactFinish_pat {s t : ℕ} {E : ℤ} {S : U256} (hs : s ≤ 1) (ht : E + 262142 = t) (ht' : t ≤ 524285)
    (h0 : t = 0 ∨ 2 ^ 236 ≤ nat256 S) (hS : nat256 S < 2 ^ 237) :
    (exactFinish s E S).pat = s * 2 ^ 255 + (t * 2 ^ 236 + nat256 S) := by
  unfold exactFinish
  have hb : S.hi < HI_FRACTION_BIAS ↔ nat256 S < 2 ^ 236 := by
    rw [BitVec.lt_def, show HI_FRACTION_BIAS.toNat = 2 ^ 108 by decide]
    have := S.lo.isLt
    unfold nat256
    omega
  simp only [hb]
  rw [isZero256]
  by_cases hz : nat256 S = 0
  · rw [if_pos (by simpa using hz), signedZero_pat hs, hz]
    have : t = 0 := by omega
    subst this
    simp
  · rw [if_neg (by simpa using hz)]
    by_cases hlt : nat256 S < 2 ^ 236
    · rw [if_pos hlt, pat_new (k := 0) _ hs (by norm_num) (by push_cast; omega), Nat.mod_eq_of_lt hlt]
      have : t = 0 := by omega
      subst this
      omega
    · rw [if_neg hlt, pat_new (k := t + 1) _ hs (by omega) (by push_cast; omega)]
      omega

namespace Decimal

theorem err_bound {q : ℕ} (hq : q ≤ 2 ^ 290) : (q : ℝ) / 2 ^ 600 ≤ 1 / 2 ^ 310 := by
  have h1 : (q : ℝ) ≤ 2 ^ 290 := by exact_mod_cast hq
  rw [div_le_div_iff₀ (by positivity) (by positivity), one_mul]
  calc (q : ℝ) * 2 ^ 310 ≤ 2 ^ 290 * 2 ^ 310 := mul_le_mul_of_nonneg_right h1 (by positivity)
    _ = 2 ^ 600 := by rw [← pow_add]

/-- Rounding and assembling, src/conv/from_str/slow_exact.rs:170-190 -/
theorem tail_spec {d : Decimal} {Y : ℝ} {q t : ℕ} {E : ℤ} (h : d.Near Y q) (hq : q + 10 ≤ 2 ^ 290)
    (hlt : d.value < 2 ^ 237) (ht : E + 262142 = t) (ht' : t ≤ 524285) (hY : t = 0 ∨ 2 ^ 236 ≤ Y)
    (hs : d.sign ≤ 1) (hc : ClearU (Y * 2 ^ t)) :
    ∃ N, (if d.round.hi ≥ HI_FRACTION_BIAS <<< 1 then
        if E + 1 > EMAX then signedInf (d.rightShift 1).sign
        else exactFinish (d.rightShift 1).sign (E + 1) (d.rightShift 1).round
      else exactFinish d.sign E d.round).pat = d.sign * 2 ^ 255 + N ∧ RoundsTo (Y * 2 ^ t) N := by
  have hpos := h.norm.value_pos
  have hYpos : 0 < Y := lt_of_lt_of_le hpos h.le
  have hpt : (0 : ℝ) < 2 ^ t := by positivity
  have herr := err_bound (q := q) (by omega)
  have hlow : Y * (1 - 1 / 2 ^ 310) ≤ d.value := by
    refine le_trans (mul_le_mul_of_nonneg_left ?_ hYpos.le) h.ge
    linarith
  have hYlt : Y < 2 ^ 238 := by
    have h1 : (1 : ℝ) / 2 ≤ 1 - 1 / 2 ^ 310 := by
      have : (1 : ℝ) / 2 ^ 310 ≤ 1 / 2 := one_div_le_one_div_of_le (by norm_num) (le_self_pow₀ (by norm_num) (by norm_num))
      linarith
    have h2 : Y * (1 / 2) ≤ Y * (1 - 1 / 2 ^ 310) := mul_le_mul_of_nonneg_left h1 hYpos.le
    have h3 : (2 : ℝ) ^ 238 = 2 ^ 237 * 2 := by rw [← pow_succ]
    rw [h3]
    linarith
  have hlow2 : Y - 1 / 2 ^ 72 ≤ d.value := by
    have h1 : Y * (1 / 2 ^ 310) ≤ 1 / 2 ^ 72 := by
      calc Y * (1 / 2 ^ 310) ≤ 2 ^ 238 * (1 / 2 ^ 310) := mul_le_mul_of_nonneg_right hYlt.le (by positivity)
        _ = 1 / 2 ^ 72 := by
          rw [show (310 : ℕ) = 238 + 72 from rfl, pow_add]; field_simp
    linarith
  have h72 : (1 : ℝ) / 2 ^ 72 ≤ 1 / 4 := by norm_num
  -- the relative distance
  have hrel : Y < d.value * (1 + 1 / 2 ^ 252) := by
    have h1 : (1 : ℝ) < (1 - 1 / 2 ^ 310) * (1 + 1 / 2 ^ 252) := by
      have e1 : (1 : ℝ) / 2 ^ 310 = 1 / 2 ^ 252 * (1 / 2 ^ 58) := by
        rw [show (310 : ℕ) = 252 + 58 from rfl, pow_add, one_div_mul_one_div]
      rw [e1]
      have : (0 : ℝ) < 1 / 2 ^ 252 := by positivity
      have : (1 : ℝ) / 2 ^ 252 ≤ 1 := by rw [div_le_one (by positivity)]; exact one_le_pow₀ (by norm_num)
      have : (1 : ℝ) / 2 ^ 58 ≤ 1 / 4 := by norm_num
      have : (0 : ℝ) ≤ 1 / 2 ^ 58 := by positivity
      nlinarith
    calc Y = Y * 1 := by ring
      _ < Y * ((1 - 1 / 2 ^ 310) * (1 + 1 / 2 ^ 252)) := mul_lt_mul_of_pos_left h1 hYpos
      _ = Y * (1 - 1 / 2 ^ 310) * (1 + 1 / 2 ^ 252) := by ring
      _ ≤ _ := mul_le_mul_of_nonneg_right hlow (by positivity)
  have hcast : ∀ k : ℕ, ((2 ^ k : ℕ) : ℝ) = 2 ^ k := fun k => by rw [Nat.cast_pow, Nat.cast_ofNat]
  -- the number is no integer
  have hni : ∀ m : ℕ, d.value ≠ m := by
    intro m hm
    have hm1 : m < 2 ^ 237 := by
      have : (m : ℝ) < ((2 ^ 237 : ℕ) : ℝ) := by rw [← hm, hcast]; exact hlt
      exact_mod_cast this
    have hm0 : t = 0 ∨ 2 ^ 236 ≤ m := by
      rcases hY with hY | hY
      · exact Or.inl hY
      · right
        have : ((2 ^ 236 : ℕ) : ℝ) < (m : ℝ) + 1 := by rw [← hm, hcast]; linarith
        have : 2 ^ 236 < m + 1 := by exact_mod_cast this
        omega
    have hmag := mag_asm' hm0 hm1.le ht'
    have hmagR : (mag (t * 2 ^ 236 + m) : ℝ) = d.value * 2 ^ t := by
      rw [hmag, hm, Nat.cast_mul, hcast]
    have hlt' : t * 2 ^ 236 + m < INF := by unfold INF; omega
    refine (hc _ hlt').1 ⟨?_, ?_⟩
    · rw [hmagR]; exact mul_le_mul_of_nonneg_right h.le hpt.le
    · rw [hmagR, mul_right_comm]; exact mul_lt_mul_of_pos_right hrel hpt
  have hr := round_spec h.norm hlt hni
  obtain ⟨R, hR⟩ : ∃ R, nat256 d.round = R := ⟨_, rfl⟩
  rw [hR] at hr
  obtain ⟨r1, r2⟩ := abs_le.mp hr
  have hRle : R ≤ 2 ^ 237 := by
    have : (R : ℝ) < ((2 ^ 237 : ℕ) : ℝ) + 1 := by rw [hcast]; linarith
    have : R < 2 ^ 237 + 1 := by exact_mod_cast this
    omega
  have hRge : t = 0 ∨ 2 ^ 236 ≤ R := by
    rcases hY with hY | hY
    · exact Or.inl hY
    · right
      have : ((2 ^ 236 : ℕ) : ℝ) < (R : ℝ) + 1 := by rw [hcast]; linarith
      have : 2 ^ 236 < R + 1 := by exact_mod_cast this
      omega
  have hround : RoundsTo (Y * 2 ^ t) (t * 2 ^ 236 + R) := by
    obtain ⟨A, hA1, hA2, hA3, hA4, hA5⟩ : ∃ A : ℝ, d.value ≤ A ∧ A ≤ Y ∧ A < 2 ^ 237 ∧
        (t = 0 ∨ 2 ^ 236 ≤ A) ∧ |A - R| ≤ 1 / 2 := by
      by_cases hcase : t = 0 ∨ 2 ^ 236 ≤ d.value
      · exact ⟨d.value, le_rfl, h.le, hlt, hcase, hr⟩
      · rw [not_or, not_le] at hcase
        have hY' : 2 ^ 236 ≤ Y := hY.resolve_left hcase.1
        refine ⟨2 ^ 236, hcase.2.le, hY', pow_lt_pow_right₀ (by norm_num) (by norm_num), Or.inr le_rfl, ?_⟩
        have h1 := hRge.resolve_left hcase.1
        have h2 : R = 2 ^ 236 := by
          have : (R : ℝ) < ((2 ^ 236 : ℕ) : ℝ) + 1 := by rw [hcast]; linarith
          have : R < 2 ^ 236 + 1 := by exact_mod_cast this
          omega
        rw [h2, hcast, sub_self, abs_zero]
        norm_num
    have hnear : NearTo (A * 2 ^ t) (t * 2 ^ 236 + R) := by
      apply NearTo.of_form (t := t) (M := R)
      · rw [pow_add]; exact mul_lt_mul_of_pos_right hA3 hpt
      · rcases hA4 with h | h
        · exact Or.inl h
        · right; rw [pow_add]; exact mul_le_mul_of_nonneg_right h hpt.le
      · rw [← sub_mul, abs_mul, abs_of_pos hpt]
        calc _ ≤ 1 / 2 * (2 : ℝ) ^ t := mul_le_mul_of_nonneg_right hA5 hpt.le
          _ = _ := by ring
      · rw [if_neg (by omega)]
    refine near_rne (A := A * 2 ^ t) (B := A * 2 ^ t) (mul_nonneg (hpos.le.trans hA1) hpt.le) hnear hnear
      (mul_le_mul_of_nonneg_right hA2 hpt.le) ?_ hc.mid
    rw [mul_right_comm]
    apply mul_lt_mul_of_pos_right _ hpt
    exact hrel.trans_le (mul_le_mul_of_nonneg_right hA1 (by positivity))
  refine ⟨t * 2 ^ 236 + R, ?_, hround⟩
  have hcmp : (d.round.hi ≥ HI_FRACTION_BIAS <<< 1) ↔ 2 ^ 237 ≤ R := by
    rw [ge_iff_le, BitVec.le_def, show (HI_FRACTION_BIAS <<< 1).toNat = 2 ^ 109 by decide, ← hR]
    have := d.round.lo.isLt
    unfold nat256
    omega
  by_cases hov : 2 ^ 237 ≤ R
  · rw [if_pos (hcmp.mpr hov)]
    obtain rfl : R = 2 ^ 237 := by omega
    obtain ⟨g1, g2⟩ := rightShift_spec h.norm 1
    rw [g2]
    rw [hcast] at r1 r2
    have g3 : (2 : ℝ) ^ 236 - 3 / 8 ≤ (d.rightShift 1).value := by
      refine le_trans ?_ g1.ge
      have h1 : (1 : ℝ) / 2 ^ 600 ≤ 1 / 2 ^ 310 := by
        have := err_bound (q := 1) (Nat.one_le_pow _ _ (by norm_num))
        rwa [Nat.cast_one] at this
      have h2 : d.value * (1 / 2 ^ 1) * (1 / 2 ^ 600) ≤ 1 / 2 ^ 72 := by
        calc d.value * (1 / 2 ^ 1) * (1 / 2 ^ 600) ≤ 2 ^ 237 * 1 * (1 / 2 ^ 310) := by
              apply mul_le_mul (mul_le_mul hlt.le (by norm_num) (by norm_num) (by positivity)) h1 (by positivity) (by positivity)
          _ ≤ 2 ^ 238 * 1 * (1 / 2 ^ 310) := by
              apply mul_le_mul_of_nonneg_right _ (by positivity)
              apply mul_le_mul_of_nonneg_right _ (by norm_num)
              exact pow_le_pow_right₀ (by norm_num) (by norm_num)
          _ = 1 / 2 ^ 72 := by
            rw [show (310 : ℕ) = 238 + 72 from rfl, pow_add]; field_simp
      have h3 : (2 : ℝ) ^ 237 = 2 ^ 236 * 2 := by rw [← pow_succ]
      have h4 : (1 : ℝ) / 2 ^ 72 ≤ 1 / 8 := by norm_num
      rw [Nat.cast_one, mul_sub, mul_one]
      linarith
    have g4 : (d.rightShift 1).value < 2 ^ 236 := by
      refine lt_of_le_of_lt g1.le ?_
      have h3 : (2 : ℝ) ^ 237 = 2 ^ 236 * 2 := by rw [← pow_succ]
      linarith
    have g5 := round_spec g1.norm (g4.trans (pow_lt_pow_right₀ (by norm_num) (by norm_num))) (by
      intro m hm
      rw [hm] at g3 g4
      have h1 : (m : ℝ) < ((2 ^ 236 : ℕ) : ℝ) := by rw [hcast]; exact g4
      have h2 : ((m + 1 : ℕ) : ℝ) ≤ ((2 ^ 236 : ℕ) : ℝ) := Nat.cast_le.mpr (Nat.cast_lt.mp h1)
      rw [Nat.cast_add, Nat.cast_one, hcast] at h2
      linarith)
    have g6 : nat256 (d.rightShift 1).round = 2 ^ 236 := by
      obtain ⟨k1, k2⟩ := abs_le.mp g5
      have h1 : ((2 ^ 236 : ℕ) : ℝ) < ((nat256 (d.rightShift 1).round + 1 : ℕ) : ℝ) := by
        rw [Nat.cast_add, Nat.cast_one, hcast]; linarith
      have h2 : ((nat256 (d.rightShift 1).round : ℕ) : ℝ) < ((2 ^ 236 + 1 : ℕ) : ℝ) := by
        rw [Nat.cast_add, Nat.cast_one, hcast]; linarith
      have h1 := Nat.cast_lt.mp h1
      have h2 := Nat.cast_lt.mp h2
      omega
    unfold EMAX
    by_cases hE : E + 1 > 262143
    · rw [if_pos hE, signedInf_pat hs]
      unfold INF
      omega
    · rw [if_neg hE, exactFinish_pat (t := t + 1) hs (by push_cast; omega) (by omega)
        (Or.inr (by rw [g6])) (by rw [g6]; norm_num), g6]
      omega
  · rw [if_neg (fun h => hov (hcmp.mp h)), exactFinish_pat hs ht ht' (by rw [hR]; exact hRge) (by omega), hR]

theorem roundsTo_INF {y : ℝ} {t : ℕ} (hy2 : 1 / 2 ≤ y) (ht : 524286 ≤ t) :
    RoundsTo (y * 2 ^ 237 * 2 ^ t) INF := by
  have hge : (mag INF : ℝ) ≤ y * 2 ^ 237 * 2 ^ t := by
    rw [mag_INF, Nat.cast_mul, Nat.cast_pow, Nat.cast_pow, Nat.cast_ofNat]
    obtain ⟨k, hk⟩ : ∃ k, k = 524285 := ⟨_, rfl⟩
    rw [← hk]
    have h1 : (2 : ℝ) ^ (k + 1) ≤ 2 ^ t := pow_le_pow_right₀ (by norm_num) (by omega)
    have h2 : (2 : ℝ) ^ 237 * 2 ^ k = 1 / 2 * 2 ^ 237 * 2 ^ (k + 1) := by
      rw [pow_succ 2 k]; ring
    rw [h2]
    exact mul_le_mul (mul_le_mul_of_nonneg_right hy2 (by positivity)) h1
      (by positivity) (mul_nonneg (by linarith) (by positivity))
  have hpos : 0 ≤ y * 2 ^ 237 * 2 ^ t :=
    mul_nonneg (mul_nonneg (by linarith) (by positivity)) (by positivity)
  apply roundsTo_of_strict hpos le_rfl _ (fun h => absurd rfl h)
  intro _
  have h1 : (mag (INF - 1) : ℝ) < mag INF := by
    have := mag_lt_succ (N := INF - 1) (by unfold INF; norm_num)
    rw [show INF - 1 + 1 = INF by unfold INF; norm_num] at this
    exact_mod_cast this
  linarith

theorem scale_units {v : ℝ} {K t : ℕ} {E : ℤ} (h : (K : ℤ) = -(E + 1) + 237 + t) :
    v * 2 ^ K = v * 2 ^ (-(E + 1)) * 2 ^ 237 * 2 ^ t := by
  have h20 : (2 : ℝ) ≠ 0 := by norm_num
  rw [← zpow_natCast 2 K, h, zpow_add₀ h20, zpow_add₀ h20, zpow_natCast, ← mul_assoc, ← mul_assoc]
  norm_cast

/-- The part behind the scaling. -/
theorem exact_mid {d3 : Decimal} {v : ℝ} {q3 : ℕ} {E : ℤ} (hs : d3.sign ≤ 1)
    (c3 : d3.Near (v * 2 ^ (-(E + 1))) q3) (hq3 : q3 + 4 + 10 ≤ 10 ^ 12) (hE0 : -262142 ≤ E)
    (hd3lt : d3.value < 1) (hbig : E = -262142 ∨ 1 / 2 ≤ d3.value) (hc : ClearU (v * 2 ^ 262378)) :
    ∃ N, (if E > EMAX then signedInf d3.sign
      else if (shiftSignif d3).round.hi ≥ HI_FRACTION_BIAS <<< 1 then
        if E + 1 > EMAX then signedInf ((shiftSignif d3).rightShift 1).sign
        else exactFinish ((shiftSignif d3).rightShift 1).sign (E + 1) ((shiftSignif d3).rightShift 1).round
      else exactFinish (shiftSignif d3).sign E (shiftSignif d3).round).pat = d3.sign * 2 ^ 255 + N ∧
      RoundsTo (v * 2 ^ 262378) N := by
  have h20 : (2 : ℝ) ≠ 0 := by norm_num
  have hq3 : q3 + 4 + 10 ≤ 2 ^ 290 :=
    hq3.trans (le_trans (b := 2 ^ 40) (by norm_num) (Nat.pow_le_pow_right (by norm_num) (by norm_num)))
  -- the exact value in units of the last place
  obtain ⟨t, ht⟩ : ∃ t : ℕ, E + 262142 = t := ⟨(E + 262142).toNat, by omega⟩
  obtain ⟨y, hy⟩ : ∃ y : ℝ, y = v * 2 ^ (-(E + 1)) := ⟨_, rfl⟩
  rw [← hy] at c3
  have hu : v * 2 ^ 262378 = y * 2 ^ 237 * 2 ^ t := by
    rw [hy]
    exact scale_units (by push_cast; omega)
  have hyge : t = 0 ∨ 1 / 2 ≤ y := by
    rcases hbig with hb | hb
    · left; omega
    · right; exact hb.trans c3.le
  by_cases hE : E > EMAX
  · rw [if_pos hE]
    refine ⟨INF, signedInf_pat hs, ?_⟩
    unfold EMAX at hE
    have hy2 : 1 / 2 ≤ y := by
      rcases hyge with h | h
      · omega
      · exact h
    rw [hu]
    exact roundsTo_INF hy2 (by omega)
  rw [if_neg hE]
  have ht5 : t ≤ 524285 := by unfold EMAX at hE; omega
  obtain ⟨f1, f2⟩ := shiftSignif_spec c3
  obtain ⟨f3, -⟩ := shiftSignif_spec (Near.refl c3.norm)
  rw [zero_add] at f3
  generalize shiftSignif d3 = D at f1 f2 f3 ⊢
  rw [hu]
  rw [hu] at hc
  have hres := tail_spec (E := E) f1 hq3
    (lt_of_le_of_lt f3.le (by
      calc d3.value * 2 ^ 237 < 1 * 2 ^ 237 := mul_lt_mul_of_pos_right hd3lt (by positivity)
        _ = _ := one_mul _)) ht ht5
    (by
      rcases hyge with hy0 | hy0
      · exact Or.inl hy0
      · right
        calc (2 : ℝ) ^ 236 = 1 / 2 * 2 ^ 237 := by rw [pow_succ 2 236]; ring
          _ ≤ _ := mul_le_mul_of_nonneg_right hy0 (by positivity))
    (by rw [f2]; exact hs) hc
  rw [← f2]
  exact hres

/-- The slow path rounds correctly unless the number is at or just above a representable number or a
midpoint. -/
theorem exact_spec {d : Decimal} {v : ℝ} {p : ℕ} (h : d.Near v p) (hp : p ≤ 1000) (hs : d.sign ≤ 1)
    (hdp : d.dp.natAbs ≤ 10 ^ 6) (hc : ClearU (v * 2 ^ 262378)) :
    ∃ N, (exactOfDecimal d).pat = d.sign * 2 ^ 255 + N ∧ RoundsTo (v * 2 ^ 262378) N := by
  have h20 : (2 : ℝ) ≠ 0 := by norm_num
  have hN : d.Near (v * 2 ^ (-(0 : ℤ))) p := by simpa using h
  obtain ⟨d1, e1, q1, a1, a2, a3, a4, a5, a6, a7, a8⟩ := scaleDown_spec v (2 * d.dp.toNat + 2) d 0 p hN (by
    refine lt_of_lt_of_le h.norm.lt ?_
    rw [pow_add, pow_mul]
    calc (10 : ℝ) ^ d.dp ≤ 10 ^ (d.dp.toNat : ℤ) := zpow_le_zpow_right₀ (by norm_num) (by omega)
      _ = 10 ^ d.dp.toNat := zpow_natCast _ _
      _ ≤ (8 ^ 2) ^ d.dp.toNat := pow_le_pow_left₀ (by norm_num) (by norm_num) _
      _ ≤ _ := le_mul_of_one_le_right (by positivity) (by norm_num))
  obtain ⟨d2, e2, q2, b1, b2, b3, b4, b5, b6, b7, b8⟩ := scaleUp_spec v (6 * (-d1.dp).toNat + 6) d1 e1 q1 a3 a4 (by
    have h1 := a3.norm.ge
    have h2 : (10 : ℝ) ^ (d1.dp - 1) * 10 ^ ((-d1.dp).toNat + 1) = 1 := by
      rw [← zpow_natCast, ← zpow_add₀ (by norm_num),
        show d1.dp - 1 + (((-d1.dp).toNat + 1 : ℕ) : ℤ) = 0 by push_cast; omega, zpow_zero]
    rw [← h2]
    refine mul_le_mul h1 ?_ (by positivity) a3.norm.value_pos.le
    rw [show 6 * (-d1.dp).toNat + 6 = 6 * ((-d1.dp).toNat + 1) by ring, pow_mul]
    exact pow_le_pow_left₀ (by norm_num) (by norm_num) _)
  obtain ⟨d3, E, q3, c1, c2, c3, c4, c5, c6, c7⟩ := scaleSub_spec v (EMIN - (e2 - 1)).toNat d2 (e2 - 1) q2
    (by rw [show e2 - 1 + 1 = e2 by ring]; exact b3) le_rfl
  have hd2lt : d2.value < 1 := by
    have := b3.norm.lt
    rwa [b4, zpow_zero] at this
  have hd3lt := c5 hd2lt
  have hsg : d3.sign = d.sign := by rw [c4, b6, a6]
  unfold EMIN at c1 c2 c6 c7
  unfold exactOfDecimal
  rw [a1]
  simp only
  rw [b1]
  simp only
  unfold EMIN
  rw [c1]
  simp only
  have hbig : E = -262142 ∨ 1 / 2 ≤ d3.value := by
    rcases c7 with c7 | ⟨c7, -⟩
    · exact Or.inl c7
    · right; rw [c7]; exact b5
  rw [← hsg]
  exact exact_mid (by rw [hsg]; exact hs) c3 (by omega) (by omega) hd3lt hbig hc

end Decimal

end Verif
