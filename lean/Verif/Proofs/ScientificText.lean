import Verif.Proofs.Scientific

/-!
# Proofs about scientific formatting with a precision: the text
-/

namespace Verif

open BigUInt LawfulBigUInt Spec

open Props (codes codes_append codes_cons codes_length codes_nil_iff digits_codes)

/-- The text of a number of one digit or more, without its last digit -/
theorem natText_dropLast {n : ℕ} (h : 10 ≤ n) : TextOf (natText n).dropLast (n / 10) ∧ (natText n).dropLast.length + 1 = (natText n).length := by
  have e : natText n = natTextFuel n (n / 10) ++ [BitVec.ofNat 8 (48 + n % 10)] := by
    rw [natText, natTextFuel, if_neg (by omega)]
  rw [e, List.dropLast_concat, List.length_append, List.length_singleton]
  exact ⟨(natTextFuel_spec n (n / 10) (by omega)).1, rfl⟩

theorem natText_len {n k : ℕ} (h1 : 10 ^ k ≤ n) (h2 : n < 10 ^ (k + 1)) : (natText n).length = k + 1 := by
  have a := natText_length (Nat.succ_pos k) h2
  have b := natText_min (lt_of_lt_of_le (Nat.pow_pos (by norm_num)) h1)
  have c : 10 ^ ((natText n).length - 1) < 10 ^ (k + 1) := lt_of_le_of_lt b h2
  have d := (Nat.pow_lt_pow_iff_right (by norm_num : 1 < 10)).mp c
  have f := List.length_pos_iff.mpr (natText_spec n).ne
  by_contra hc
  have g : (natText n).length ≤ k := by omega
  have : n < 10 ^ (natText n).length := by
    have := decVal_lt (digs_lt (natText_spec n).digit)
    rwa [(natText_spec n).val, digs_length] at this
  exact absurd (lt_of_le_of_lt h1 this) (not_lt.mpr (Nat.pow_le_pow_right (by norm_num) g))

/-- The text of a number has no leading zero. -/
theorem natText_canon (n : ℕ) : (natText n).head? = some 48#8 → (natText n).length = 1 := by
  intro h
  have hs := natText_spec n
  have hm : 0 < n → 10 ^ ((natText n).length - 1) ≤ n := natText_min
  cases ht : natText n with
  | nil => rw [ht] at h; cases h
  | cons c t =>
    rw [ht] at h hs hm
    have hc : c = 48#8 := Option.some.inj h
    subst hc
    have hv := hs.val
    rw [digs, List.map_cons, show (48#8 : BitVec 8).toNat - 48 = 0 from rfl, decVal_cons, Nat.zero_mul, Nat.zero_add] at hv
    have hlt : decVal (digs t) < 10 ^ t.length := by
      have := decVal_lt (digs_lt (a := t) fun x hx => hs.digit x (by simp [hx]))
      rwa [digs_length] at this
    rw [digs] at hlt
    rw [hv] at hlt
    by_cases h0 : 0 < n
    · have := hm h0
      rw [List.length_cons, Nat.add_sub_cancel] at this
      omega
    · have : natText n = [48#8] := by
        rw [show n = 0 by omega]; rfl
      rw [ht] at this
      rw [this]
      rfl

/-- Leading digit and rest -/
theorem sci_split {s : List (BitVec 8)} {p D : ℕ} (h : FixedText s (p + 1) D) (hD : 10 ^ p ≤ D) :
    ∃ c b, s = c :: b ∧ c ≠ 48#8 ∧ b.length = p := by
  cases s with
  | nil => have := h.len; simp at this
  | cons c b =>
    have hl : b.length = p := by have := h.len; simpa using this
    refine ⟨c, b, rfl, ?_, hl⟩
    rintro rfl
    have hv := h.val
    rw [digs, List.map_cons, show (48#8 : BitVec 8).toNat - 48 = 0 from rfl, decVal_cons, Nat.zero_mul, Nat.zero_add] at hv
    have hlt : decVal (digs b) < 10 ^ b.length := by
      have := decVal_lt (digs_lt (a := b) fun x hx => h.digit x (by simp [hx]))
      rwa [digs_length] at this
    rw [digs, hv, hl] at hlt
    omega

/-- The end of the two fast paths, on numbers -/
def sigText (s : List (BitVec 8)) (p : ℕ) (e : ℤ) : List (BitVec 8) × ℤ :=
  if s.length > p + 1 then (if p = 0 then s.dropLast else splitText s.dropLast, e + 1) else (if p = 0 then s else splitText s, e)

theorem signifText_eq (s : List (BitVec 8)) (p : ℕ) (e : ℤ) : signifText s p e = sigText s p e := by
  unfold signifText sigText
  by_cases h : s.length > p + 1
  · simp only [if_pos h]
  · simp only [if_neg h]

theorem sigText_split {s : List (BitVec 8)} {p D : ℕ} (hs : FixedText s (p + 1) D) (hD : 10 ^ p ≤ D) :
    ∃ c b, (if p = 0 then s else splitText s) = c :: (if p > 0 then 46#8 :: b else []) ∧ FixedText (c :: b) (p + 1) D ∧ c ≠ 48#8 ∧
      b.length = p := by
  obtain ⟨c, b, rfl, h3, h4⟩ := sci_split hs hD
  refine ⟨c, b, ?_, hs, h3, h4⟩
  by_cases hp : p = 0
  · rw [if_pos hp, if_neg (by omega)]
    have : b = [] := List.length_eq_zero_iff.mp (by omega)
    rw [this]
  · rw [if_neg hp, if_pos (by omega)]
    rfl

theorem sigText_small {S p : ℕ} (e : ℤ) (h1 : 10 ^ p ≤ S) (h : S < 10 ^ (p + 1)) :
    ∃ c b, sigText (natText S) p e = (c :: (if p > 0 then 46#8 :: b else []), e) ∧ FixedText (c :: b) (p + 1) S ∧ c ≠ 48#8 ∧
      b.length = p := by
  have hl := natText_len h1 h
  have hs := natText_spec S
  generalize natText S = s at *
  have hc : ¬s.length > p + 1 := by omega
  obtain ⟨c, b, g1, g2, g3, g4⟩ := sigText_split ⟨hs.digit, hl, hs.val⟩ h1
  refine ⟨c, b, ?_, g2, g3, g4⟩
  unfold sigText
  rw [if_neg hc, g1]

theorem sigText_large {S p : ℕ} (e : ℤ) (h : 10 ^ (p + 1) ≤ S) (h2 : S < 10 ^ (p + 2)) :
    ∃ c b, sigText (natText S) p e = (c :: (if p > 0 then 46#8 :: b else []), e + 1) ∧ FixedText (c :: b) (p + 1) (S / 10) ∧ c ≠ 48#8 ∧
      b.length = p := by
  have hl := natText_len h h2
  have hp0 : 1 ≤ 10 ^ p := Nat.one_le_pow _ _ (by norm_num)
  rw [pow_succ] at h
  obtain ⟨hs, hl'⟩ := natText_dropLast (n := S) (by omega)
  generalize natText S = s at *
  have hc : s.length > p + 1 := by omega
  obtain ⟨c, b, g1, g2, g3, g4⟩ := sigText_split (p := p) ⟨hs.digit, by omega, hs.val⟩ (by omega)
  refine ⟨c, b, ?_, g2, g3, g4⟩
  unfold sigText
  rw [if_pos hc, g1]

/-- The digits of a rounded significand -/
theorem signifText_spec {t : U512} {p : ℕ} (e : ℤ) (h1 : 10 ^ p ≤ u512Nat t) (h2 : u512Nat t < 10 ^ (p + 2)) :
    ∃ c b D E, signifText (natText (u512Nat t)) p e = (c :: (if p > 0 then 46#8 :: b else []), E) ∧ FixedText (c :: b) (p + 1) D ∧ c ≠ 48#8 ∧
      b.length = p ∧
      ((u512Nat t < 10 ^ (p + 1) ∧ D = u512Nat t ∧ E = e) ∨ (10 ^ (p + 1) ≤ u512Nat t ∧ D = u512Nat t / 10 ∧ E = e + 1)) := by
  rw [signifText_eq]
  generalize u512Nat t = S at *
  by_cases h : S < 10 ^ (p + 1)
  · obtain ⟨c, b, g1, g2, g3, g4⟩ := sigText_small e h1 h
    exact ⟨c, b, S, e, g1, g2, g3, g4, Or.inl ⟨h, rfl, rfl⟩⟩
  · obtain ⟨c, b, g1, g2, g3, g4⟩ := sigText_large e (not_lt.mp h) h2
    exact ⟨c, b, S / 10, e + 1, g1, g2, g3, g4, Or.inr ⟨not_lt.mp h, rfl, rfl⟩⟩

/-- What the digits denote -/
theorem sci_value {x : ℝ} {p S : ℕ} {e : ℤ} (hE : EstOk x p e) (hS : SciNear S (x * (10 : ℝ) ^ ((p : ℤ) - e))) :
    10 ^ p ≤ S ∧ S < 10 ^ (p + 2) ∧ ∀ (D : ℕ) (E : ℤ), (S < 10 ^ (p + 1) ∧ D = S ∧ E = e) ∨ (10 ^ (p + 1) ≤ S ∧ D = S / 10 ∧ E = e + 1) →
      ∃ (k : ℤ) (Z : ℕ), (10 : ℝ) ^ k ≤ x ∧ x < (10 : ℝ) ^ (k + 1) ∧ (D : ℝ) * 10 ^ (E - p) = Z * 10 ^ (k - p) ∧
        SciNear Z (x * (10 : ℝ) ^ ((p : ℤ) - k)) := by
  have h10 : (0 : ℝ) < 10 := by norm_num
  have hpos : (0 : ℝ) < 10 ^ ((p : ℤ) - e) := by positivity
  have hx : x = x * (10 : ℝ) ^ ((p : ℤ) - e) * 10 ^ (e - (p : ℤ)) := by
    rw [mul_assoc, ← zpow_add₀ h10.ne', show (p : ℤ) - e + (e - p) = 0 by ring, zpow_zero, mul_one]
  have sc : ∀ j : ℤ, (10 : ℝ) ^ j * 10 ^ ((p : ℤ) - e) = 10 ^ (j + p - e) := by
    intro j
    rw [← zpow_add₀ h10.ne']
    congr 1
    ring
  have hlow : (10 : ℝ) ^ p - 1 / 20 ≤ x * (10 : ℝ) ^ ((p : ℤ) - e) := by
    have := mul_le_mul_of_nonneg_right hE.1 hpos.le
    rw [sub_mul, div_mul_eq_mul_div, sc, sc, show e + (p : ℤ) - e = (p : ℤ) by ring, show e - 1 - (p : ℤ) + p - e = -1 by ring, zpow_natCast] at this
    norm_num at this ⊢
    linarith
  have hup : x * (10 : ℝ) ^ ((p : ℤ) - e) < (10 : ℝ) ^ (p + 1) + 5 := by
    have := mul_lt_mul_of_pos_right hE.2 hpos
    rw [add_mul, div_mul_eq_mul_div, sc, sc, show e + 1 + (p : ℤ) - e = ((p + 1 : ℕ) : ℤ) by push_cast; ring, show e + 1 - (p : ℤ) + p - e = 1 by ring, zpow_natCast] at this
    norm_num at this ⊢
    linarith
  have hy1 : (10 : ℝ) ^ e ≤ x ↔ (10 : ℝ) ^ p ≤ x * (10 : ℝ) ^ ((p : ℤ) - e) := by
    rw [← mul_le_mul_iff_left₀ hpos, sc, show e + (p : ℤ) - e = (p : ℤ) by ring, zpow_natCast]
  have hy2 : x < (10 : ℝ) ^ (e + 1) ↔ x * (10 : ℝ) ^ ((p : ℤ) - e) < (10 : ℝ) ^ (p + 1) := by
    rw [← mul_lt_mul_iff_left₀ hpos, sc, show e + 1 + (p : ℤ) - e = ((p + 1 : ℕ) : ℤ) by push_cast; ring, zpow_natCast]
  have hk : ∀ d : ℤ, x * (10 : ℝ) ^ ((p : ℤ) - (e + d)) = x * (10 : ℝ) ^ ((p : ℤ) - e) * 10 ^ (-d) := by
    intro d
    rw [mul_assoc, ← zpow_add₀ h10.ne']
    congr 2
    ring
  have hx1 : (10 : ℝ) ^ (e - 1) ≤ x := by
    have := estOk_lower hE
    have h2 : (10 : ℝ) ^ e = 10 ^ (e - 1) * 10 := by rw [← zpow_add_one₀ h10.ne']; congr 1; ring
    have h3 : (0 : ℝ) < 10 ^ (e - 1) := by positivity
    linarith
  have hx2 : x < (10 : ℝ) ^ (e + 2) := by
    have := estOk_upper hE
    have h2 : (10 : ℝ) ^ (e + 2) = 10 ^ (e + 1) * 10 := by rw [← zpow_add_one₀ h10.ne']; congr 1; ring
    have h3 : (0 : ℝ) < 10 ^ (e + 1) := by positivity
    linarith
  obtain ⟨hS1, hS2⟩ := hS
  have hS1' := abs_le.mp hS1
  have hSnat : SciNear S (x * (10 : ℝ) ^ ((p : ℤ) - e)) := ⟨hS1, hS2⟩
  generalize hy : x * (10 : ℝ) ^ ((p : ℤ) - e) = y at *
  have hS3 : 10 ^ p ≤ S := by
    have : (10 : ℝ) ^ p < (S : ℝ) + 1 := by linarith [hS1'.1]
    have : 10 ^ p < S + 1 := by exact_mod_cast this
    omega
  have hS4 : S ≤ 10 ^ (p + 1) + 5 := by
    have : (S : ℝ) < (10 : ℝ) ^ (p + 1) + 6 := by linarith [hS1'.2]
    have : S < 10 ^ (p + 1) + 6 := by exact_mod_cast this
    omega
  have hp0 : 1 ≤ 10 ^ p := Nat.one_le_pow _ _ (by norm_num)
  refine ⟨hS3, by rw [pow_succ] at hS4 ⊢; omega, ?_⟩
  intro D E hDE
  by_cases hA : (10 : ℝ) ^ e ≤ x
  · by_cases hB : x < (10 : ℝ) ^ (e + 1)
    · refine ⟨e, S, hA, hB, ?_, by rw [hy]; exact hSnat⟩
      rcases hDE with ⟨-, rfl, rfl⟩ | ⟨h, rfl, rfl⟩
      · rfl
      · have hlt := hy2.mp hB
        have : (S : ℝ) < (10 : ℝ) ^ (p + 1) + 1 := by linarith [hS1'.2]
        have : S < 10 ^ (p + 1) + 1 := by exact_mod_cast this
        have hSe : S = 10 ^ (p + 1) := by omega
        rw [hSe, pow_succ, Nat.mul_div_cancel _ (by norm_num), show e + 1 - (p : ℤ) = e - p + 1 by ring, zpow_add_one₀ h10.ne']
        push_cast
        ring
    · -- the estimate is too small
      have hge := not_lt.mp (hy2.not.mp hB)
      have hSge : 10 ^ (p + 1) ≤ S := by
        have : (10 : ℝ) ^ (p + 1) < (S : ℝ) + 1 := by linarith [hS1'.1]
        have : 10 ^ (p + 1) < S + 1 := by exact_mod_cast this
        omega
      rcases hDE with ⟨h, -, -⟩ | ⟨-, rfl, rfl⟩
      · omega
      · have hDD : S / 10 = 10 ^ p := by rw [pow_succ] at hS4 hSge; omega
        have hr : ((10 ^ p : ℕ) : ℝ) = (10 : ℝ) ^ p := by push_cast; rfl
        refine ⟨e + 1, 10 ^ p, not_lt.mp hB, by rw [show e + 1 + 1 = e + 2 by ring]; exact hx2, by rw [hDD], ?_⟩
        have hlt : |((10 ^ p : ℕ) : ℝ) - x * (10 : ℝ) ^ ((p : ℤ) - (e + 1))| < 1 / 2 := by
          rw [hk 1, zpow_neg_one, hr]
          rw [pow_succ] at hge hup
          rw [abs_lt]
          constructor <;> linarith
        exact ⟨hlt.le, fun h => absurd h hlt.ne⟩
  · -- the estimate is too large
    have hlt := not_le.mp (hy1.not.mp hA)
    have hSle : S ≤ 10 ^ p := by
      have : (S : ℝ) < (10 : ℝ) ^ p + 1 := by linarith [hS1'.2]
      have : S < 10 ^ p + 1 := by exact_mod_cast this
      omega
    have hSe : S = 10 ^ p := by omega
    rcases hDE with ⟨-, rfl, rfl⟩ | ⟨h, -, -⟩
    · have hr : ((10 ^ (p + 1) : ℕ) : ℝ) = (10 : ℝ) ^ p * 10 := by push_cast; rw [pow_succ]
      refine ⟨E - 1, 10 ^ (p + 1), hx1, by rw [sub_add_cancel]; exact not_le.mp hA, ?_, ?_, fun _ => ?_⟩
      · rw [hSe, hr, show E - 1 - (p : ℤ) = E - p - 1 by ring, zpow_sub_one₀ h10.ne']
        push_cast
        field_simp
      · rw [show (p : ℤ) - (E - 1) = (p : ℤ) - (E + -1) by ring, hk (-1), neg_neg, zpow_one, hr, abs_le]
        constructor <;> linarith
      · rw [pow_succ]; omega
    · rw [hSe, pow_succ] at h; omega

end Verif
