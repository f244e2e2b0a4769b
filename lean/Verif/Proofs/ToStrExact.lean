import Verif.Proofs.ToStrFinal

/-!
# Proofs about formatting, part 8: decimal numbers which are reproduced
-/

namespace Verif

open BigUInt LawfulBigUInt Spec

/-- If there is a decimal number near enough with few enough digits, it is the one found. -/
theorem shortest_unique {sig : U256} {N : ℕ} {q : ℤ} (h : nat256 sig = N) (hN0 : 0 < N) (hN : N < 2 ^ 237) (hq : -707 ≤ q)
    (hq' : q ≤ 1) {c : ℕ} {J : ℤ}
    (h1 : (N : ℝ) * 2 ^ q ≤ c * 10 ^ J ∨ (q < 0 ∧ ¬2 ^ (-q).toNat ∣ N ∧ (N : ℝ) * 2 ^ q - 2 ^ (q - 1) < c * 10 ^ J))
    (h2 : c * 10 ^ J < (N : ℝ) * 2 ^ q + 2 ^ (q - 1)) (h3 : |c * 10 ^ J - (N : ℝ) * 2 ^ q| + 2 ^ (q - 1) < 10 ^ J) :
    ∃ (w : U256) (j : ℤ), shortestFromBinRepr sig q = some (w, j) ∧ nat256 w ≤ 2 ^ 250 ∧ (nat256 w : ℝ) * 10 ^ j = c * 10 ^ J ∧ J ≤ j := by
  obtain ⟨w, j, g1, gw, g2, -, g3⟩ := shortest_spec h hN0 hN hq (by omega)
  have hJ := g3 c J h1 h2
  refine ⟨w, j, g1, gw, ?_, hJ⟩
  obtain ⟨d, rfl⟩ : ∃ d : ℕ, j = J + d := ⟨(j - J).toNat, by omega⟩
  have hX : (0 : ℝ) < 10 ^ J := zpow_pos (by norm_num) _
  have e : (nat256 w : ℝ) * 10 ^ (J + d) = ((nat256 w * 10 ^ d : ℕ) : ℝ) * 10 ^ J := by
    rw [zpow_add₀ (by norm_num), zpow_natCast]; push_cast; ring
  rw [e] at g2 ⊢
  have hlt : |((nat256 w * 10 ^ d : ℕ) : ℝ) * 10 ^ J - c * 10 ^ J| < 10 ^ J := by
    calc |((nat256 w * 10 ^ d : ℕ) : ℝ) * 10 ^ J - c * 10 ^ J|
        = |(((nat256 w * 10 ^ d : ℕ) : ℝ) * 10 ^ J - (N : ℝ) * 2 ^ q) - (c * 10 ^ J - (N : ℝ) * 2 ^ q)| := by ring_nf
      _ ≤ |((nat256 w * 10 ^ d : ℕ) : ℝ) * 10 ^ J - (N : ℝ) * 2 ^ q| + |c * 10 ^ J - (N : ℝ) * 2 ^ q| := abs_sub _ _
      _ < 10 ^ J := by linarith
  rw [← sub_mul, abs_mul, abs_of_pos hX] at hlt
  have hlt' : |((nat256 w * 10 ^ d : ℕ) : ℝ) - c| < 1 := by
    by_contra hc
    have := mul_le_mul_of_nonneg_right (not_lt.mp hc) hX.le
    linarith
  obtain ⟨a, b⟩ := abs_lt.mp hlt'
  have a' : c < nat256 w * 10 ^ d + 1 := by
    have : (c : ℝ) < ((nat256 w * 10 ^ d : ℕ) : ℝ) + 1 := by linarith
    exact_mod_cast this
  have b' : nat256 w * 10 ^ d < c + 1 := by
    have : ((nat256 w * 10 ^ d : ℕ) : ℝ) < c + 1 := by linarith
    exact_mod_cast this
  rw [show nat256 w * 10 ^ d = c by omega]

/-- A decimal number with so few digits is not half-way between two numbers. -/
theorem no_tie {N m : ℕ} {q j : ℤ} (hq : q < 0) (hj : (2 : ℝ) ^ q < 10 ^ j) {O : ℕ} (hO : O % 2 = 1) :
    (m : ℝ) * 10 ^ j ≠ O * 2 ^ (q - 1) := by
  intro h
  obtain ⟨b, rfl⟩ : ∃ b : ℕ, q = -(b : ℤ) := ⟨(-q).toNat, by omega⟩
  have hb : (2 : ℝ) ^ (-(b : ℤ) - 1) = 1 / 2 ^ (b + 1) := by
    rw [show -(b : ℤ) - 1 = -((b + 1 : ℕ) : ℤ) by push_cast; ring, zpow_neg, zpow_natCast, one_div]
  rw [hb] at h
  rcases le_or_gt 0 j with h0 | h0
  · obtain ⟨a, rfl⟩ := Int.eq_ofNat_of_zero_le h0
    have : m * 10 ^ a * 2 ^ (b + 1) = O := by
      have : (m : ℝ) * 10 ^ a * 2 ^ (b + 1) = O := by
        rw [zpow_natCast] at h
        rw [h]; field_simp
      exact_mod_cast this
    rw [pow_succ, ← Nat.mul_assoc] at this
    omega
  · obtain ⟨a, rfl⟩ : ∃ a : ℕ, j = -(a : ℤ) := ⟨(-j).toNat, by omega⟩
    rw [zpow_neg, zpow_natCast] at h
    have e : m * 2 ^ (b + 1) = O * 10 ^ a := by
      have : (m : ℝ) * 2 ^ (b + 1) = O * 10 ^ a := by
        field_simp at h
        linarith
      exact_mod_cast this
    have hd : 2 ^ (b + 1) ∣ O * 10 ^ a := ⟨m, by rw [← e, Nat.mul_comm]⟩
    have hd' : 2 ^ (b + 1) ∣ 10 ^ a := by
      refine Nat.Coprime.dvd_of_dvd_mul_left (Nat.Coprime.pow_left _ ?_) hd
      rw [Nat.Coprime, Nat.gcd_rec, hO]; rfl
    have hle := Nat.le_of_dvd (by positivity) hd'
    rw [zpow_neg, zpow_neg, zpow_natCast, zpow_natCast, inv_lt_inv₀ (by positivity) (by positivity)] at hj
    have hj' : 10 ^ a < 2 ^ b := by exact_mod_cast hj
    rw [pow_succ] at hle
    omega

/-- The decimal number nearest to which the number is, is found. -/
theorem shortest_reproduces {sig : U256} {N m : ℕ} {q j : ℤ} (h : nat256 sig = N) (hN0 : 0 < N) (hN : N < 2 ^ 237) (hq : -707 ≤ q)
    (hq' : q < 0) (hj : (2 : ℝ) ^ q < 10 ^ j) (hn : |(m : ℝ) * 10 ^ j - N * 2 ^ q| ≤ 2 ^ (q - 1)) :
    ∃ (w : U256) (j' : ℤ), shortestFromBinRepr sig q = some (w, j') ∧ nat256 w ≤ 2 ^ 250 ∧ (nat256 w : ℝ) * 10 ^ j' = m * 10 ^ j ∧ j ≤ j' := by
  have hX : (0 : ℝ) < 10 ^ j := zpow_pos (by norm_num) _
  have hp : (0 : ℝ) < 2 ^ (q - 1) := zpow_pos (by norm_num) _
  have two : (2 : ℝ) ^ q = 2 * 2 ^ (q - 1) := by
    rw [show q = q - 1 + 1 by ring, zpow_add_one₀ (by norm_num), mul_comm, add_sub_cancel_right]
  obtain ⟨a, b⟩ := abs_le.mp hn
  have n1 : (m : ℝ) * 10 ^ j ≠ (N : ℝ) * 2 ^ q + 2 ^ (q - 1) := by
    have := no_tie (N := N) (m := m) hq' hj (O := 2 * N + 1) (by omega)
    intro hh
    apply this
    rw [hh, two]; push_cast; ring
  have n2 : (m : ℝ) * 10 ^ j ≠ (N : ℝ) * 2 ^ q - 2 ^ (q - 1) := by
    have := no_tie (N := N) (m := m) hq' hj (O := 2 * N - 1) (by omega)
    intro hh
    apply this
    rw [hh, two, Nat.cast_sub (by omega)]; push_cast; ring
  have hup : (m : ℝ) * 10 ^ j < (N : ℝ) * 2 ^ q + 2 ^ (q - 1) := lt_of_le_of_ne (by linarith) n1
  have hlo : (N : ℝ) * 2 ^ q - 2 ^ (q - 1) < (m : ℝ) * 10 ^ j := lt_of_le_of_ne (by linarith) n2.symm
  have h3 : |m * 10 ^ j - (N : ℝ) * 2 ^ q| + 2 ^ (q - 1) < 10 ^ j := by linarith
  by_cases hd : 2 ^ (-q).toNat ∣ N
  · -- an integer
    refine shortest_unique h hN0 hN hq (by omega) (Or.inl (le_of_eq ?_)) hup h3
    obtain ⟨Z, hZ⟩ := hd
    obtain ⟨b', rfl⟩ : ∃ b' : ℕ, q = -(b' : ℤ) := ⟨(-q).toNat, by omega⟩
    have hZ' : (N : ℝ) * 2 ^ (-(b' : ℤ)) = Z := by
      rw [hZ, neg_neg, Int.toNat_natCast, zpow_neg, zpow_natCast]
      push_cast
      field_simp
    rw [hZ'] at hn ⊢
    have hlt0 : (2 : ℝ) ^ (-(b' : ℤ) - 1) < 10 ^ j := by linarith
    have h1 : (2 : ℝ) ^ (-(b' : ℤ) - 1) < 1 := zpow_lt_one_of_neg₀ (by norm_num) (by omega)
    rcases le_or_gt 0 j with h0 | h0
    · obtain ⟨a', rfl⟩ := Int.eq_ofNat_of_zero_le h0
      rw [zpow_natCast] at hn ⊢
      obtain ⟨c1, c2⟩ := abs_lt.mp (lt_of_le_of_lt hn h1)
      have d1 : Z < m * 10 ^ a' + 1 := by
        have : (Z : ℝ) < m * 10 ^ a' + 1 := by linarith
        exact_mod_cast this
      have d2 : m * 10 ^ a' < Z + 1 := by
        have : (m : ℝ) * 10 ^ a' < Z + 1 := by linarith
        exact_mod_cast this
      exact_mod_cast (show Z = m * 10 ^ a' by omega)
    · obtain ⟨a', rfl⟩ : ∃ a' : ℕ, j = -(a' : ℤ) := ⟨(-j).toNat, by omega⟩
      rw [zpow_neg, zpow_natCast] at hn hX hlt0 ⊢
      have hK : (0 : ℝ) < 10 ^ a' := by positivity
      have hlt : |(m : ℝ) * (10 ^ a')⁻¹ - Z| < (10 ^ a')⁻¹ := lt_of_le_of_lt hn hlt0
      have e : (m : ℝ) * (10 ^ a')⁻¹ - Z = (m - Z * 10 ^ a') * (10 ^ a')⁻¹ := by field_simp
      rw [e, abs_mul, abs_of_pos hX] at hlt
      have hlt' : |(m : ℝ) - Z * 10 ^ a'| < 1 := by
        by_contra hc
        have := mul_le_mul_of_nonneg_right (not_lt.mp hc) hX.le
        linarith
      obtain ⟨c1, c2⟩ := abs_lt.mp hlt'
      have d1 : Z * 10 ^ a' < m + 1 := by
        have : (Z : ℝ) * 10 ^ a' < m + 1 := by linarith
        exact_mod_cast this
      have d2 : m < Z * 10 ^ a' + 1 := by
        have : (m : ℝ) < Z * 10 ^ a' + 1 := by linarith
        exact_mod_cast this
      have d3 : m = Z * 10 ^ a' := by omega
      rw [d3]
      push_cast
      field_simp
  · exact shortest_unique h hN0 hN hq (by omega) (Or.inr ⟨hq', hd, hlo⟩) hup h3

set_option exponentiation.threshold 2000 in
theorem range_two {x : ℝ} (h1 : (10 : ℝ) ^ (-220 : ℤ) ≤ x) (h2 : x ≤ 10 ^ (220 : ℤ)) :
    (2 : ℝ) ^ (-731 : ℤ) ≤ x ∧ x < 2 ^ (731 : ℤ) := by
  refine ⟨le_trans ?_ h1, lt_of_le_of_lt h2 ?_⟩ <;> norm_num

/-- The fields of a rounded number -/
theorem fields_of_roundsTo {x : ℝ} {P s : ℕ} (h : RoundsTo (x * 2 ^ 262378) P) (h1 : (10 : ℝ) ^ (-220 : ℤ) ≤ x) (h2 : x ≤ 10 ^ (220 : ℤ))
    (hs : s ≤ 1) :
    expField (s * 2 ^ 255 + P) ≠ 0 ∧ IsFin (s * 2 ^ 255 + P) ∧ signBit (s * 2 ^ 255 + P) = s ∧
    2 ^ 236 ≤ significandOf (s * 2 ^ 255 + P) ∧ significandOf (s * 2 ^ 255 + P) < 2 ^ 237 ∧
    |x - significandOf (s * 2 ^ 255 + P) * 2 ^ quantumExp (s * 2 ^ 255 + P)| ≤ 2 ^ (quantumExp (s * 2 ^ 255 + P) - 1) := by
  obtain ⟨t, M, a1, a2, a3, -, a5⟩ := h
  obtain ⟨r1, r2⟩ := range_two h1 h2
  have hK : (0 : ℝ) < 2 ^ 262378 := pow_pos (by norm_num) _
  have hKz : (2 : ℝ) ^ 262378 = 2 ^ (262378 : ℤ) := (zpow_natCast 2 262378).symm
  have ht1 : 261400 < t := by
    have : (2 : ℝ) ^ (-731 + 262378 : ℤ) < 2 ^ ((237 + t : ℕ) : ℤ) := by
      rw [zpow_add₀ (by norm_num), zpow_natCast, ← hKz]
      exact lt_of_le_of_lt (mul_le_mul_of_nonneg_right r1 hK.le) a1
    have := (zpow_lt_zpow_iff_right₀ (by norm_num : (1 : ℝ) < 2)).mp this
    omega
  have a2' := a2.resolve_left (by omega)
  have ht2 : t < 263000 := by
    have : (2 : ℝ) ^ ((236 + t : ℕ) : ℤ) < 2 ^ (731 + 262378 : ℤ) := by
      rw [zpow_add₀ (by norm_num) 731, zpow_natCast, ← hKz]
      exact lt_of_le_of_lt a2' (mul_lt_mul_of_pos_right r2 hK)
    have := (zpow_lt_zpow_iff_right₀ (by norm_num : (1 : ℝ) < 2)).mp this
    omega
  rw [if_neg (by omega)] at a5
  have hM := RoundsTo.M_le a1 a3
  have hp : (0 : ℝ) < 2 ^ t := by positivity
  have hM' : 2 ^ 236 ≤ M := by
    rw [pow_add] at a2'
    have hle := (abs_le.mp a3).2
    have : (2 : ℝ) ^ 236 - 1 < M := by
      by_contra hc
      have := mul_le_mul_of_nonneg_right (not_lt.mp hc) hp.le
      linarith
    have : (2 : ℝ) ^ 236 < M + 1 := by linarith
    have : 2 ^ 236 < M + 1 := by exact_mod_cast this
    omega
  have near : ∀ (q : ℤ) (N : ℕ), (N : ℝ) * 2 ^ q * 2 ^ 262378 = M * 2 ^ t → (t : ℤ) - 262378 ≤ q → |x - N * 2 ^ q| ≤ 2 ^ (q - 1) := by
    intro q N h3 h4
    have h5 : |x - N * 2 ^ q| * 2 ^ 262378 ≤ 2 ^ t / 2 := by
      have e : |x - N * 2 ^ q| * 2 ^ 262378 = |x * 2 ^ 262378 - M * 2 ^ t| := by
        rw [← h3, ← sub_mul, abs_mul, abs_of_pos hK]
      rw [e]
      exact a3
    have h6 : (2 : ℝ) ^ t / 2 ≤ 2 ^ (q - 1) * 2 ^ 262378 := by
      have e : (2 : ℝ) ^ t / 2 = 2 ^ ((t : ℤ) - 1) := by
        rw [zpow_sub_one₀ (by norm_num), zpow_natCast]; ring
      rw [e, hKz, ← zpow_add₀ (by norm_num)]
      exact zpow_le_zpow_right₀ (by norm_num) (by omega)
    exact le_of_mul_le_mul_right (h5.trans h6) hK
  rcases Nat.lt_or_ge M (2 ^ 237) with hlt | hge
  · have e1 : expField (s * 2 ^ 255 + P) = t + 1 := by unfold expField; omega
    have e2 : fracField (s * 2 ^ 255 + P) = M - 2 ^ 236 := by unfold fracField; omega
    have e3 : significandOf (s * 2 ^ 255 + P) = M := by rw [significandOf, if_neg (by omega), e2]; omega
    have e4 : quantumExp (s * 2 ^ 255 + P) = (t : ℤ) - 262378 := by rw [quantumExp, if_neg (by omega), e1]; push_cast; ring
    refine ⟨by omega, by unfold IsFin; omega, by unfold signBit; omega, by omega, by omega, ?_⟩
    rw [e3, e4]
    exact near _ _ (units rfl _) le_rfl
  · have hM2 : M = 2 ^ 237 := by omega
    have e1 : expField (s * 2 ^ 255 + P) = t + 2 := by unfold expField; omega
    have e2 : fracField (s * 2 ^ 255 + P) = 0 := by unfold fracField; omega
    have e3 : significandOf (s * 2 ^ 255 + P) = 2 ^ 236 := by rw [significandOf, if_neg (by omega), e2]; rfl
    have e4 : quantumExp (s * 2 ^ 255 + P) = ((t + 1 : ℕ) : ℤ) - 262378 := by rw [quantumExp, if_neg (by omega), e1]; push_cast; ring
    refine ⟨by omega, by unfold IsFin; omega, by unfold signBit; omega, by omega, by omega, ?_⟩
    rw [e3, e4]
    refine near _ _ ?_ (by push_cast; omega)
    rw [units rfl, hM2]
    push_cast
    rw [pow_succ 2 t]
    ring

/-- The sign of a text -/
theorem value_of_text {s : List (BitVec 8)} {L : DecLit} {d : DecRepr} (h : IsText s L d) {x : ℝ} {neg : Bool}
    (h1 : (nat256 d.signif10 : ℝ) * 10 ^ d.exp10 = x) (h2 : (d.sign == 1) = neg) :
    L.absVal = x ∧ L.neg = neg ∧ Props.value L = if neg then -x else x := by
  have e1 : L.absVal = x := h.val.trans h1
  have e2 : L.neg = neg := h.neg.trans h2
  exact ⟨e1, e2, by rw [Props.value, e1, e2]⟩

/-- Reading a text with few digits -/
theorem read_text {f : F256} {s : List (BitVec 8)} {L : DecLit} {d : DecRepr} (hT : IsText s L d) (hw : nat256 d.signif10 ≤ 2 ^ 250)
    {m : ℕ} {j : ℤ} (hv : L.absVal = m * 10 ^ j) (hm : m < 2 ^ 237) (hm10 : m % 10 ≠ 0) (hj : j.natAbs ≤ 102)
    (hx : (10 : ℝ) ^ (-220 : ℤ) ≤ L.absVal) (hx' : L.absVal ≤ 10 ^ (220 : ℤ)) (hR : IsRNE (Props.value L) f.pat) :
    F256.fromStr s = some (.ok f) := by
  have hpos : 0 < L.absVal := lt_of_lt_of_le (zpow_pos (by norm_num) _) hx
  have hw0 : 0 < nat256 d.signif10 := by
    rcases Nat.eq_zero_or_pos (nat256 d.signif10) with h | h
    · rw [hT.val, h] at hpos
      simp at hpos
    · exact h
  have hlen : L.Lenient := ⟨hT.proper.toWf, hT.proper.mant.elim Or.inl (fun h => Or.inr (by
      by_contra hd
      exact h (hT.proper.dot (by simpa using hd)))), fun c sg ds h => Or.inr (hT.proper.expDigits c sg ds h)⟩
  have hjb := exp_bounds hT.val hw0 (lt_of_le_of_lt hw (by norm_num)) hx hx'
  have hwrap : L.expo.natAbs + L.ip.length + L.fp.length < 2 ^ 31 := by
    have := hT.wrap
    omega
  obtain ⟨g, k1, k2⟩ := Props.C42_short hlen hT.text hwrap hv hm10 hm hj
  have hne : Props.value L ≠ 0 := by
    unfold Props.value
    split_ifs <;> linarith
  rw [k1, pat_inj (IsRNE.unique k2 hR hne)]

theorem sign_beq (f : F256) : (f.sign == 1) = decide (signBit f.pat = 1) := by
  rw [sign_eq, ← signBit_eq (pat_lt f)]
  rfl

theorem val_ite (N : ℕ) : val N = if decide (signBit N = 1) then -|val N| else |val N| := by
  have hsb : signBit N = 0 ∨ signBit N = 1 := by unfold signBit; omega
  have hnn : (0 : ℝ) ≤ significandOf N * 2 ^ quantumExp N := by positivity
  rw [val]
  rcases hsb with h | h
  · rw [h, pow_zero, one_mul, abs_of_nonneg hnn]; simp
  · rw [h, pow_one, neg_mul, neg_mul, one_mul, abs_neg, abs_of_nonneg hnn]; simp

theorem abs_val' (N : ℕ) : |val N| = significandOf N * (2 : ℝ) ^ quantumExp N := by
  rw [val, mul_assoc, abs_mul, abs_pow, abs_neg, abs_one, one_pow, one_mul, abs_of_nonneg (by positivity)]

/-- Integers -/
theorem int_exact {f : F256} (hf : IsFin f.pat) {Z : ℕ} (h0 : 0 < Z) (hZ : Z < 2 ^ 237) (hv : |val f.pat| = Z) :
    ∃ d : DecRepr, DecRepr.shortestFromF256 f = some d ∧ d.sign = f.sign ∧ 0 ≤ d.exp10 ∧ nat256 d.signif10 * 10 ^ d.exp10.toNat = Z ∧
      ∀ s L, IsText s L d → Props.value L = val f.pat ∧ F256.fromStr s = some (.ok f) := by
  have hlt := pat_lt f
  have hE0 : expField f.pat ≠ 0 := by
    intro hE
    rw [abs_val', significandOf, if_pos hE, quantumExp, if_pos hE] at hv
    have hF : fracField f.pat < 2 ^ 236 := Nat.mod_lt _ (by norm_num)
    have h1 : (1 : ℝ) ≤ Z := by exact_mod_cast h0
    have h2 : (fracField f.pat : ℝ) < 2 ^ 236 := by exact_mod_cast hF
    have h3 : (2 : ℝ) ^ (1 - 262143 - 236 : ℤ) ≤ 2 ^ (-236 : ℤ) := zpow_le_zpow_right₀ (by norm_num) (by norm_num)
    have h4 : (fracField f.pat : ℝ) * 2 ^ (1 - 262143 - 236 : ℤ) ≤ fracField f.pat * 2 ^ (-236 : ℤ) :=
      mul_le_mul_of_nonneg_left h3 (Nat.cast_nonneg _)
    have h5 : (fracField f.pat : ℝ) * 2 ^ (-236 : ℤ) < 2 ^ 236 * 2 ^ (-236 : ℤ) :=
      mul_lt_mul_of_pos_right h2 (zpow_pos (by norm_num) _)
    have h6 : (2 : ℝ) ^ 236 * 2 ^ (-236 : ℤ) = 1 := by norm_num
    linarith
  have hnz : ¬IsZero f.pat := fun h => hE0 h.1
  have hF : fracField f.pat < 2 ^ 236 := Nat.mod_lt _ (by norm_num)
  have hS : significandOf f.pat = 2 ^ 236 + fracField f.pat := by rw [significandOf, if_neg hE0]
  have hqe : f.quantumExponent = quantumExp f.pat := by
    rw [quantumExponent_eq hnz, quantumExp, if_neg hE0]; omega
  have hsig := integralSignificand_eq f
  have hv' := hv
  rw [abs_val'] at hv
  generalize hN : significandOf f.pat = N at *
  generalize hq0 : quantumExp f.pat = q at *
  have hN1 : (2 : ℝ) ^ 236 ≤ N := by exact_mod_cast (by omega : 2 ^ 236 ≤ N)
  have hN2 : (N : ℝ) < 2 ^ 237 := by exact_mod_cast (by omega : N < 2 ^ 237)
  have hZ1 : (1 : ℝ) ≤ Z := by exact_mod_cast h0
  have hZ2 : (Z : ℝ) < 2 ^ 237 := by exact_mod_cast hZ
  have hqp : (0 : ℝ) < 2 ^ q := zpow_pos (by norm_num) _
  have hq1 : q < 1 := by
    have : (2 : ℝ) ^ q < 2 ^ (1 : ℤ) := by
      by_contra hc
      have := mul_le_mul hN1 (not_lt.mp hc) (by positivity) (by positivity)
      rw [hv, zpow_one, ← pow_succ] at this
      exact absurd hZ2 (not_lt.mpr this)
    exact (zpow_lt_zpow_iff_right₀ (by norm_num : (1 : ℝ) < 2)).mp this
  have hq2 : -237 < q := by
    have : (2 : ℝ) ^ (-237 : ℤ) < 2 ^ q := by
      by_contra hc
      have h1 := mul_le_mul_of_nonneg_left (not_lt.mp hc) (Nat.cast_nonneg (α := ℝ) N)
      have h2 := mul_lt_mul_of_pos_right hN2 (show (0 : ℝ) < 2 ^ (-237 : ℤ) by positivity)
      have h3 : (2 : ℝ) ^ 237 * 2 ^ (-237 : ℤ) = 1 := by norm_num
      linarith
    exact (zpow_lt_zpow_iff_right₀ (by norm_num : (1 : ℝ) < 2)).mp this
  obtain ⟨m, e, he, hm10⟩ := drop_zeros Z h0
  have heZ : (m : ℝ) * 10 ^ (e : ℤ) = Z := by rw [he, zpow_natCast]; push_cast; ring
  have hqh : (2 : ℝ) ^ (q - 1) < 1 := zpow_lt_one_of_neg₀ (by norm_num) (by omega)
  have hqh0 : (0 : ℝ) < 2 ^ (q - 1) := zpow_pos (by norm_num) _
  have h10 : (1 : ℝ) ≤ 10 ^ (e : ℤ) := by rw [zpow_natCast]; exact one_le_pow₀ (by norm_num)
  obtain ⟨w, j, g1, gw, g2, g3⟩ := shortest_unique (q := q) hsig (by omega) (by omega) (by omega) (by omega) (c := m) (J := e)
    (Or.inl (by rw [hv, heZ])) (by rw [hv, heZ]; linarith) (by rw [hv, heZ, sub_self, abs_zero, zero_add]; linarith)
  rw [heZ] at g2
  refine ⟨⟨f.sign, j, w⟩, by rw [DecRepr.shortestFromF256, hqe, g1]; rfl, rfl, by dsimp only; omega, ?_, fun s L hT => ?_⟩
  · obtain ⟨jn, rfl⟩ : ∃ jn : ℕ, j = jn := ⟨j.toNat, by omega⟩
    rw [zpow_natCast] at g2
    dsimp only
    rw [Int.toNat_natCast]
    exact_mod_cast g2
  obtain ⟨k1, k2, k3⟩ := value_of_text hT g2 (sign_beq f)
  have hval : Props.value L = val f.pat := by rw [k3, val_ite f.pat, hv']
  refine ⟨hval, ?_⟩
  have hmZ : m ≤ Z := by rw [he]; exact Nat.le_mul_of_pos_right _ (by positivity)
  have he71 : e ≤ 102 := by
    by_contra hc
    have h1 : 10 ^ 103 ≤ 10 ^ e := Nat.pow_le_pow_right (by norm_num) (by omega)
    have h2 : 10 ^ e ≤ Z := by rw [he]; exact Nat.le_mul_of_pos_left _ (by omega)
    have h3 : (2 : ℕ) ^ 237 < 10 ^ 103 := by norm_num
    omega
  refine read_text hT gw (k1.trans heZ.symm) (by omega) hm10 (by omega) ?_ ?_ ?_
  · rw [k1]
    exact le_trans (by norm_num) hZ1
  · rw [k1]
    exact le_trans hZ2.le (by norm_num)
  · rw [hval]
    exact isRNE_self hlt hf

set_option exponentiation.threshold 2000 in
/-- The place of a number with at most 71 digits -/
theorem short_place {x : ℝ} {m N : ℕ} {j q : ℤ} (hx : x = m * 10 ^ j) (hm : m < 10 ^ 71) (hm0 : 0 < m) (hj : -102 ≤ j)
    (hxu : x ≤ 10 ^ 71) (hN : 2 ^ 236 ≤ N) (hN' : N < 2 ^ 237) (h : |x - N * 2 ^ q| ≤ 2 ^ (q - 1)) :
    q < 0 ∧ -707 ≤ q ∧ (2 : ℝ) ^ q < 10 ^ j ∧ j ≤ 71 ∧ (10 : ℝ) ^ (-102 : ℤ) ≤ x := by
  obtain ⟨a, b⟩ := abs_le.mp h
  rw [zpow_sub_one₀ (by norm_num)] at a b
  have hN1 : (2 : ℝ) ^ 236 ≤ N := by exact_mod_cast hN
  have hN2 : (N : ℝ) < 2 ^ 237 := by exact_mod_cast hN'
  have hm1 : (1 : ℝ) ≤ m := by exact_mod_cast hm0
  have hm2 : (m : ℝ) < 10 ^ 71 := by exact_mod_cast hm
  have hq : (0 : ℝ) < 2 ^ q := zpow_pos (by norm_num) _
  have hJ : (0 : ℝ) < 10 ^ j := zpow_pos (by norm_num) _
  have hJx : (10 : ℝ) ^ j ≤ x := by rw [hx]; exact le_mul_of_one_le_left hJ.le hm1
  have hlow : (2 ^ 236 - 1 / 2) * (2 : ℝ) ^ q ≤ x := by
    have := mul_le_mul_of_nonneg_right hN1 hq.le
    linarith
  have hxl : (10 : ℝ) ^ (-102 : ℤ) ≤ x := le_trans (zpow_le_zpow_right₀ (by norm_num) hj) hJx
  refine ⟨?_, ?_, ?_, ?_, hxl⟩
  · by_contra hc
    have h1 : (1 : ℝ) ≤ 2 ^ q := one_le_zpow₀ (by norm_num) (by omega)
    have h2 : (2 : ℝ) ^ 236 - 1 / 2 ≤ (2 ^ 236 - 1 / 2) * 2 ^ q := le_mul_of_one_le_right (by norm_num) h1
    have h3 : (10 : ℝ) ^ 71 < 2 ^ 236 - 1 / 2 := by norm_num
    linarith
  · by_contra hc
    have h1 : (2 : ℝ) ^ q ≤ 2 ^ (-707 : ℤ) := zpow_le_zpow_right₀ (by norm_num) (by omega)
    have h2 : x ≤ 2 ^ 238 * 2 ^ q := by
      have := mul_le_mul_of_nonneg_right hN2.le hq.le
      have e : (2 : ℝ) ^ 238 * 2 ^ q = 2 * (2 ^ 237 * 2 ^ q) := by ring
      nlinarith
    have h3 : (2 : ℝ) ^ 238 * 2 ^ q ≤ 2 ^ 238 * 2 ^ (-707 : ℤ) := mul_le_mul_of_nonneg_left h1 (by positivity)
    have h4 : (2 : ℝ) ^ 238 * 2 ^ (-707 : ℤ) < 10 ^ (-102 : ℤ) := by norm_num
    linarith
  · have h1 : x < 10 ^ 71 * 10 ^ j := by rw [hx]; exact mul_lt_mul_of_pos_right hm2 hJ
    have h3 : (10 : ℝ) ^ 71 ≤ 2 ^ 236 - 1 / 2 := by norm_num
    have h2 := mul_le_mul_of_nonneg_right h3 hq.le
    have h4 : (10 : ℝ) ^ 71 * 2 ^ q < 10 ^ 71 * 10 ^ j := by linarith
    exact lt_of_mul_lt_mul_left h4 (by positivity)
  · have : (10 : ℝ) ^ j ≤ 10 ^ (71 : ℤ) := by rw [show (10 : ℝ) ^ (71 : ℤ) = 10 ^ 71 by norm_num]; linarith
    exact (zpow_le_zpow_iff_right₀ (by norm_num : (1 : ℝ) < 10)).mp this

set_option exponentiation.threshold 2000 in
theorem ten_range {x : ℝ} (h1 : (10 : ℝ) ^ (-102 : ℤ) ≤ x) (h2 : x ≤ 10 ^ 71) :
    (10 : ℝ) ^ (-220 : ℤ) ≤ x ∧ x ≤ 10 ^ (220 : ℤ) := by
  refine ⟨le_trans (zpow_le_zpow_right₀ (by norm_num) (by norm_num)) h1, le_trans h2 ?_⟩
  norm_num

/-- A number read from a literal with at most 71 digits is printed with the same value. -/
theorem literal_exact {f : F256} {x : ℝ} {P s m : ℕ} {j : ℤ} (hpat : f.pat = s * 2 ^ 255 + P) (hs : s ≤ 1)
    (hR : RoundsTo (x * 2 ^ 262378) P) (hx : x = m * 10 ^ j) (hm10 : m % 10 ≠ 0) (hm : m < 10 ^ 71) (hj : -102 ≤ j)
    (hxu : x ≤ 10 ^ 71) :
    ∃ d : DecRepr, DecRepr.shortestFromF256 f = some d ∧ f.isSpecial = false ∧ ∀ t L, IsText t L d →
      Props.value L = (if s = 1 then -x else x) ∧
      (IsRNE (if s = 1 then -x else x) f.pat → F256.fromStr t = some (.ok f)) := by
  have hm0 : 0 < m := by omega
  have hxl : (10 : ℝ) ^ (-102 : ℤ) ≤ x := by
    rw [hx]
    have hm1 : (1 : ℝ) ≤ m := by exact_mod_cast hm0
    exact le_trans (zpow_le_zpow_right₀ (by norm_num) hj) (le_mul_of_one_le_left (zpow_pos (by norm_num) _).le hm1)
  obtain ⟨r1, r2⟩ := ten_range hxl hxu
  obtain ⟨a1, a2, a3, a4, a5, a6⟩ := fields_of_roundsTo hR r1 r2 hs
  rw [← hpat] at a1 a2 a3 a4 a5 a6
  have hnz : ¬IsZero f.pat := fun h => a1 h.1
  have hqe : f.quantumExponent = quantumExp f.pat := by
    rw [quantumExponent_eq hnz, quantumExp, if_neg a1]; omega
  have hsig := integralSignificand_eq f
  have hsp : f.isSpecial = false := by
    rw [Bool.eq_false_iff, Ne, isSpecial_iff]
    unfold IsFin expField at a2
    unfold expField at a1
    unfold INF
    omega
  generalize significandOf f.pat = N at *
  generalize quantumExp f.pat = q at *
  obtain ⟨p1, p2, p3, p4, -⟩ := short_place hx hm hm0 hj hxu a4 a5 a6
  rw [hx] at a6
  obtain ⟨w, i, g1, gw, g2, -⟩ := shortest_reproduces (q := q) hsig (by omega) a5 p2 p1 p3 a6
  rw [← hx] at g2
  refine ⟨⟨f.sign, i, w⟩, by rw [DecRepr.shortestFromF256, hqe, g1]; rfl, hsp, fun t L hT => ?_⟩
  obtain ⟨k1, k2, k3⟩ := value_of_text hT g2 (sign_beq f)
  have hval : Props.value L = if s = 1 then -x else x := by
    rw [k3, a3]
    simp only [decide_eq_true_eq]
  refine ⟨hval, fun hI => ?_⟩
  rw [← hval] at hI
  exact read_text hT gw (k1.trans hx) (hm.trans (by norm_num)) hm10 (by omega) (by rw [k1]; exact r1) (by rw [k1]; exact r2) hI

end Verif
