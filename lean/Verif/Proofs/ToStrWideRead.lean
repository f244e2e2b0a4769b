import Verif.Proofs.ToStrWide
import Verif.Proofs.ToStrFinal

/-!
# Proofs about formatting, part 10: reading back over the whole range
-/

namespace Verif

open BigUInt LawfulBigUInt Spec

theorem wide_roundsTo {v : ℝ} {t M : ℕ} (hM : t = 0 ∨ 2 ^ 236 < M) (hM' : M < 2 ^ 237) (ht : t ≤ 524285)
    (h : |v - M * 2 ^ t| < 2 ^ t / 2) : RoundsTo v (t * 2 ^ 236 + M) := by
  have hp : (0 : ℝ) < 2 ^ t := by positivity
  have h2 : (M : ℝ) + 1 ≤ 2 ^ 237 := by exact_mod_cast hM'
  obtain ⟨a, b⟩ := abs_lt.mp h
  refine ⟨t, M, ?_, ?_, h.le, fun hh => absurd hh h.ne, by rw [if_neg (by omega)]⟩
  · rw [pow_add]; nlinarith
  · rcases hM with hM | hM
    · exact Or.inl hM
    · right
      have h1 : (2 : ℝ) ^ 236 + 1 ≤ M := by exact_mod_cast hM
      rw [pow_add]; nlinarith

/-- Neither near a number nor near a midpoint -/
theorem wide_clear {v : ℝ} {t M : ℕ} (hM : t = 0 ∨ 2 ^ 236 < M) (hM0 : 0 < M) (hM' : M < 2 ^ 237) (ht : t ≤ 524285)
    (h0 : 1 / 2 ^ 15 * 2 ^ t ≤ |v - M * 2 ^ t|) (h : |v - M * 2 ^ t| ≤ (1 / 2 - 1 / 2 ^ 15) * 2 ^ t) : ClearU v := by
  have hp : (0 : ℝ) < 2 ^ t := by positivity
  have h1 : (1 : ℝ) ≤ M := by exact_mod_cast hM0
  have h2 : (M : ℝ) + 1 ≤ 2 ^ 237 := by exact_mod_cast hM'
  obtain ⟨a, b⟩ := abs_le.mp h
  have hINF : t * 2 ^ 236 + M < INF := by unfold INF; omega
  have m0 : mag (t * 2 ^ 236 + M) = M * 2 ^ t := mag_asm' (by omega) (by omega) ht
  have m1 : mag (t * 2 ^ 236 + M + 1) = (M + 1) * 2 ^ t := by
    rw [Nat.add_assoc]; exact mag_asm' (by omega) (by omega) ht
  have m2 : mag (t * 2 ^ 236 + M - 1) = (M - 1) * 2 ^ t := by
    rw [show t * 2 ^ 236 + M - 1 = t * 2 ^ 236 + (M - 1) by omega]
    exact mag_asm' (by omega) (by omega) ht
  have m0' : (mag (t * 2 ^ 236 + M) : ℝ) = M * 2 ^ t := by rw [m0]; push_cast; ring
  have m1' : (mag (t * 2 ^ 236 + M + 1) : ℝ) = (M + 1) * 2 ^ t := by rw [m1]; push_cast; ring
  have m2' : (mag (t * 2 ^ 236 + M - 1) : ℝ) = (M - 1) * 2 ^ t := by
    rw [m2, Nat.cast_mul, Nat.cast_sub (by omega)]; push_cast; ring
  have step : ∀ x c : ℝ, x ≤ c * 2 ^ t → c ≤ M → (c + 1 / 2 ^ 15) * 2 ^ t ≤ v → ¬JustAboveU v x := by
    rintro x c hx hc hv ⟨-, j2⟩
    have g1 : x * (1 + 1 / 2 ^ 252) ≤ c * 2 ^ t * (1 + 1 / 2 ^ 252) := mul_le_mul_of_nonneg_right hx (by positivity)
    have g2 : c * (1 / 2 ^ 252) ≤ 1 / 2 ^ 15 := by
      calc c * (1 / 2 ^ 252) ≤ 2 ^ 237 * (1 / 2 ^ 252) := mul_le_mul_of_nonneg_right (by linarith) (by positivity)
        _ = 1 / 2 ^ 15 := by norm_num
    have g3 := mul_le_mul_of_nonneg_right g2 hp.le
    have g4 : c * 2 ^ t * (1 + 1 / 2 ^ 252) = c * 2 ^ t + c * (1 / 2 ^ 252) * 2 ^ t := by ring
    have g5 : (c + 1 / 2 ^ 15) * 2 ^ t = c * 2 ^ t + 1 / 2 ^ 15 * 2 ^ t := by ring
    linarith
  have e1 : (1 / 2 - 1 / 2 ^ 15 : ℝ) * 2 ^ t = 2 ^ t / 2 - 1 / 2 ^ 15 * 2 ^ t := by ring
  have hpos : (0 : ℝ) < 1 / 2 ^ 15 * 2 ^ t := by positivity
  intro N hN
  rcases Nat.lt_or_ge N (t * 2 ^ 236 + M) with hlt | hge
  · have g1 : (mag N : ℝ) ≤ (M - 1) * 2 ^ t := by
      rw [← m2']; exact_mod_cast mag_mono (show N ≤ t * 2 ^ 236 + M - 1 by omega) (by omega)
    have g2 : (mag (N + 1) : ℝ) ≤ M * 2 ^ t := by
      rw [← m0']; exact_mod_cast mag_mono (show N + 1 ≤ t * 2 ^ 236 + M by omega) (by omega)
    refine ⟨step _ (M - 1) g1 (by linarith) ?_, step _ (M - 1 / 2) (by linarith) (by linarith) ?_⟩
    · have : ((M : ℝ) - 1 + 1 / 2 ^ 15) * 2 ^ t = M * 2 ^ t - 2 ^ t + 1 / 2 ^ 15 * 2 ^ t := by ring
      linarith
    · have : ((M : ℝ) - 1 / 2 + 1 / 2 ^ 15) * 2 ^ t = M * 2 ^ t - 2 ^ t / 2 + 1 / 2 ^ 15 * 2 ^ t := by ring
      linarith
  · have g1 : (M : ℝ) * 2 ^ t ≤ mag N := by
      rw [← m0']; exact_mod_cast mag_mono hge hN.le
    have g2 : ((M : ℝ) + 1) * 2 ^ t ≤ mag (N + 1) := by
      rw [← m1']; exact Nat.cast_le.mpr (mag_mono (Nat.succ_le_succ hge) hN)
    refine ⟨?_, ?_⟩
    · rcases le_or_gt (M * 2 ^ t : ℝ) v with hv | hv
      · rw [abs_of_nonneg (by linarith)] at h0
        rcases Nat.eq_or_lt_of_le hge with he | hgt
        · rw [← he]
          refine step _ M m0'.le le_rfl ?_
          have : ((M : ℝ) + 1 / 2 ^ 15) * 2 ^ t = M * 2 ^ t + 1 / 2 ^ 15 * 2 ^ t := by ring
          linarith
        · rintro ⟨j1, -⟩
          have g3 : ((M : ℝ) + 1) * 2 ^ t ≤ mag N := by
            rw [← m1']; exact Nat.cast_le.mpr (mag_mono hgt hN.le)
          linarith
      · rintro ⟨j1, -⟩
        linarith
    · rintro ⟨j1, -⟩
      linarith

theorem ten_le_small : (10 : ℝ) ^ (-78979 : ℤ) ≤ 2 ^ (-262200 : ℤ) := by
  have h : (2 : ℕ) ^ 262200 ≤ 10 ^ 78979 := by
    calc (2 : ℕ) ^ 262200 ≤ 2 ^ (93 * 2820) := Nat.pow_le_pow_right (by norm_num) (by norm_num)
      _ = (2 ^ 93) ^ 2820 := by rw [pow_mul]
      _ ≤ (10 ^ 28) ^ 2820 := Nat.pow_le_pow_left (by norm_num) _
      _ = 10 ^ (28 * 2820) := by rw [pow_mul]
      _ ≤ 10 ^ 78979 := Nat.pow_le_pow_right (by norm_num) (by norm_num)
  have h' : (2 : ℝ) ^ 262200 ≤ 10 ^ 78979 := by exact_mod_cast h
  rw [zpow_neg, zpow_neg, show (78979 : ℤ) = ((78979 : ℕ) : ℤ) from rfl, show (262200 : ℤ) = ((262200 : ℕ) : ℤ) from rfl, zpow_natCast,
    zpow_natCast]
  exact inv_anti₀ (pow_pos (by norm_num) _) h'

/-- The decimal exponent is small enough for the parser. -/
theorem wide_exp_bounds {w : ℕ} {j q : ℤ} {N : ℝ} (hw0 : 0 < w) (hw : w ≤ 2 ^ 250) (hq : -262378 ≤ q) (hq' : q ≤ 261907) (hN : 1 ≤ N)
    (hN' : N ≤ 2 ^ 237) (h : |(w : ℝ) * 10 ^ j - N * 2 ^ q| ≤ (1 / 2 + 1 / 2 ^ 260) * 2 ^ q) : j.natAbs ≤ 300000 := by
  have hQ : (0 : ℝ) < 2 ^ q := zpow_pos (by norm_num) _
  have hd : (1 / 2 + 1 / 2 ^ 260 : ℝ) ≤ 3 / 4 := by
    have : (1 : ℝ) / 2 ^ 260 ≤ 1 / 2 ^ 2 := one_div_le_one_div_of_le (by norm_num) (pow_le_pow_right₀ (by norm_num) (by norm_num))
    linarith
  have h' := h.trans (mul_le_mul_of_nonneg_right hd hQ.le)
  obtain ⟨a, b⟩ := abs_le.mp h'
  have hJ : (0 : ℝ) < 10 ^ j := zpow_pos (by norm_num) _
  have w1 : (1 : ℝ) ≤ w := by exact_mod_cast hw0
  have w2 : (w : ℝ) ≤ 2 ^ 250 := by exact_mod_cast hw
  have hz : ∀ (m : ℕ) (z : ℤ), z = m → (2 : ℝ) ^ m ≤ 10 ^ z := fun m z hz => by
    rw [hz, zpow_natCast]; exact pow_le_pow_left₀ (by norm_num) (by norm_num) _
  have h4 : (2 : ℝ) ^ (2 : ℤ) = 4 := by norm_num
  have u1 : (10 : ℝ) ^ j ≤ 10 ^ (262145 : ℤ) := by
    calc (10 : ℝ) ^ j ≤ w * 10 ^ j := le_mul_of_one_le_left hJ.le w1
      _ ≤ (N + 1) * 2 ^ q := by linarith
      _ ≤ 2 ^ 238 * 2 ^ q := mul_le_mul_of_nonneg_right (by rw [pow_succ]; linarith [one_le_pow₀ (show (1 : ℝ) ≤ 2 by norm_num) (n := 237)]) hQ.le
      _ ≤ 2 ^ 238 * 2 ^ (261907 : ℤ) := mul_le_mul_of_nonneg_left (zpow_le_zpow_right₀ (by norm_num) hq') (by positivity)
      _ = 2 ^ 262145 := by
        rw [show (261907 : ℤ) = ((261907 : ℕ) : ℤ) by norm_num, zpow_natCast, ← pow_add]
      _ ≤ 10 ^ (262145 : ℤ) := hz 262145 _ (by norm_num)
  have u2 : (10 : ℝ) ^ (-262380 : ℤ) ≤ 10 ^ (j + 250) := by
    have c1 : (2 : ℝ) ^ (-262380 : ℤ) ≤ 2 ^ q / 4 := by
      rw [show (-262380 : ℤ) = -262378 - 2 by norm_num, zpow_sub₀ (by norm_num)]
      rw [h4]
      exact div_le_div_of_nonneg_right (zpow_le_zpow_right₀ (by norm_num) hq) (by norm_num)
    have c2 : (10 : ℝ) ^ (-262380 : ℤ) ≤ 2 ^ (-262380 : ℤ) := by
      rw [zpow_neg, zpow_neg]
      refine inv_anti₀ (zpow_pos (by norm_num) _) ?_
      rw [show (262380 : ℤ) = ((262380 : ℕ) : ℤ) by norm_num, zpow_natCast, zpow_natCast]
      exact pow_le_pow_left₀ (by norm_num) (by norm_num) _
    calc (10 : ℝ) ^ (-262380 : ℤ) ≤ 2 ^ q / 4 := c2.trans c1
      _ ≤ w * 10 ^ j := by nlinarith
      _ ≤ 2 ^ 250 * 10 ^ j := mul_le_mul_of_nonneg_right w2 hJ.le
      _ ≤ 10 ^ (250 : ℤ) * 10 ^ j := mul_le_mul_of_nonneg_right (hz 250 _ (by norm_num)) hJ.le
      _ = 10 ^ (j + 250) := by rw [← zpow_add₀ (by norm_num), add_comm]
  have a' := (zpow_le_zpow_iff_right₀ (by norm_num : (1 : ℝ) < 10)).mp u1
  have b' := (zpow_le_zpow_iff_right₀ (by norm_num : (1 : ℝ) < 10)).mp u2
  omega

/-- The essence of C44 over the whole range -/
theorem readBackWide {f : F256} (h1 : IsFin f.pat) (h0 : ¬IsZero f.pat) :
    ∃ d : DecRepr, DecRepr.shortestFromF256 f = some d ∧ ∀ s L, IsText s L d →
      L.neg = decide (signBit f.pat = 1) ∧
      |L.absVal - abs (val f.pat)| ≤ (1 / 2 + 1 / 2 ^ 260) * 2 ^ quantumExp f.pat ∧
      ((expField f.pat = 0 ∨ fracField f.pat ≠ 0) → |L.absVal - abs (val f.pat)| < 1 / 2 * 2 ^ quantumExp f.pat →
        IsRNE (Props.value L) f.pat ∧
        (1 / 2 ^ 15 * 2 ^ quantumExp f.pat ≤ |L.absVal - abs (val f.pat)| →
          |L.absVal - abs (val f.pat)| ≤ (1 / 2 - 1 / 2 ^ 15) * 2 ^ quantumExp f.pat →
          (10 : ℝ) ^ (-78979 : ℤ) ≤ L.absVal → F256.fromStr s = some (.ok f))) := by
  have hlt := pat_lt f
  have hE : expField f.pat < 524287 := by
    have : expField f.pat < 2 ^ 19 := Nat.mod_lt _ (by norm_num)
    unfold IsFin at h1
    omega
  have hF : fracField f.pat < 2 ^ 236 := Nat.mod_lt _ (by norm_num)
  have hQ : quantumExp f.pat = ((expField f.pat - 1 : ℕ) : ℤ) - 262378 := by
    unfold quantumExp
    split_ifs with h
    · rw [h]; rfl
    · omega
  have hpat : f.pat % 2 ^ 255 = (expField f.pat - 1) * 2 ^ 236 + significandOf f.pat := by
    unfold significandOf
    split_ifs with h
    · rw [h]
      unfold expField fracField at *
      omega
    · unfold expField fracField at *
      omega
  have hS0 : 0 < significandOf f.pat := by
    unfold significandOf IsZero at *
    split_ifs with h
    · have : fracField f.pat ≠ 0 := fun hh => h0 ⟨h, hh⟩
      omega
    · omega
  have hS1 : significandOf f.pat < 2 ^ 237 := by
    unfold significandOf
    split_ifs <;> omega
  have hcase : (expField f.pat = 0 ∨ fracField f.pat ≠ 0) → (expField f.pat - 1 = 0 ∨ 2 ^ 236 < significandOf f.pat) := by
    unfold significandOf
    intro h
    split_ifs <;> omega
  have hval : |val f.pat| = significandOf f.pat * (2 : ℝ) ^ quantumExp f.pat := by
    rw [val, mul_assoc, abs_mul, abs_pow, abs_neg, abs_one, one_pow, one_mul, abs_of_nonneg (by positivity)]
  have hsig := integralSignificand_eq f
  have hqe : f.quantumExponent = quantumExp f.pat := by rw [quantumExponent_eq h0, hQ]
  have hsgn : f.sign = signBit f.pat := by rw [sign_eq, ← signBit_eq hlt]
  have hsb : signBit f.pat ≤ 1 := by unfold signBit; omega
  have hqb1 : -262378 ≤ quantumExp f.pat := by omega
  have hqb2 : quantumExp f.pat ≤ 261907 := by omega
  generalize hN : significandOf f.pat = N at *
  generalize hq0 : quantumExp f.pat = q at *
  generalize ht : expField f.pat - 1 = t at *
  have ht' : t ≤ 524285 := by omega
  obtain ⟨w, j, g1, gw, g2⟩ := shortest_wide hsig hS0 hS1 hqb1 hqb2
  refine ⟨⟨f.sign, j, w⟩, ?_, ?_⟩
  · rw [DecRepr.shortestFromF256, hqe, g1]; rfl
  intro s L hT
  have hneg : L.neg = decide (signBit f.pat = 1) := by
    rw [hT.neg, ← hsgn]
    rfl
  have habs : L.absVal = (nat256 w : ℝ) * 10 ^ j := hT.val
  rw [← habs] at g2
  refine ⟨hneg, by rw [hval]; exact g2, ?_⟩
  intro hnp hhalf
  have hM := hcase hnp
  have hK : (0 : ℝ) < 2 ^ 262378 := pow_pos (by norm_num) _
  have hqpos : (0 : ℝ) < 2 ^ q := zpow_pos (by norm_num) _
  have hNr : (1 : ℝ) ≤ N := by exact_mod_cast hS0
  have hNr2 : (N : ℝ) ≤ 2 ^ 237 := by exact_mod_cast hS1.le
  rw [hval] at hhalf ⊢
  obtain ⟨a1, a2⟩ := abs_lt.mp hhalf
  have hpos : 0 < L.absVal := by nlinarith
  have cu : ∀ c : ℝ, c * (2 : ℝ) ^ q * 2 ^ 262378 = c * 2 ^ t := fun c => units hQ c
  have r1 : |L.absVal * 2 ^ 262378 - N * 2 ^ t| < 2 ^ t / 2 := by
    rw [close_units hQ, show (2 : ℝ) ^ t / 2 = 1 / 2 * 2 ^ t by ring, ← cu]
    exact mul_lt_mul_of_pos_right hhalf hK
  have hR := wide_roundsTo hM hS1 ht' r1
  have hpatEq : f.pat = (if L.neg then 1 else 0) * 2 ^ 255 + (t * 2 ^ 236 + N) := by
    rw [← hpat, hneg]
    have : f.pat = signBit f.pat * 2 ^ 255 + f.pat % 2 ^ 255 := by unfold signBit; omega
    by_cases h : signBit f.pat = 1
    · rw [if_pos (decide_eq_true h), ← h]; exact this
    · rw [if_neg (by rw [decide_eq_false h]; simp)]
      rw [show signBit f.pat = 0 by omega] at this
      exact this
  have hRNE : IsRNE (Props.value L) f.pat := by
    rw [hpatEq]
    exact Props.value_isRNE hpos hR
  refine ⟨hRNE, fun hc1 hc2 hcut => ?_⟩
  have hw0 : 0 < nat256 w := by
    rcases Nat.eq_zero_or_pos (nat256 w) with h | h
    · rw [habs, h] at hpos
      simp at hpos
    · exact h
  have hlen : L.Lenient := ⟨hT.proper.toWf, hT.proper.mant.elim Or.inl (fun h => Or.inr (by
      by_contra hd
      exact h (hT.proper.dot (by simpa using hd)))), fun c sg ds h => Or.inr (hT.proper.expDigits c sg ds h)⟩
  have hjb := wide_exp_bounds hw0 gw hqb1 hqb2 hNr hNr2 (by rw [← habs]; exact g2)
  have hwrap : L.expo.natAbs + L.ip.length + L.fp.length < 2 ^ 31 := by
    have := hT.wrap
    dsimp only at this
    omega
  have hc : ClearU (L.absVal * 2 ^ 262378) := by
    refine wide_clear hM hS0 hS1 ht' ?_ ?_
    · rw [close_units hQ, ← cu]
      exact mul_le_mul_of_nonneg_right hc1 hK.le
    · rw [close_units hQ, ← cu]
      exact mul_le_mul_of_nonneg_right hc2 hK.le
  obtain ⟨sg, t', a, b, x, neg, xs, rfl, hB, hsg, hal, hbl, he, hv⟩ := Props.lit_body hlen hT.text hwrap
  have hdec : L.absVal * 2 ^ 262378 = decU (decVal (digs (a ++ b))) (expVal neg xs - b.length) := by
    rw [hv]; rfl
  rw [hdec] at hc
  obtain ⟨g, N', k1, k2, k3⟩ := fromStr_clear hB hsg (Props.absVal_pos (hv ▸ hpos)) (by rw [he, hal, hbl]; exact hwrap) hc
    (by
      rw [← hdec, hal, hbl]
      right; left
      unfold decU
      rw [Nat.cast_one, one_mul]
      exact mul_le_mul_of_nonneg_right hcut hK.le)
  rw [← hdec] at k3
  have hg2 : IsRNE (Props.value L) g.pat := by rw [k2]; exact Props.value_isRNE hpos k3
  have hne : Props.value L ≠ 0 := by
    unfold Props.value
    split_ifs <;> linarith
  rw [k1, pat_inj (IsRNE.unique hg2 hRNE hne)]

end Verif
