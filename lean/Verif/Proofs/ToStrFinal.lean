import Verif.Proofs.ToStrShortest
import Verif.Proofs.ToStrText
import Verif.Proofs.Degrees

/-!
# Proofs about formatting, part 7: reading back
-/

namespace Verif

open BigUInt LawfulBigUInt Spec

/-- In units of the smallest subnormal number: near a number that is not a power of two -/
theorem near_roundsTo {v : ℝ} {t M : ℕ} (hM : 2 ^ 236 < M) (hM' : M < 2 ^ 237) (ht : t ≤ 524285)
    (h : |v - M * 2 ^ t| ≤ 2 ^ t / 2) (ho : M % 2 = 1 → |v - M * 2 ^ t| < 2 ^ t / 2) : RoundsTo v (t * 2 ^ 236 + M) := by
  have hp : (0 : ℝ) < 2 ^ t := by positivity
  have h1 : (2 : ℝ) ^ 236 + 1 ≤ M := by exact_mod_cast hM
  have h2 : (M : ℝ) + 1 ≤ 2 ^ 237 := by exact_mod_cast hM'
  obtain ⟨a, b⟩ := abs_le.mp h
  refine ⟨t, M, ?_, Or.inr ?_, h, ?_, by rw [if_neg (by omega)]⟩
  · rw [pow_add]; nlinarith
  · rw [pow_add]; nlinarith
  · intro hh
    by_contra hc
    have := ho (by omega)
    linarith

theorem near_midClear {v : ℝ} {t M : ℕ} (hM : 2 ^ 236 < M) (hM' : M < 2 ^ 237) (ht : t ≤ 524285)
    (h : |v - M * 2 ^ t| ≤ (1 / 2 - 1 / 2 ^ 15) * 2 ^ t) : MidClearU v := by
  have hp : (0 : ℝ) < 2 ^ t := by positivity
  have h1 : (2 : ℝ) ^ 236 + 1 ≤ M := by exact_mod_cast hM
  have h2 : (M : ℝ) + 1 ≤ 2 ^ 237 := by exact_mod_cast hM'
  obtain ⟨a, b⟩ := abs_le.mp h
  have hINF : t * 2 ^ 236 + M < INF := by unfold INF; omega
  have m0 : mag (t * 2 ^ 236 + M) = M * 2 ^ t := mag_asm' (Or.inr (by omega)) (by omega) ht
  have m1 : mag (t * 2 ^ 236 + M + 1) = (M + 1) * 2 ^ t := by
    rw [Nat.add_assoc]; exact mag_asm' (Or.inr (by omega)) (by omega) ht
  have m2 : mag (t * 2 ^ 236 + M - 1) = (M - 1) * 2 ^ t := by
    rw [show t * 2 ^ 236 + M - 1 = t * 2 ^ 236 + (M - 1) by omega]
    exact mag_asm' (Or.inr (by omega)) (by omega) ht
  have m0' : (mag (t * 2 ^ 236 + M) : ℝ) = M * 2 ^ t := by rw [m0]; push_cast; ring
  have m1' : (mag (t * 2 ^ 236 + M + 1) : ℝ) = (M + 1) * 2 ^ t := by rw [m1]; push_cast; ring
  have m2' : (mag (t * 2 ^ 236 + M - 1) : ℝ) = (M - 1) * 2 ^ t := by
    rw [m2, Nat.cast_mul, Nat.cast_sub (by omega)]; push_cast; ring
  rintro N hN ⟨c1, c2⟩
  rcases Nat.lt_or_ge N (t * 2 ^ 236 + M) with hlt | hge
  · have g1 : (mag N : ℝ) ≤ (M - 1) * 2 ^ t := by
      rw [← m2']; exact_mod_cast mag_mono (show N ≤ t * 2 ^ 236 + M - 1 by omega) (by omega)
    have g2 : (mag (N + 1) : ℝ) ≤ M * 2 ^ t := by
      rw [← m0']; exact_mod_cast mag_mono (show N + 1 ≤ t * 2 ^ 236 + M by omega) (by omega)
    have g3 : ((mag N : ℝ) + mag (N + 1)) / 2 ≤ (M - 1 / 2) * 2 ^ t := by linarith
    have g4 : ((mag N : ℝ) + mag (N + 1)) / 2 * (1 + 1 / 2 ^ 252) ≤ (M - 1 / 2) * 2 ^ t * (1 + 1 / 2 ^ 252) :=
      mul_le_mul_of_nonneg_right g3 (by positivity)
    have g5 : ((M : ℝ) - 1 / 2) * (1 + 1 / 2 ^ 252) ≤ M - 1 / 2 + 1 / 2 ^ 15 := by
      have : ((M : ℝ) - 1 / 2) * (1 / 2 ^ 252) ≤ 1 / 2 ^ 15 := by
        calc ((M : ℝ) - 1 / 2) * (1 / 2 ^ 252) ≤ 2 ^ 237 * (1 / 2 ^ 252) :=
              mul_le_mul_of_nonneg_right (by linarith) (by positivity)
          _ = 1 / 2 ^ 15 := by norm_num
      linarith
    have g6 := mul_le_mul_of_nonneg_right g5 hp.le
    have g7 : ((M : ℝ) - 1 / 2) * 2 ^ t * (1 + 1 / 2 ^ 252) = ((M : ℝ) - 1 / 2) * (1 + 1 / 2 ^ 252) * 2 ^ t := by ring
    have g8 : ((M : ℝ) - 1 / 2 + 1 / 2 ^ 15) * 2 ^ t = M * 2 ^ t - (1 / 2 - 1 / 2 ^ 15) * 2 ^ t := by ring
    linarith
  · have g1 : (M : ℝ) * 2 ^ t ≤ mag N := by
      rw [← m0']; exact_mod_cast mag_mono hge hN.le
    have g2 : ((M : ℝ) + 1) * 2 ^ t ≤ mag (N + 1) := by
      rw [← m1']; exact Nat.cast_le.mpr (mag_mono (Nat.succ_le_succ hge) hN)
    have g3 : (0 : ℝ) < 1 / 2 ^ 15 * 2 ^ t := by positivity
    have g4 : (1 / 2 - 1 / 2 ^ 15 : ℝ) * 2 ^ t = 2 ^ t / 2 - 1 / 2 ^ 15 * 2 ^ t := by ring
    linarith

/-- A number without its trailing zeros -/
theorem drop_zeros : ∀ w : ℕ, 0 < w → ∃ m z : ℕ, w = m * 10 ^ z ∧ m % 10 ≠ 0 := by
  intro w
  induction w using Nat.strong_induction_on with
  | _ w ih =>
    intro h0
    by_cases h : w % 10 = 0
    · obtain ⟨m, z, h1, h2⟩ := ih (w / 10) (by omega) (by omega)
      refine ⟨m, z + 1, ?_, h2⟩
      rw [pow_succ, ← Nat.mul_assoc, ← h1]
      omega
    · exact ⟨w, 0, by simp, h⟩

theorem exp_bounds {m : ℕ} {j : ℤ} {v : ℝ} (hv : v = m * 10 ^ j) (hm0 : 0 < m) (hm : m < 10 ^ 77) (h1 : (10 : ℝ) ^ (-220 : ℤ) ≤ v)
    (h2 : v ≤ 10 ^ (220 : ℤ)) : j.natAbs ≤ 1024 := by
  have hm1 : (1 : ℝ) ≤ m := by exact_mod_cast hm0
  have hm2 : (m : ℝ) ≤ 10 ^ (77 : ℤ) := by exact_mod_cast hm.le
  have hj : (0 : ℝ) < 10 ^ j := zpow_pos (by norm_num) _
  have a : (10 : ℝ) ^ j ≤ 10 ^ (220 : ℤ) := by
    refine le_trans ?_ h2
    rw [hv]
    nlinarith
  have b : (10 : ℝ) ^ (-220 : ℤ) ≤ 10 ^ (77 + j) := by
    refine le_trans h1 ?_
    rw [hv, zpow_add₀ (by norm_num)]
    exact mul_le_mul_of_nonneg_right hm2 hj.le
  have a' := (zpow_le_zpow_iff_right₀ (by norm_num : (1 : ℝ) < 10)).mp a
  have b' := (zpow_le_zpow_iff_right₀ (by norm_num : (1 : ℝ) < 10)).mp b
  omega

set_option exponentiation.threshold 2000 in
theorem range_bounds {Q N v : ℝ} (h1 : (2 : ℝ) ^ (-707 : ℤ) ≤ Q) (h2 : Q ≤ (2 : ℝ) ^ (367 : ℤ)) (hQ : 0 < Q) (hN1 : 2 ^ 236 + 1 ≤ N)
    (hN2 : N + 1 ≤ 2 ^ 237) (a : -(Q / 2) ≤ v - N * Q) (b : v - N * Q ≤ Q / 2) :
    (10 : ℝ) ^ (-220 : ℤ) ≤ v ∧ v ≤ (10 : ℝ) ^ (220 : ℤ) := by
  have e1 : (10 : ℝ) ^ (-220 : ℤ) ≤ 2 ^ (-707 : ℤ) := by norm_num
  have e2 : (2 : ℝ) ^ 237 * 2 ^ (367 : ℤ) ≤ 10 ^ (220 : ℤ) := by norm_num
  constructor
  · have : 2 * Q ≤ N * Q := mul_le_mul_of_nonneg_right (le_trans (by norm_num) hN1) hQ.le
    linarith
  · have h3 : (N + 1) * Q ≤ 2 ^ 237 * 2 ^ (367 : ℤ) := mul_le_mul hN2 h2 hQ.le (by positivity)
    have h4 : (N + 1) * Q = N * Q + Q := by ring
    linarith

theorem units {q : ℤ} {t : ℕ} (h : q = (t : ℤ) - 262378) (x : ℝ) : x * (2 : ℝ) ^ q * 2 ^ 262378 = x * 2 ^ t := by
  rw [h, zpow_sub₀ (by norm_num), zpow_natCast, show ((2 : ℝ) ^ (262378 : ℤ)) = 2 ^ 262378 from zpow_natCast 2 262378,
    mul_assoc, div_mul_cancel₀ _ (pow_ne_zero _ (by norm_num))]

theorem close_units {q : ℤ} {t : ℕ} (h : q = (t : ℤ) - 262378) (v x : ℝ) :
    |v * 2 ^ 262378 - x * 2 ^ t| = |v - x * 2 ^ q| * 2 ^ 262378 := by
  have hK : (0 : ℝ) < 2 ^ 262378 := pow_pos (by norm_num) _
  rw [← units h x, ← sub_mul, abs_mul, abs_of_pos hK]

/-- The number of a text -/
theorem text_value {s : List (BitVec 8)} {L : DecLit} {d : DecRepr} (h : IsText s L d) :
    Props.value L = if d.sign == 1 then -((nat256 d.signif10 : ℝ) * 10 ^ d.exp10) else (nat256 d.signif10 : ℝ) * 10 ^ d.exp10 := by
  unfold Props.value
  rw [h.neg, h.val]

/-- The essence of C44 -/
theorem readBack {f : F256} (h1 : IsFin f.pat) (h2 : fracField f.pat ≠ 0) (hq : -707 ≤ quantumExp f.pat)
    (hq' : quantumExp f.pat ≤ 367)
    (hodd : 2 ≤ quantumExp f.pat → significandOf f.pat % 2 = 1 → ¬5 ^ 56 ∣ 2 * significandOf f.pat + 1) :
    ∃ d : DecRepr, DecRepr.shortestFromF256 f = some d ∧ ∀ s L, IsText s L d →
      IsRNE (Props.value L) f.pat ∧
      ((|L.absVal - abs (val f.pat)| ≤ (1 / 2 - 1 / 2 ^ 15) * 2 ^ quantumExp f.pat ∨
          ∃ (m : ℕ) (j : ℤ), L.absVal = m * 10 ^ j ∧ m < 2 ^ 237 ∧ j.natAbs ≤ 102 ∧ m % 10 ≠ 0) →
        F256.fromStr s = some (.ok f)) := by
  have hlt := pat_lt f
  have hE0 : expField f.pat ≠ 0 := by
    intro h
    unfold quantumExp at hq
    rw [if_pos h] at hq
    omega
  have hnz : ¬IsZero f.pat := fun h => hE0 h.1
  have hE : expField f.pat < 524287 := by
    have : expField f.pat < 2 ^ 19 := Nat.mod_lt _ (by norm_num)
    unfold IsFin at h1
    omega
  have hF : fracField f.pat < 2 ^ 236 := Nat.mod_lt _ (by norm_num)
  have hS : significandOf f.pat = 2 ^ 236 + fracField f.pat := by rw [significandOf, if_neg hE0]
  have hQ : quantumExp f.pat = ((expField f.pat - 1 : ℕ) : ℤ) - 262378 := by
    rw [quantumExp, if_neg hE0]; omega
  have hpat : f.pat % 2 ^ 255 = (expField f.pat - 1) * 2 ^ 236 + significandOf f.pat := by
    rw [hS]
    unfold expField fracField at *
    omega
  have hval : |val f.pat| = significandOf f.pat * (2 : ℝ) ^ quantumExp f.pat := by
    rw [val, mul_assoc, abs_mul, abs_pow, abs_neg, abs_one, one_pow, one_mul, abs_of_nonneg (by positivity)]
  have hsig := integralSignificand_eq f
  have hqe : f.quantumExponent = quantumExp f.pat := by rw [quantumExponent_eq hnz, hQ]
  have hsgn : f.sign = signBit f.pat := by rw [sign_eq, ← signBit_eq hlt]
  have hsb : signBit f.pat ≤ 1 := by unfold signBit; omega
  generalize hN : significandOf f.pat = N at *
  generalize hq0 : quantumExp f.pat = q at *
  generalize ht : expField f.pat - 1 = t at *
  have hN1 : 2 ^ 236 < N := by omega
  have hN2 : N < 2 ^ 237 := by omega
  have ht' : t ≤ 524285 := by omega
  obtain ⟨w, j, g1, gw, g2, g3, -⟩ := shortest_spec hsig (by clear hodd; omega) hN2 hq hq'
  replace g3 := fun ho => g3 ho (fun h => hodd h ho)
  clear hodd
  refine ⟨⟨f.sign, j, w⟩, ?_, ?_⟩
  · rw [DecRepr.shortestFromF256, hqe, g1]; rfl
  intro s L hT
  have hK : (0 : ℝ) < 2 ^ 262378 := pow_pos (by norm_num) _
  have hqpos : (0 : ℝ) < 2 ^ q := zpow_pos (by norm_num) _
  have half : (2 : ℝ) ^ (q - 1) = 2 ^ q / 2 := by rw [zpow_sub_one₀ (by norm_num)]; ring
  have habs : L.absVal = (nat256 w : ℝ) * 10 ^ j := hT.val
  rw [← habs, half] at g2 g3
  have hNr : (2 : ℝ) ^ 236 + 1 ≤ N := by exact_mod_cast hN1
  have hNr2 : (N : ℝ) + 1 ≤ 2 ^ 237 := by exact_mod_cast hN2
  obtain ⟨a1, a2⟩ := abs_le.mp g2
  have hpos : 0 < L.absVal := by nlinarith
  have half2 : (2 : ℝ) ^ q / 2 * 2 ^ 262378 = 2 ^ t / 2 := by
    have := units hQ (1 / 2)
    rw [show (2 : ℝ) ^ t / 2 = 1 / 2 * 2 ^ t by ring, ← this]
    ring
  have r1 : |L.absVal * 2 ^ 262378 - N * 2 ^ t| ≤ 2 ^ t / 2 := by
    rw [close_units hQ, ← half2]
    exact mul_le_mul_of_nonneg_right g2 hK.le
  have r2 : N % 2 = 1 → |L.absVal * 2 ^ 262378 - N * 2 ^ t| < 2 ^ t / 2 := by
    intro ho
    rw [close_units hQ, ← half2]
    exact mul_lt_mul_of_pos_right (g3 ho) hK
  have hR := near_roundsTo hN1 hN2 ht' r1 r2
  have hneg : L.neg = decide (signBit f.pat = 1) := by
    rw [hT.neg, ← hsgn]
    rfl
  have hpatEq : f.pat = (if L.neg then 1 else 0) * 2 ^ 255 + (t * 2 ^ 236 + N) := by
    rw [← hpat, hneg]
    have : f.pat = signBit f.pat * 2 ^ 255 + f.pat % 2 ^ 255 := by unfold signBit; omega
    by_cases h : signBit f.pat = 1
    · rw [if_pos (decide_eq_true h), ← h]; exact this
    · rw [if_neg (by rw [decide_eq_false h]; simp)]
      rw [show signBit f.pat = 0 by omega] at this
      exact this
  have hRNE : IsRNE (Props.value L) f.pat := by
    rw [hpatEq]
    exact Props.value_isRNE hpos hR
  refine ⟨hRNE, fun hc => ?_⟩
  have hw0 : 0 < nat256 w := by
    rcases Nat.eq_zero_or_pos (nat256 w) with h | h
    · rw [habs, h] at hpos
      simp at hpos
    · exact h
  have hlen : L.Lenient := ⟨hT.proper.toWf, hT.proper.mant.elim Or.inl (fun h => Or.inr (by
      by_contra hd
      exact h (hT.proper.dot (by simpa using hd)))), fun c sg ds h => Or.inr (hT.proper.expDigits c sg ds h)⟩
  have qb1 : (2 : ℝ) ^ (-707 : ℤ) ≤ 2 ^ q := zpow_le_zpow_right₀ (by norm_num) hq
  have qb2 : (2 : ℝ) ^ q ≤ 2 ^ (367 : ℤ) := zpow_le_zpow_right₀ (by norm_num) hq'
  obtain ⟨vb1, vb2⟩ := range_bounds qb1 qb2 hqpos hNr hNr2 a1 a2
  have hw77 : nat256 w < 10 ^ 77 := lt_of_le_of_lt gw (by norm_num)
  have hjb := exp_bounds habs hw0 hw77 vb1 vb2
  have hwrap : L.expo.natAbs + L.ip.length + L.fp.length < 2 ^ 31 := by
    have := hT.wrap
    dsimp only at this
    omega
  have done : ∀ g : F256, F256.fromStr s = some (.ok g) → IsRNE (Props.value L) g.pat → F256.fromStr s = some (.ok f) := by
    intro g hg1 hg2
    have hne : Props.value L ≠ 0 := by
      unfold Props.value
      split_ifs <;> linarith
    rw [hg1, pat_inj (IsRNE.unique hg2 hRNE hne)]
  rcases hc with hc | ⟨m, j', e1, e2, e3, e4⟩
  · obtain ⟨m, z, e1, e2⟩ := drop_zeros _ hw0
    have hv : L.absVal = m * (10 : ℝ) ^ (j + z) := by
      rw [habs, e1, zpow_add₀ (by norm_num), zpow_natCast]
      push_cast
      ring
    have hm77 : m < 10 ^ 77 := by
      refine lt_of_le_of_lt ?_ hw77
      rw [e1]
      exact Nat.le_mul_of_pos_right _ (by positivity)
    have hjz := exp_bounds hv (by omega) hm77 vb1 vb2
    have hmc : MidClearU (decU m (j + z)) := by
      have e : decU m (j + z) = L.absVal * 2 ^ 262378 := by rw [hv]; rfl
      rw [e]
      refine near_midClear hN1 hN2 ht' ?_
      rw [close_units hQ, ← units hQ]
      rw [hval] at hc
      exact mul_le_mul_of_nonneg_right hc hK.le
    obtain ⟨sg, t', a, b, x, neg, xs, rfl, hB, hsg, hal, hbl, he, hv'⟩ := Props.lit_body hlen hT.text hwrap
    obtain ⟨g, N', k1, k2, k3⟩ := fromStr_small hB hsg (Props.absVal_pos (hv' ▸ hpos)) (by rw [he, hal, hbl]; exact hwrap)
      (hv'.symm.trans hv) e2 hm77 hjz (Or.inl hmc)
    refine done g k1 ?_
    rw [k2]
    refine Props.value_isRNE hpos ?_
    have e : L.absVal * 2 ^ 262378 = decU m (j + z) := by rw [hv]; rfl
    rw [e]
    exact k3
  · obtain ⟨g, k1, k2⟩ := Props.C42_short hlen hT.text hwrap e1 e4 e2 e3
    exact done g k1 k2

end Verif
