import Verif.Proofs.U768
import Verif.Props.Mul

/-!
# The fused multiply-add of finite non-zero numbers
-/

namespace Verif

open BigUInt Spec

/-! ## Rounding to odd, once more -/

theorem RTO.ge' {w : ℝ} {s m : ℕ} (h : RTO w s) (hm : m % 2 = 0) (hw : (m : ℝ) ≤ w) : m ≤ s := by
  rcases h with h | ⟨h1, h2⟩
  · rw [h] at hw; exact_mod_cast hw
  · have h3 := abs_lt.mp h2
    have h4 : (m : ℝ) < (s + 1 : ℕ) := by push_cast; linarith
    have h5 : m < s + 1 := by exact_mod_cast h4
    omega

theorem RTO.lt' {w : ℝ} {s m : ℕ} (h : RTO w s) (hm : m % 2 = 0) (hw : w < m) : s < m := by
  rcases h with h | ⟨h1, h2⟩
  · rw [h] at hw; exact_mod_cast hw
  · have h3 := abs_lt.mp h2
    have h4 : (s : ℝ) < (m + 1 : ℕ) := by push_cast; linarith
    have h5 : s < m + 1 := by exact_mod_cast h4
    omega

theorem RTO.exists {w : ℝ} (hw : 0 ≤ w) : ∃ s, RTO w s := by
  have h1 := Nat.floor_le hw
  have h2 := Nat.lt_floor_add_one w
  generalize ⌊w⌋₊ = q at *
  by_cases he : w = q
  · exact ⟨q, Or.inl he⟩
  have h3 : (q : ℝ) < w := lt_of_le_of_ne h1 (Ne.symm he)
  rcases Nat.mod_two_eq_zero_or_one q with hq | hq
  · refine ⟨q + 1, Or.inr ⟨by omega, ?_⟩⟩
    push_cast
    rw [abs_lt]; constructor <;> linarith
  · refine ⟨q, Or.inr ⟨hq, ?_⟩⟩
    rw [abs_lt]; constructor <;> linarith

/-- `Z` stands for `w` as far as later rounding is concerned. -/
def Near (w : ℝ) (Z : ℕ) : Prop :=
  w = Z ∨ (2 ^ 239 ≤ Z ∧ ∃ s, RTO (w / 2) s ∧ RTO ((Z : ℝ) / 2) s)

theorem Near.of_rto {w : ℝ} {Z : ℕ} (h : RTO w Z) (hZ : 2 ^ 239 ≤ Z) : Near w Z := by
  right
  refine ⟨hZ, ?_⟩
  obtain ⟨s, hs⟩ := RTO.exists (w := (Z : ℝ) / 2) (by positivity)
  exact ⟨s, h.half hs, hs⟩

/-- Two numbers strictly between the same consecutive multiples of 4. -/
theorem Near.of_four {w : ℝ} {Z m : ℕ} (hZ : 2 ^ 239 ≤ Z) (h1 : (4 * m : ℝ) < w)
    (h2 : w < 4 * m + 4) (h3 : 4 * m < Z) (h4 : Z < 4 * m + 4) : Near w Z := by
  right
  have h3' : (4 * m : ℝ) < Z := by exact_mod_cast h3
  have h4' : (Z : ℝ) < 4 * m + 4 := by exact_mod_cast h4
  refine ⟨hZ, 2 * m + 1, Or.inr ⟨by omega, ?_⟩, Or.inr ⟨by omega, ?_⟩⟩ <;>
  · push_cast
    rw [abs_lt]
    constructor <;> linarith

theorem Near.ge {w : ℝ} {Z j : ℕ} (h : Near w Z) (hj : 2 ≤ j) (hZ : 2 ^ j ≤ Z) :
    (2 : ℝ) ^ j ≤ w := by
  rcases h with h | ⟨-, s, h1, h2⟩
  · rw [h]; exact_mod_cast hZ
  · obtain ⟨i, rfl⟩ := Nat.exists_eq_add_of_le hj
    have he : 2 ^ (1 + i) % 2 = 0 := by rw [pow_add, pow_one]; omega
    have e : (2 : ℝ) ^ (2 + i) = 2 * 2 ^ (1 + i) := by rw [← pow_succ']; congr 1; omega
    have hZ' : (2 : ℝ) ^ (2 + i) ≤ Z := by exact_mod_cast hZ
    have h3 := h2.ge' (m := 2 ^ (1 + i)) he (by push_cast; linarith)
    have h4 := h1.ge he h3
    push_cast at h4
    linarith

theorem Near.lt {w : ℝ} {Z j : ℕ} (h : Near w Z) (hj : 2 ≤ j) (hZ : Z < 2 ^ j) :
    w < (2 : ℝ) ^ j := by
  rcases h with h | ⟨-, s, h1, h2⟩
  · rw [h]; exact_mod_cast hZ
  · obtain ⟨i, rfl⟩ := Nat.exists_eq_add_of_le hj
    have he : 2 ^ (1 + i) % 2 = 0 := by rw [pow_add, pow_one]; omega
    have e : (2 : ℝ) ^ (2 + i) = 2 * 2 ^ (1 + i) := by rw [← pow_succ']; congr 1; omega
    have hZ' : (Z : ℝ) < (2 : ℝ) ^ (2 + i) := by exact_mod_cast hZ
    have h3 := h2.lt' (m := 2 ^ (1 + i)) he (by push_cast; linarith)
    have h4 := h1.lt h3
    push_cast at h4
    linarith

theorem Near.rne {w : ℝ} {Z k M : ℕ} (h : Near w Z) (hk : 3 ≤ k) (hM : RNE ((Z : ℝ) / 2 ^ k) M) :
    RNE (w / 2 ^ k) M := by
  rcases h with h | ⟨-, s, h1, h2⟩
  · rw [h]; exact hM
  · obtain ⟨i, rfl⟩ := Nat.exists_eq_add_of_le hk
    have e (u : ℝ) : u / 2 ^ (3 + i) = u / 2 / 2 ^ (2 + i) := by
      rw [div_div, ← pow_succ']; congr 2; omega
    obtain ⟨L, hL⟩ := RNE.exists ((s : ℝ) / 2 ^ (2 + i)) (by positivity)
    have h3 := RNE.of_rto (by omega) h2 hL
    have h4 := RNE.of_rto (by omega) h1 hL
    rw [e] at hM ⊢
    rwa [hM.unique h3]

/-! ## Rounding and assembling -/

theorem toNat_ushl3 (x : BitVec 128) : (x <<< 3 = 0) ↔ x.toNat % 2 ^ 125 = 0 := by
  rw [← BitVec.toNat_inj, BitVec.toNat_shiftLeft, Nat.shiftLeft_eq,
    show (0 : BitVec 128).toNat = 0 by decide]
  omega

theorem toNat_ofInt_nat {e : ℕ} (he : e ≤ 524286) :
    ((BitVec.ofInt 128 (e : ℤ)) <<< HI_FRACTION_BITS).toNat = e * 2 ^ 108 := by
  rw [BitVec.ofInt_natCast, BitVec.toNat_shiftLeft, BitVec.toNat_ofNat, HI_FRACTION_BITS,
    Nat.shiftLeft_eq]
  omega

theorem rne_mod {H R B : ℕ} (hR : R < B) :
    Spec.rne (H * B + R) B = H + (decide (B < 2 * R ∨ (2 * R = B ∧ H % 2 = 1))).toNat := by
  have hB : 0 < B := by omega
  have e1 : (H * B + R) % B = R := by rw [Nat.mul_add_mod', Nat.mod_eq_of_lt hR]
  have e2 : (H * B + R) / B = H := by
    rw [Nat.add_comm, Nat.add_mul_div_right _ _ hB, Nat.div_eq_of_lt hR, Nat.zero_add]
  unfold Spec.rne
  rw [e1, e2]
  split
  · rename_i h; rw [decide_eq_true h]; rfl
  · rename_i h; rw [decide_eq_false h]; rfl

theorem fma_round {z : U768} {e s : ℕ} {sg : BitVec 128} (hz : nat768 z < 2 ^ 749)
    (he : e ≤ 524285) (hs : s ≤ 1) (hsg : sg.toNat = s * 2 ^ 127) :
    (Fma.round z e sg).pat = s * 2 ^ 255 + (e * 2 ^ 236 + Spec.rne (nat768 z) (2 ^ 512)) := by
  obtain ⟨H, R, hH, hR⟩ : ∃ H R, H = nat256 z.hi ∧ R = nat256 z.mi * 2 ^ 256 + nat256 z.lo :=
    ⟨_, _, rfl, rfl⟩
  have h2 := nat256_lt z.mi
  have h3 := nat256_lt z.lo
  have hn : nat768 z = H * 2 ^ 512 + R := by rw [hH, hR, nat768, Nat.add_assoc]
  have hRlt : R < 2 ^ 512 := by omega
  have hHlt : H < 2 ^ 237 := by
    rw [hn] at hz
    have : H * 2 ^ 512 < 2 ^ 237 * 2 ^ 512 := by rw [← pow_add]; omega
    exact Nat.lt_of_mul_lt_mul_right this
  rw [hn, rne_mod hRlt]
  -- the rounding bits
  obtain ⟨b, hb⟩ : ∃ b : Bool, b = (decide (U128.shl z.mi.hi 3 ≠ 0) || decide (z.mi.lo ≠ 0) ||
    !U256.isZero z.lo) := ⟨_, rfl⟩
  have hmi : nat256 z.mi = z.mi.hi.toNat * 2 ^ 128 + z.mi.lo.toNat := rfl
  have m1 := z.mi.hi.isLt
  have m2 := z.mi.lo.isLt
  have hb' : b = decide (R % 2 ^ 509 ≠ 0) := by
    have c1 : (U128.shl z.mi.hi 3 ≠ 0) ↔ z.mi.hi.toNat % 2 ^ 125 ≠ 0 := not_congr (toNat_ushl3 _)
    have c2 : (z.mi.lo ≠ 0) ↔ z.mi.lo.toNat ≠ 0 := by
      rw [Ne, ← BitVec.toNat_inj, show (0 : BitVec 128).toNat = 0 by decide]
    rw [hb, isZero256, Bool.eq_iff_iff, Bool.or_eq_true, Bool.or_eq_true, decide_eq_true_iff,
      decide_eq_true_iff, decide_eq_true_iff, c1, c2, Bool.not_eq_true', decide_eq_false_iff_not,
      hR, hmi]
    clear * - m1 m2 h3
    omega
  have hh : (U128.shr z.mi.hi 125).toNat = R / 2 ^ 509 := by
    show (z.mi.hi >>> 125).toNat = _
    rw [toNat_ushr, hR, hmi]
    clear * - m1 m2 h3
    omega
  obtain ⟨rb, hrb⟩ : ∃ rb, rb = (U128.shr z.mi.hi 125).toNat ||| b.toNat := ⟨_, rfl⟩
  have hrb' : rb = R / 2 ^ 509 / 2 * 2 + max (R / 2 ^ 509 % 2) (decide (R % 2 ^ 509 ≠ 0)).toNat := by
    rw [hrb, hh, hb', or_bool]
  have r1 : rb > 4 ↔ 2 ^ 512 < 2 * R := by
    rw [hrb']
    by_cases c : R % 2 ^ 509 = 0
    · rw [decide_eq_false (not_not.mpr c), Bool.toNat_false]; clear * - hRlt c; omega
    · rw [decide_eq_true c, Bool.toNat_true]; clear * - hRlt c; omega
  have r2 : rb = 4 ↔ 2 * R = 2 ^ 512 := by
    rw [hrb']
    by_cases c : R % 2 ^ 509 = 0
    · rw [decide_eq_false (not_not.mpr c), Bool.toNat_false]; clear * - hRlt c; omega
    · rw [decide_eq_true c, Bool.toNat_true]; clear * - hRlt c; omega
  -- the assembled significand
  obtain ⟨B, hB⟩ : ∃ B : U256, B =
    ⟨z.hi.hi + (BitVec.ofInt 128 (e : ℤ) <<< HI_FRACTION_BITS), z.hi.lo⟩ := ⟨_, rfl⟩
  have hBn : nat256 B = e * 2 ^ 236 + H := by
    have h1 := z.hi.lo.isLt
    have h2 : z.hi.hi.toNat < 2 ^ 109 := by rw [hH] at hHlt; unfold nat256 at hHlt; omega
    rw [hB, nat256_mk, BitVec.toNat_add, toNat_ofInt_nat (by omega), hH, nat256]
    clear * - h1 h2 he
    omega
  have hfold : Fma.round z e sg = ⟨⟨(if decide (rb > 4) || (decide (rb = 4) && isOdd B.lo)
      then UInt.incr B else B).hi ||| sg, (if decide (rb > 4) || (decide (rb = 4) && isOdd B.lo)
      then UInt.incr B else B).lo⟩⟩ := by
    rw [hrb, hb, hB]; rfl
  have hcond : (decide (rb > 4) || (decide (rb = 4) && isOdd B.lo)) =
      decide (2 ^ 512 < 2 * R ∨ (2 * R = 2 ^ 512 ∧ H % 2 = 1)) := by
    have : nat256 B % 2 = H % 2 := by rw [hBn]; omega
    rw [isOdd_lo, this, Bool.eq_iff_iff, Bool.or_eq_true, Bool.and_eq_true, decide_eq_true_iff,
      decide_eq_true_iff, decide_eq_true_iff, decide_eq_true_iff, r1, r2]
  rw [hfold, hcond, pat_eq]
  by_cases c : 2 ^ 512 < 2 * R ∨ (2 * R = 2 ^ 512 ∧ H % 2 = 1)
  · rw [decide_eq_true c, Bool.toNat_true, if_pos rfl]
    have hi : nat256 (UInt.incr B) = e * 2 ^ 236 + (H + 1) := by
      rw [nat_incr256, hBn]; clear * - hHlt he; omega
    rw [nat_or_sign (s := s) (by rw [hi]; clear * - hHlt he; omega) hsg, hi]
  · rw [decide_eq_false c, Bool.toNat_false, if_neg (by simp), Nat.add_zero]
    rw [nat_or_sign (s := s) (by rw [hBn]; clear * - hHlt he; omega) hsg, hBn]

/-! ## Normalising -/

theorem fma_finish {z : U768} {d Ep Ea : ℤ} {sg : BitVec 128} {s : ℕ} {v w : ℝ}
    (hz0 : nat768 z ≠ 0) (hz : nat768 z < 2 ^ 749) (hd : d ≤ 239) (hs : s ≤ 1)
    (hsg : sg.toNat = s * 2 ^ 127) (hw : Near w (nat768 z)) (hv : v = w * (2 : ℝ) ^ (Ep - 238))
    (hv2 : (2 : ℝ) ^ 236 ≤ v) :
    ∃ A r, RoundsTo v A ∧ Fma.finish z d Ep Ea sg = some r ∧ r.pat = s * 2 ^ 255 + A := by
  have hl : (nat768 z).log2 < 749 := (Nat.log2_lt hz0).mpr hz
  obtain ⟨l, hl'⟩ : ∃ l, l = (nat768 z).log2 := ⟨_, rfl⟩
  rw [← hl'] at hl
  obtain ⟨b1, b2⟩ := log2_bounds hz0 hl'.symm
  have hnlz : z.leadingZeros = 767 - l := by rw [lz768, if_neg hz0, hl']
  obtain ⟨n, hn⟩ : ∃ n : ℕ, n = 748 - l := ⟨_, rfl⟩
  -- bounds for the exact value
  have w2 : w < 2 ^ (l + 1) := by
    by_cases hc : 2 ≤ l + 1
    · exact hw.lt hc b2
    · rcases hw with h | ⟨h, -⟩
      · rw [h]; exact_mod_cast b2
      · exfalso
        have : l = 0 := by omega
        rw [this] at b2
        omega
  have w1 : (2 : ℝ) ^ l ≤ w := by
    by_cases hc : 2 ≤ l
    · exact hw.ge hc b1
    · rcases hw with h | ⟨h, -⟩
      · rw [h]; exact_mod_cast b1
      · exfalso
        have : 2 ^ (l + 1) ≤ 2 ^ 2 := Nat.pow_le_pow_right (by norm_num) (by omega)
        omega
  have hpU : (0 : ℝ) < (2 : ℝ) ^ (Ep - 238) := zpow_pos (by norm_num) _
  have ht1 : 236 < (l : ℤ) + 1 + (Ep - 238) := by
    have h1 : (2 : ℝ) ^ (236 : ℤ) < (2 : ℝ) ^ ((l : ℤ) + 1 + (Ep - 238)) := by
      have h2 : v < (2 : ℝ) ^ (l + 1) * (2 : ℝ) ^ (Ep - 238) := by
        rw [hv]; exact mul_lt_mul_of_pos_right w2 hpU
      rw [zpow_add₀ (by norm_num), show ((l : ℤ) + 1) = ((l + 1 : ℕ) : ℤ) by push_cast; rfl,
        zpow_natCast]
      refine lt_of_le_of_lt ?_ h2
      exact_mod_cast hv2
    exact (zpow_lt_zpow_iff_right₀ (by norm_num)).mp h1
  obtain ⟨e, he⟩ : ∃ e : ℕ, (e : ℤ) = Ep + 274 - n := ⟨(Ep + 274 - n).toNat, by omega⟩
  unfold Fma.finish
  rw [hnlz]
  dsimp only
  rw [if_neg (by unfold U768.BITS; omega), if_pos (by
    unfold Fma.ADDEND_ANCHORED_UPPER_LIMIT SIGNIFICAND_BITS; omega)]
  have hnI : (((767 - l : ℕ) : ℤ) - (EXP_BITS : ℤ)) = n := by unfold EXP_BITS; omega
  rw [hnI]
  have htI : Ep + ((Fma.REL_OFFSET : ℤ) - (n : ℤ)) + 1 = (e : ℤ) + 1 := by
    have : (Fma.REL_OFFSET : ℤ) = 274 := by decide
    rw [this]; omega
  rw [htI]
  -- the scaled value
  have hve : v = w * 2 ^ n / 2 ^ 512 * 2 ^ e := by
    rw [hv, ← zpow_natCast, ← zpow_natCast, ← zpow_natCast, mul_div_assoc, mul_assoc]
    congr 1
    rw [div_mul_eq_mul_div, ← zpow_add₀ (by norm_num), ← zpow_sub₀ (by norm_num)]
    congr 1
    rw [he]; push_cast; ring
  have hpn : (0 : ℝ) < 2 ^ n := by positivity
  have hA1 : (2 : ℝ) ^ 236 ≤ w * 2 ^ n / 2 ^ 512 := by
    rw [le_div_iff₀ (by positivity), ← pow_add]
    have h1 := mul_le_mul_of_nonneg_right w1 hpn.le
    rw [← pow_add, show l + n = 236 + 512 by omega] at h1
    exact h1
  have hA2 : w * 2 ^ n / 2 ^ 512 < (2 : ℝ) ^ 237 := by
    rw [div_lt_iff₀ (by positivity), ← pow_add]
    have h1 := mul_lt_mul_of_pos_right w2 hpn
    rw [← pow_add, show l + 1 + n = 237 + 512 by omega] at h1
    exact h1
  by_cases c1 : (e : ℤ) + 1 ≥ (EXP_MAX : ℤ)
  · rw [if_pos c1]
    have c1' : 524286 ≤ e := by unfold EXP_MAX at c1; omega
    refine ⟨INF, _, RoundsTo.inf (t := e) c1' ?_, rfl, Props.pat_signed_inf hsg⟩
    rw [hve]
    exact mul_le_mul_of_nonneg_right hA1 (by positivity)
  rw [if_neg c1, if_pos (by omega)]
  have c1' : e ≤ 524285 := by unfold EXP_MAX at c1; omega
  have hnm : (((n : ℤ) % 4294967296)).toNat = n := by omega
  rw [hnm]
  have hlt : nat768 z * 2 ^ n < 2 ^ 749 := by
    have h1 := (Nat.mul_lt_mul_right (Nat.two_pow_pos n)).mpr b2
    rwa [← Nat.pow_add, show l + 1 + n = 749 by omega] at h1
  have h749 : 2 ^ 749 < 2 ^ 768 := Nat.pow_lt_pow_right (by norm_num) (by norm_num)
  obtain ⟨z', hz', hzn⟩ := shl768 (x := z) (n := n) (by omega) (lt_trans hlt h749)
  rw [hz', Option.bind_some, show (e : ℤ) + 1 - 1 = e by ring]
  refine ⟨_, _, ?_, rfl, fma_round (by rw [hzn]; exact hlt) c1' hs hsg⟩
  rw [hzn]
  refine RoundsTo.of_rne hve hA2 (Or.inr hA1) ?_ c1'
  have hr := RNE.of_rne (nat768 z * 2 ^ n) (b := 2 ^ 512) (Nat.two_pow_pos _)
  rw [Nat.cast_mul, Nat.cast_pow, Nat.cast_pow, Nat.cast_ofNat] at hr
  rcases hw with h | ⟨h, hs'⟩
  · rw [h]; exact hr
  · have hl2 : 239 ≤ l := by
      by_contra hc
      have : 2 ^ (l + 1) ≤ 2 ^ 239 := Nat.pow_le_pow_right (by norm_num) (by omega)
      omega
    have e (u : ℝ) : u * 2 ^ n / 2 ^ 512 = u / 2 ^ (512 - n) := by
      have : (2 : ℝ) ^ 512 = 2 ^ (512 - n) * 2 ^ n := by rw [← pow_add]; congr 1; omega
      rw [this, mul_div_mul_right _ _ hpn.ne']
    rw [e] at hr ⊢
    exact Near.rne (Or.inr ⟨h, hs'⟩) (by omega) hr

/-! ## The addend dominates -/

theorem fma_big {z : U768} {d Ep : ℤ} {e S s : ℕ} {f v : ℝ} {sg : BitVec 128} (hd : 239 < d)
    (hs : s ≤ 1) (hsg : sg.toNat = s * 2 ^ 127) (he : e ≤ 524285) (hS1 : 2 ^ 236 ≤ S)
    (hS2 : S < 2 ^ 237)
    (hf0 : 0 ≤ f) (hf : f < 1 / 4) {P : ℕ} (hP : P < 2 ^ 511)
    (h : (nat768 z = S * 2 ^ 512 + P ∧ v = (S + f) * 2 ^ e) ∨
      (nat768 z = S * 2 ^ 512 - P ∧ v = (S - f) * 2 ^ e)) :
    ∃ A r, RoundsTo v A ∧ Fma.finish z d Ep ((e : ℤ) + 1) sg = some r ∧
      r.pat = s * 2 ^ 255 + A := by
  have hzlt : nat768 z < 2 ^ 749 := by
    have e749 : 2 ^ 749 = 2 ^ 237 * 2 ^ 512 := by rw [← Nat.pow_add]
    have : (S + 1) * 2 ^ 512 ≤ 2 ^ 749 := by
      rw [e749]
      exact Nat.mul_le_mul_right _ (Nat.succ_le_of_lt hS2)
    rw [Nat.add_mul, Nat.one_mul] at this
    rcases h with ⟨h, -⟩ | ⟨h, -⟩ <;> omega
  have hz0 : nat768 z ≠ 0 := by
    have : 2 ^ 512 ≤ S * 2 ^ 512 := Nat.le_mul_of_pos_left _ (by omega)
    rcases h with ⟨h, -⟩ | ⟨h, -⟩ <;> omega
  have hne : z.leadingZeros ≠ U768.BITS := by
    rw [lz768, if_neg hz0]; unfold U768.BITS; omega
  unfold Fma.finish
  dsimp only
  rw [if_neg hne, if_neg (by unfold Fma.ADDEND_ANCHORED_UPPER_LIMIT SIGNIFICAND_BITS; omega)]
  obtain ⟨z', hz', hzn⟩ := shl768 (x := z) (n := 0) (by omega) (by
    rw [Nat.pow_zero, Nat.mul_one]; exact nat768_lt z)
  rw [Nat.pow_zero, Nat.mul_one] at hzn
  rw [hz', Option.bind_some, show (e : ℤ) + 1 - 1 = e by ring]
  have hrne : Spec.rne (nat768 z) (2 ^ 512) = S := by
    rcases h with ⟨h, -⟩ | ⟨h, -⟩
    · rw [h, rne_mod (by omega), decide_eq_false (by omega)]; rfl
    · by_cases hP0 : P = 0
      · rw [h, hP0, Nat.sub_zero]
        have := rne_mod (H := S) (R := 0) (B := 2 ^ 512) (by positivity)
        rw [Nat.add_zero, decide_eq_false (by omega)] at this
        exact this
      · have e1 : S * 2 ^ 512 - P = (S - 1) * 2 ^ 512 + (2 ^ 512 - P) := by
          rw [Nat.sub_mul, Nat.one_mul]
          have : 2 ^ 512 ≤ S * 2 ^ 512 := Nat.le_mul_of_pos_left _ (by omega)
          omega
        rw [h, e1, rne_mod (by omega), decide_eq_true (by omega), Bool.toNat_true]
        omega
  refine ⟨e * 2 ^ 236 + S, _, ?_, rfl, by
    rw [fma_round (by rw [hzn]; exact hzlt) he hs hsg, hzn, hrne]⟩
  have hS1' : (2 : ℝ) ^ 236 ≤ S := by exact_mod_cast hS1
  have hS2' : (S : ℝ) + 1 ≤ 2 ^ 237 := by exact_mod_cast hS2
  rcases h with ⟨-, h⟩ | ⟨-, h⟩
  · refine RoundsTo.of_rne h (by linarith) (Or.inr (by linarith)) ⟨?_, ?_⟩ he
    · rw [abs_of_nonneg] <;> linarith
    · rw [abs_of_nonneg (by linarith)]; intro; linarith
  · by_cases c : e = 0 ∨ (2 : ℝ) ^ 236 ≤ S - f
    · refine RoundsTo.of_rne h (by linarith) c ⟨?_, ?_⟩ he
      · rw [abs_of_nonpos] <;> linarith
      · rw [abs_of_nonpos (by linarith)]; intro; linarith
    · rw [not_or, not_le] at c
      have hSeq : S = 2 ^ 236 := by
        by_contra hne
        have : 2 ^ 236 + 1 ≤ S := by omega
        have : (2 : ℝ) ^ 236 + 1 ≤ S := by exact_mod_cast this
        linarith [c.2]
      obtain ⟨e', rfl⟩ : ∃ e', e = e' + 1 := ⟨e - 1, by omega⟩
      have e1 : (e' + 1) * 2 ^ 236 + S = e' * 2 ^ 236 + 2 ^ 237 := by rw [hSeq]; ring
      rw [e1]
      have hSr : (S : ℝ) = 2 ^ 236 := by rw [hSeq, Nat.cast_pow, Nat.cast_ofNat]
      have e3 : (2 : ℝ) ^ 237 = 2 * 2 ^ 236 := by rw [← pow_succ']
      have hf1 : 0 < f := by linarith [c.2]
      have hb : (1 : ℝ) ≤ 2 ^ 236 := one_le_pow₀ (by norm_num)
      refine RoundsTo.of_rne (w := 2 ^ 237 - 2 * f) ?_ (by linarith) (Or.inr (by linarith)) ⟨?_, ?_⟩
        (by omega)
      · rw [h, hSr, pow_succ, e3]; ring
      · push_cast
        rw [abs_of_nonpos] <;> linarith
      · push_cast
        rw [abs_of_nonpos (by linarith)]; intro; linarith

/-! ## Alignment and addition -/

theorem fma_align (Pz : U768) (Sz : U256) {d : ℤ} (hd : d ≤ 239) :
    ∃ (a : U768) (b : Bool),
      Fma.align Pz Sz d = some (if b then (a, Pz, true) else (Pz, a, false)) ∧
      ((d ≤ -473 ∧ b = false ∧ nat768 a = 1) ∨
       (-472 ≤ d ∧ d ≤ -239 ∧ b = false ∧
          RTO ((nat256 Sz : ℝ) * (2 : ℝ) ^ (d + 238)) (nat768 a)) ∨
       (-238 ≤ d ∧ nat768 a = nat256 Sz * 2 ^ (d + 238).toNat ∧ (d ≤ -1 → b = false) ∧
          (0 ≤ d → d ≤ 1 → b = decide (nat768 Pz < nat768 a)) ∧ (2 ≤ d → b = true))) := by
  have hro : (Fma.REL_OFFSET : ℤ) = 274 := by decide
  have hl1 : Fma.ADDEND_TOO_SMALL_UPPER_LIMIT = -473 := by decide
  have hl2 : Fma.ADDEND_ANCHORED_UPPER_LIMIT = 239 := by decide
  have exact_of (h : -238 ≤ d) : ∃ z, U768.fromU256Shifted Sz (274 - d).toNat = some z ∧
      nat768 z = nat256 Sz * 2 ^ (d + 238).toNat := by
    obtain ⟨z, h1, h2⟩ := fromShifted_exact Sz (s := (274 - d).toNat) (by omega)
    refine ⟨z, h1, ?_⟩
    rw [h2]; congr 2; omega
  unfold Fma.align
  rw [hro, hl1, hl2]
  by_cases c1 : d ≤ -473
  · rw [if_pos c1]
    exact ⟨U768.STICKY_BIT, false, rfl, Or.inl ⟨c1, rfl, by decide +kernel⟩⟩
  rw [if_neg c1]
  by_cases c2 : d ≤ -1
  · rw [if_pos c2]
    by_cases c3 : d ≤ -239
    · obtain ⟨z, h1, h2⟩ := fromShifted_sticky Sz (s := (274 - d).toNat) (by omega) (by omega)
      refine ⟨z, false, by rw [h1]; rfl, Or.inr (Or.inl ⟨by omega, c3, rfl, ?_⟩)⟩
      rw [h2]
      have hr := RTO.of_div (nat256 Sz) (b := 2 ^ ((274 - d).toNat - 512)) (Nat.two_pow_pos _)
      have e : (nat256 Sz : ℝ) * (2 : ℝ) ^ (d + 238) =
          (nat256 Sz : ℝ) / ((2 ^ ((274 - d).toNat - 512) : ℕ) : ℝ) := by
        rw [div_eq_mul_inv, Nat.cast_pow, Nat.cast_ofNat, ← zpow_natCast,
          show ((((274 - d).toNat - 512 : ℕ)) : ℤ) = -(d + 238) by omega, zpow_neg, inv_inv]
      rw [e]; exact hr
    · obtain ⟨z, h1, h2⟩ := exact_of (by omega)
      exact ⟨z, false, by rw [h1]; rfl, Or.inr (Or.inr ⟨by omega, h2, fun _ => rfl,
        fun _ => by omega, fun _ => by omega⟩)⟩
  rw [if_neg c2]
  obtain ⟨z, h1, h2⟩ := exact_of (by omega)
  rw [h1]
  by_cases c3 : d ≤ 1
  · rw [if_pos c3, Option.bind_some]
    refine ⟨z, decide (nat768 Pz < nat768 z), ?_, Or.inr (Or.inr ⟨by omega, h2, fun _ => by omega,
        fun _ _ => rfl, fun _ => by omega⟩)⟩
    rw [cmp768]
    by_cases c : nat768 Pz < nat768 z
    · rw [Nat.compare_eq_lt.mpr c, decide_eq_true c]; rfl
    · have : compare (nat768 Pz) (nat768 z) ≠ .lt := fun h => c (Nat.compare_eq_lt.mp h)
      rw [decide_eq_false c, if_pos (bne_iff_ne.mpr this)]; rfl
  rw [if_neg c3, if_pos hd]
  exact ⟨z, true, rfl, Or.inr (Or.inr ⟨by omega, h2, fun _ => by omega, fun _ => by omega,
    fun _ => rfl⟩)⟩

/-- The signed sum of product and addend, in units of the last place of the product. -/
noncomputable def fmaSum (sP sA P : ℕ) (A : ℝ) : ℝ := (-1) ^ sP * P + (-1) ^ sA * A

theorem fmaSum_same {sP sA P : ℕ} {A : ℝ} (h : sP = sA) (hs : sP ≤ 1) (hA : 0 ≤ A) :
    |fmaSum sP sA P A| = P + A ∧ (0 < fmaSum sP sA P A → sP = 0) ∧
      (fmaSum sP sA P A < 0 → sP = 1) := by
  have hP : (0 : ℝ) ≤ P := Nat.cast_nonneg _
  subst h
  unfold fmaSum
  rcases Nat.le_one_iff_eq_zero_or_eq_one.mp hs with h | h <;> subst h
  · rw [pow_zero, one_mul, one_mul, abs_of_nonneg (by linarith)]
    exact ⟨rfl, fun _ => rfl, fun h => by linarith⟩
  · rw [pow_one, abs_of_nonpos (by linarith)]
    exact ⟨by ring, fun h => by linarith, fun _ => rfl⟩

theorem fmaSum_p {sP sA P : ℕ} {A : ℝ} (h : sP ≠ sA) (hs : sP ≤ 1) (hs' : sA ≤ 1) (hA : A ≤ P) :
    |fmaSum sP sA P A| = P - A ∧ (0 < fmaSum sP sA P A → sP = 0) ∧
      (fmaSum sP sA P A < 0 → sP = 1) := by
  unfold fmaSum
  rcases Nat.le_one_iff_eq_zero_or_eq_one.mp hs with h' | h' <;> subst h'
  · obtain rfl : sA = 1 := by omega
    rw [pow_zero, one_mul, pow_one, abs_of_nonneg (by linarith)]
    exact ⟨by ring, fun _ => rfl, fun h => by linarith⟩
  · obtain rfl : sA = 0 := by omega
    rw [pow_zero, one_mul, pow_one, abs_of_nonpos (by linarith)]
    exact ⟨by ring, fun h => by linarith, fun _ => rfl⟩

theorem fmaSum_a {sP sA P : ℕ} {A : ℝ} (h : sP ≠ sA) (hs : sP ≤ 1) (hs' : sA ≤ 1) (hA : P ≤ A) :
    |fmaSum sP sA P A| = A - P ∧ (0 < fmaSum sP sA P A → sA = 0) ∧
      (fmaSum sP sA P A < 0 → sA = 1) := by
  unfold fmaSum
  rcases Nat.le_one_iff_eq_zero_or_eq_one.mp hs with h' | h' <;> subst h'
  · obtain rfl : sA = 1 := by omega
    rw [pow_zero, one_mul, pow_one, abs_of_nonpos (by linarith)]
    exact ⟨by ring, fun h => by linarith, fun _ => rfl⟩
  · obtain rfl : sA = 0 := by omega
    rw [pow_zero, one_mul, pow_one, abs_of_nonneg (by linarith)]
    exact ⟨by ring, fun _ => rfl, fun h => by linarith⟩

/-- The sum computed by the code stands for the exact one. -/
theorem fma_sum {Pz : U768} {Sz : U256} {d : ℤ} {sP sA : ℕ} (hd : d ≤ 239)
    (hP4 : nat768 Pz % 4 = 0) (hP : nat768 Pz < 2 ^ 476) (hS0 : nat256 Sz ≠ 0)
    (hS : nat256 Sz < 2 ^ 237) (hsP : sP ≤ 1) (hsA : sA ≤ 1)
    (hbig : d ≤ -239 → 2 ^ 240 ≤ nat768 Pz ∨ (sP = sA ∧ 2 ^ 239 ≤ nat768 Pz))
    (hord : sP ≠ sA → (d ≤ -1 → (nat256 Sz : ℝ) * (2 : ℝ) ^ (d + 238) ≤ nat768 Pz) ∧
      (2 ≤ d → (nat768 Pz : ℝ) ≤ nat256 Sz * (2 : ℝ) ^ (d + 238))) :
    ∃ (z t : U768) (b : Bool), Fma.align Pz Sz d = some (z, t, b) ∧
      ∀ Z, (if sP = sA then U768.iadd z t else U768.isub z t) = Z →
      Near |fmaSum sP sA (nat768 Pz) (nat256 Sz * (2 : ℝ) ^ (d + 238))| (nat768 Z) ∧
      nat768 Z < 2 ^ 749 ∧
      (0 < fmaSum sP sA (nat768 Pz) (nat256 Sz * (2 : ℝ) ^ (d + 238)) →
        (if b then sA else sP) = 0) ∧
      (fmaSum sP sA (nat768 Pz) (nat256 Sz * (2 : ℝ) ^ (d + 238)) < 0 →
        (if b then sA else sP) = 1) := by
  obtain ⟨a, b, hal, hcase⟩ := fma_align Pz Sz hd
  have hA0 : (0 : ℝ) < (nat256 Sz : ℝ) * (2 : ℝ) ^ (d + 238) :=
    mul_pos (by exact_mod_cast Nat.pos_of_ne_zero hS0) (zpow_pos (by norm_num) _)
  have hSr : (nat256 Sz : ℝ) < 2 ^ 237 := by exact_mod_cast hS
  obtain ⟨A, hA⟩ : ∃ A : ℝ, A = (nat256 Sz : ℝ) * (2 : ℝ) ^ (d + 238) := ⟨_, rfl⟩
  obtain ⟨P, hPdef⟩ : ∃ P, P = nat768 Pz := ⟨_, rfl⟩
  -- size of the placed addend
  have hasz : nat768 a < 2 ^ 714 ∧ (d ≤ -239 → nat768 a ≤ 2 ^ 237) ∧ (-238 ≤ d → A = nat768 a) := by
    have p1 : 2 ^ 237 < 2 ^ 714 := Nat.pow_lt_pow_right (by norm_num) (by norm_num)
    rcases hcase with ⟨h1, -, h2⟩ | ⟨h1, h1', -, h2⟩ | ⟨h1, h2, -⟩
    · rw [h2]
      exact ⟨by omega, fun _ => by omega, fun _ => by omega⟩
    · have hlt : (nat256 Sz : ℝ) * (2 : ℝ) ^ (d + 238) < ((2 ^ 237 : ℕ) : ℝ) := by
        have : (2 : ℝ) ^ (d + 238) ≤ 1 := zpow_le_one_of_nonpos₀ (by norm_num) (by omega)
        rw [Nat.cast_pow, Nat.cast_ofNat]
        calc _ ≤ (nat256 Sz : ℝ) * 1 := mul_le_mul_of_nonneg_left this (Nat.cast_nonneg _)
          _ < _ := by rw [mul_one]; exact hSr
      have := h2.lt' (m := 2 ^ 237) (by norm_num) hlt
      exact ⟨by omega, fun _ => this.le, fun _ => by omega⟩
    · refine ⟨?_, fun _ => by omega, fun _ => ?_⟩
      · rw [h2]
        calc nat256 Sz * 2 ^ (d + 238).toNat < 2 ^ 237 * 2 ^ (d + 238).toNat :=
              Nat.mul_lt_mul_of_pos_right hS (Nat.two_pow_pos _)
          _ = 2 ^ (237 + (d + 238).toNat) := by rw [Nat.pow_add]
          _ ≤ 2 ^ 714 := Nat.pow_le_pow_right (by norm_num) (by omega)
      · rw [hA, h2, Nat.cast_mul, Nat.cast_pow, Nat.cast_ofNat, ← zpow_natCast]
        congr 2
        omega
  obtain ⟨as1, as2, as3⟩ := hasz
  have q1 : (2 : ℕ) ^ 714 + 2 ^ 476 < 2 ^ 749 := by
    have r1 : 2 ^ 476 < 2 ^ 714 := Nat.pow_lt_pow_right (by norm_num) (by norm_num)
    have r2 : 2 ^ 715 < 2 ^ 749 := Nat.pow_lt_pow_right (by norm_num) (by norm_num)
    have r3 : 2 ^ 715 = 2 * 2 ^ 714 := by rw [← Nat.pow_succ']
    omega
  have q2 : (2 : ℕ) ^ 749 < 2 ^ 768 := Nat.pow_lt_pow_right (by norm_num) (by norm_num)
  have ed : b = true → -238 ≤ d := by
    intro hb
    rcases hcase with ⟨-, h, -⟩ | ⟨-, -, h, -⟩ | ⟨h, -⟩
    · rw [hb] at h; exact absurd h (by decide)
    · rw [hb] at h; exact absurd h (by decide)
    · exact h
  -- the lossy cases
  have lossy : d ≤ -239 → b = false ∧ 0 < A ∧ A < 2 ^ 237 ∧
      Near (P + A) (P + nat768 a) ∧ (2 ^ 240 ≤ P → Near (P - A) (P - nat768 a)) := by
    intro hle
    have hbig' := hbig hle
    rw [← hPdef] at hbig' hP4
    rw [← hA] at hA0
    rcases hcase with ⟨h1, hb, h2⟩ | ⟨h1, h1', hb, h2⟩ | ⟨h1, h2, -⟩
    · have hA4 : A < 4 := by
        rw [hA]
        have h4 : (2 : ℝ) ^ (d + 238) ≤ (2 : ℝ) ^ (-235 : ℤ) :=
          zpow_le_zpow_right₀ (by norm_num) (by omega)
        calc (nat256 Sz : ℝ) * (2 : ℝ) ^ (d + 238)
            ≤ (nat256 Sz : ℝ) * (2 : ℝ) ^ (-235 : ℤ) :=
              mul_le_mul_of_nonneg_left h4 (Nat.cast_nonneg _)
          _ < 2 ^ 237 * (2 : ℝ) ^ (-235 : ℤ) :=
              mul_lt_mul_of_pos_right hSr (zpow_pos (by norm_num) _)
          _ = 4 := by norm_num
      have hb237 : (4 : ℝ) ≤ 2 ^ 237 := by norm_num
      obtain ⟨m, hm⟩ : ∃ m, P = 4 * m := ⟨P / 4, by omega⟩
      have hmr : (P : ℝ) = 4 * m := by exact_mod_cast hm
      rw [h2]
      refine ⟨hb, hA0, by linarith, Near.of_four (m := m) (by omega) (by linarith) (by linarith)
        (by omega) (by omega), fun h240 => ?_⟩
      have hm1 : 1 ≤ m := by omega
      have hmr2 : ((m - 1 : ℕ) : ℝ) = m - 1 := by push_cast [hm1]; rfl
      refine Near.of_four (m := m - 1) (by omega) ?_ ?_ (by omega) (by omega)
      · rw [hmr2]; linarith
      · rw [hmr2]; linarith
    · rw [← hA] at h2
      have hAlt : A < 2 ^ 237 := by
        have : (2 : ℝ) ^ (d + 238) ≤ 1 := zpow_le_one_of_nonpos₀ (by norm_num) (by omega)
        rw [hA]
        calc _ ≤ (nat256 Sz : ℝ) * 1 := mul_le_mul_of_nonneg_left this (Nat.cast_nonneg _)
          _ < _ := by rw [mul_one]; exact hSr
      have ha := as2 hle
      exact ⟨hb, hA0, hAlt, Near.of_rto (h2.add_even (by omega)) (by omega),
        fun h240 => Near.of_rto (h2.sub_even (by omega) (by omega)) (by omega)⟩
    · omega
  refine ⟨_, _, _, by rw [hal], ?_⟩
  rintro Z rfl
  rw [← hA] at hord ⊢
  rw [← hPdef] at hord ⊢ hP hbig
  have hzz : ∀ b : Bool, (if b = true then (a, Pz, true) else (Pz, a, false)).1 =
      if b then a else Pz := by intro b; cases b <;> rfl
  have htt : ∀ b : Bool, (if b = true then (a, Pz, true) else (Pz, a, false)).2.1 =
      if b then Pz else a := by intro b; cases b <;> rfl
  have hbb : ∀ b : Bool, (if b = true then (a, Pz, true) else (Pz, a, false)).2.2 = b := by
    intro b; cases b <;> rfl
  rw [hzz, htt, hbb]
  by_cases hsame : sP = sA
  · rw [if_pos hsame]
    obtain ⟨e1, e2, e3⟩ := fmaSum_same (P := P) (A := A) hsame hsP (by rw [hA]; exact hA0.le)
    have hsb : (if b = true then sA else sP) = sP := by rw [hsame, ite_self]
    have hz : nat768 (U768.iadd (if b then a else Pz) (if b then Pz else a)) = P + nat768 a := by
      cases b
      · have := iadd768 (x := Pz) (y := a) (by rw [← hPdef]; omega)
        rw [hPdef]; exact this
      · have := iadd768 (x := a) (y := Pz) (by rw [← hPdef]; omega)
        rw [hPdef, Nat.add_comm]; exact this
    rw [hz, e1, hsb]
    refine ⟨?_, by omega, e2, e3⟩
    by_cases hle : d ≤ -239
    · exact (lossy hle).2.2.2.1
    · left; rw [as3 (by omega)]; push_cast; rfl
  · rw [if_neg hsame]
    obtain ⟨o1, o2⟩ := hord hsame
    cases hbc : b
    · -- product minus addend
      have hAP : A ≤ P := by
        by_cases hle : d ≤ -1
        · exact o1 hle
        · rcases hcase with ⟨h, -⟩ | ⟨-, h, -⟩ | ⟨h1, h2, -, h3, h4⟩
          · omega
          · omega
          · by_cases h2' : 2 ≤ d
            · rw [h4 h2'] at hbc; exact absurd hbc (by decide)
            · have := h3 (by omega) (by omega)
              rw [hbc, ← hPdef] at this
              have hnl := of_decide_eq_false this.symm
              rw [as3 h1]
              exact_mod_cast Nat.le_of_not_lt hnl
      obtain ⟨e1, e2, e3⟩ := fmaSum_p hsame hsP hsA hAP
      have haP : nat768 a ≤ P := by
        by_cases hle : d ≤ -239
        · have := as2 hle
          have := (hbig hle).resolve_right (fun h => hsame h.1)
          omega
        · have h := as3 (by omega)
          rw [h] at hAP
          exact_mod_cast hAP
      have hz : nat768 (U768.isub Pz a) = P - nat768 a := by
        rw [hPdef]; exact isub768 (by rw [← hPdef]; exact haP)
      show Near _ (nat768 (U768.isub Pz a)) ∧ nat768 (U768.isub Pz a) < _ ∧ _
      rw [hz, e1]
      refine ⟨?_, by omega, e2, e3⟩
      by_cases hle : d ≤ -239
      · exact (lossy hle).2.2.2.2 ((hbig hle).resolve_right (fun h => hsame h.1))
      · left
        rw [as3 (by omega)]; push_cast [haP]; rfl
    · -- addend minus product
      have hex := ed hbc
      have hAP : (P : ℝ) ≤ A := by
        rcases hcase with ⟨h, -⟩ | ⟨-, h, -⟩ | ⟨h1, h2, h2', h3, h4⟩
        · omega
        · omega
        · by_cases hle : d ≤ -1
          · rw [h2' hle] at hbc; exact absurd hbc (by decide)
          · by_cases h2' : 2 ≤ d
            · exact o2 h2'
            · have := h3 (by omega) (by omega)
              rw [hbc, ← hPdef] at this
              have hnl := of_decide_eq_true this.symm
              rw [as3 h1]
              exact_mod_cast hnl.le
      obtain ⟨e1, e2, e3⟩ := fmaSum_a hsame hsP hsA hAP
      have haP : P ≤ nat768 a := by
        have h := as3 hex
        rw [h] at hAP
        exact_mod_cast hAP
      have hz : nat768 (U768.isub a Pz) = nat768 a - P := by
        rw [hPdef]; exact isub768 (by rw [← hPdef]; exact haP)
      show Near _ (nat768 (U768.isub a Pz)) ∧ nat768 (U768.isub a Pz) < _ ∧ _
      rw [hz, e1]
      refine ⟨?_, by omega, e2, e3⟩
      left
      rw [as3 hex]; push_cast [haP]; rfl

end Verif
