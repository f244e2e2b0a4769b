import Verif.Proofs.BigDiv
import Verif.Proofs.New

/-!
# The conversions between `FP492`, `BigFloat` and `f256`
-/

set_option exponentiation.threshold 2000

namespace Verif.BigFloat

open BigUInt LawfulBigUInt Spec

theorem bf_pat {Q : U256} {t : ℕ} {s : Bool} {up : Bool} (hQ : nat256 Q < 2 ^ 237) (ht : t ≤ 524285) :
    nat256 (⟨(BigUInt.incrIf (⟨Q.hi + (BitVec.ofNat 128 t <<< 108), Q.lo⟩ : U256) up).hi ||| (boolU128 s <<< 127),
      (BigUInt.incrIf (⟨Q.hi + (BitVec.ofNat 128 t <<< 108), Q.lo⟩ : U256) up).lo⟩ : U256) =
      s.toNat * 2 ^ 255 + (t * 2 ^ 236 + (nat256 Q + up.toNat)) := by
  have hu := bool_toNat_le up
  have eQ : nat256 Q = Q.hi.toNat * 2 ^ 128 + Q.lo.toNat := rfl
  have hl := Q.lo.isLt
  have h1 : (Q.hi + (BitVec.ofNat 128 t <<< 108)).toNat = Q.hi.toNat + t * 2 ^ 108 := by
    rw [BitVec.toNat_add, BitVec.toNat_shiftLeft, BitVec.toNat_ofNat, Nat.shiftLeft_eq]
    omega
  have h2 : nat256 (⟨Q.hi + (BitVec.ofNat 128 t <<< 108), Q.lo⟩ : U256) = t * 2 ^ 236 + nat256 Q := by
    show (Q.hi + (BitVec.ofNat 128 t <<< 108)).toNat * 2 ^ 128 + Q.lo.toNat = _
    rw [h1, eQ]; omega
  obtain ⟨w, hw⟩ : ∃ w : U256, w = BigUInt.incrIf (⟨Q.hi + (BitVec.ofNat 128 t <<< 108), Q.lo⟩ : U256) up := ⟨_, rfl⟩
  have h3 : nat256 w = t * 2 ^ 236 + (nat256 Q + up.toNat) := by
    rw [hw, nat_incrIf256, h2, Nat.mod_eq_of_lt (by omega)]; omega
  rw [← hw]
  have ew : nat256 w = w.hi.toNat * 2 ^ 128 + w.lo.toNat := rfl
  have hwl := w.lo.isLt
  have hwh : w.hi.toNat < 2 ^ 127 := by omega
  show (w.hi ||| (boolU128 s <<< 127)).toNat * 2 ^ 128 + w.lo.toNat = _
  have h4 : (w.hi ||| (boolU128 s <<< 127)).toNat = s.toNat * 2 ^ 127 + w.hi.toNat := by
    rw [BitVec.toNat_or, BitVec.toNat_shiftLeft, toNat_bool, Nat.shiftLeft_eq]
    have : s.toNat * 2 ^ 127 % 2 ^ 128 = s.toNat * 2 ^ 127 := by cases s <;> rfl
    rw [this, or_disjoint' hwh]
  rw [h4]
  omega

theorem bf_shift (n : ℕ) : n * 2 ^ 238 % 2 ^ 256 = n % 2 ^ 18 * 2 ^ 238 := by omega

theorem bf_gt (m : ℕ) : 2 ^ 255 < m * 2 ^ 238 ↔ 2 ^ 18 < 2 * m := by omega

theorem bf_eq (m : ℕ) : m * 2 ^ 238 = 2 ^ 255 ↔ 2 * m = 2 ^ 18 := by omega

theorem bf_bool (q : ℕ) (P R S : Prop) [Decidable P] [Decidable R] [Decidable S] :
    q + (decide P || (decide R && decide S)).toNat = if P ∨ R ∧ S then q + 1 else q := by
  by_cases hP : P <;> by_cases hR : R <;> by_cases hS : S <;> simp [hP, hR, hS]

/-- The rounding of the significand -/
theorem bf_round (x : U256) : ∃ up : Bool, (BigUInt.gt (UInt.shl x 238) TIE || (BigUInt.beq (UInt.shl x 238) TIE &&
    decide (nat256 x / 2 ^ 18 % 2 = 1))) = up ∧ nat256 x / 2 ^ 18 + up.toNat = Spec.rne (nat256 x) (2 ^ 18) := by
  refine ⟨_, rfl, ?_⟩
  rw [gt256, beq256, TIE_nat, nat_shl256 _ (by norm_num), bf_shift, decide_eq_decide.mpr (bf_gt _),
    decide_eq_decide.mpr (bf_eq _), bf_bool]
  rfl

theorem odd_lo (z : U256) : BigUInt.isOdd z.lo = decide (nat256 z % 2 = 1) := by
  rw [LawfulBigUInt.isOdd_eq (α := U128)]
  have e : nat256 z = z.hi.toNat * 2 ^ 128 + z.lo.toNat := rfl
  have e2 : toNat z.lo = z.lo.toNat := rfl
  rw [e2, e, decide_eq_decide]
  omega

theorem incrIf_eq (z : U256) (c : Bool) : BigUInt.incrIf z c = if c = true then UInt.incr z else z := by
  refine nat256_inj ?_
  rw [nat_incrIf256]
  cases c with
  | false => rw [if_neg (by simp), Bool.toNat_false, Nat.add_zero, Nat.mod_eq_of_lt (nat256_lt z)]
  | true => rw [if_pos rfl, nat_incr256, Bool.toNat_true]

theorem bf_scale {t : ℕ} {e : ℤ} (n : ℝ) (ht : (t : ℤ) = e + 262142) :
    n * (2 : ℝ) ^ (e - 254) * 2 ^ 262378 = n / 2 ^ 18 * 2 ^ t := by
  have h (K : ℕ) (hK : (K : ℤ) = 262378) : (2 : ℝ) ^ (e - 254) * 2 ^ K = 2 ^ t / 2 ^ 18 := by
    rw [← zpow_natCast, ← zpow_natCast, ← zpow_natCast, ← zpow_add₀ (by norm_num), ← zpow_sub₀ (by norm_num), hK]
    congr 1
    push_cast
    omega
  rw [mul_assoc, h _ rfl]
  ring

/-- The conversion to `f256` rounds correctly. -/
theorem toF256_spec {x : BigFloat} (hx : Norm x) (h1 : -262142 ≤ x.exp) (h2 : x.exp ≤ 262143) :
    IsRNE (bval x) (toF256 x).pat := by
  obtain ⟨t, ht⟩ : ∃ t : ℕ, (t : ℤ) = x.exp + 262142 := ⟨(x.exp + 262142).toNat, by omega⟩
  have hz : x.isZero = false := isZero_false hx.1
  have hv : |bval x| * 2 ^ 262378 = (nat256 x.signif : ℝ) / 2 ^ 18 * 2 ^ t := by
    rw [bval_abs hx.1]
    exact bf_scale _ ht
  obtain ⟨up, hup, hrne⟩ := bf_round x.signif
  obtain ⟨s, hs⟩ : ∃ s, s = decide (x.signum < 0) := ⟨_, rfl⟩
  have hQ : nat256 (UInt.shr x.signif 18) = nat256 x.signif / 2 ^ 18 := nat_shr256 _ (by norm_num)
  have hQl : nat256 (UInt.shr x.signif 18) < 2 ^ 237 := by
    rw [hQ]
    have := hx.2.2
    omega
  have hpat : (toF256 x).pat = s.toNat * 2 ^ 255 + (t * 2 ^ 236 + (nat256 x.signif / 2 ^ 18 + up.toNat)) := by
    rw [← hQ, ← bf_pat hQl (by omega : t ≤ 524285), pat_eq]
    refine congrArg nat256 ?_
    unfold toF256
    have hE1 : EMIN = -262142 := rfl
    have hE2 : EMAX = 262143 := rfl
    have hE3 : (EXP_BIAS : ℤ) = 262143 := rfl
    rw [hz, if_neg (by simp), hE1, hE2, hE3, if_neg (by omega), if_neg (by omega), if_pos h2,
      show ((262143 : ℤ) + (x.exp - 1)).toNat = t by omega, ← hs]
    have hw : UInt.wideningShr x.signif 18 = (UInt.shr x.signif 18, UInt.shl x.signif 238) := rfl
    rw [hw]
    dsimp only
    rw [odd_lo, hQ, hup, incrIf_eq]
  rw [hpat, hrne]
  have hr := RNE.of_rne (nat256 x.signif) (Nat.two_pow_pos 18)
  rw [Nat.cast_pow, Nat.cast_ofNat] at hr
  have w1 : (2 : ℝ) ^ 236 ≤ nat256 x.signif / 2 ^ 18 := by
    rw [le_div_iff₀ (by positivity), ← pow_add]; exact_mod_cast hx.2.1
  have w2 : (nat256 x.signif : ℝ) / 2 ^ 18 < 2 ^ 237 := by
    rw [div_lt_iff₀ (by positivity), ← pow_add]; exact_mod_cast hx.2.2
  have hR := RoundsTo.of_rne (v := |bval x| * 2 ^ 262378) (t := t) hv w2 (Or.inr w1) hr (by omega)
  have hsig : bval x = x.signum * |bval x| := by
    rw [bval_abs hx.1, bval]; ring
  have hpos : 0 < |bval x| := abs_pos.mpr hx.weaken.ne_zero
  refine hR.isRNE (bool_toNat_le s) (fun h => ?_) (fun h => ?_)
  · rcases hx.1 with h' | h'
    · rw [hs, h']; rfl
    · rw [hsig, h'] at h; push_cast at h; linarith
  · rcases hx.1 with h' | h'
    · rw [hsig, h'] at h; push_cast at h; linarith
    · rw [hs, h']; rfl

end Verif.BigFloat

namespace Verif.FP492

open BigUInt LawfulBigUInt Spec BigFloat

/-- `rne` moves by at most half a unit -/
theorem rne_close (a k : ℕ) : |((Spec.rne a (2 ^ k) : ℕ) : ℝ) * 2 ^ k - a| ≤ 2 ^ k / 2 := by
  have h := (RNE.of_rne a (Nat.two_pow_pos k)).1
  rw [Nat.cast_pow, Nat.cast_ofNat] at h
  have hp : (0 : ℝ) < 2 ^ k := by positivity
  have e : ((Spec.rne a (2 ^ k) : ℕ) : ℝ) * 2 ^ k - a = -((a / 2 ^ k - (Spec.rne a (2 ^ k) : ℕ)) * 2 ^ k) := by
    field_simp
    ring
  rw [e, abs_neg, abs_mul, abs_of_pos hp]
  have := mul_le_mul_of_nonneg_right h hp.le
  linarith

/-- The magnitude as significand and exponent -/
theorem toBig_mag {a : FP492} {k : ℕ} {s : ℤ} (hk : k ≤ 510) (h1 : 2 ^ k ≤ UInt.nat a) (h2 : UInt.nat a < 2 ^ (k + 1)) :
    ∃ (e : ℤ) (z : U256), (if UInt.leadingZeros a ≤ 256 then
        let a' := UInt.roundingDivPow2 a (257 - UInt.leadingZeros a)
        let sh := 1 - UInt.leadingZeros a'.lo
        (⟨s, 19 - (UInt.leadingZeros a : ℤ) + sh, UInt.shr a'.lo sh⟩ : BigFloat)
      else if UInt.leadingZeros a = 257 then ⟨s, 19 - (UInt.leadingZeros a : ℤ), a.lo⟩
      else if UInt.leadingZeros a ≤ 511 then ⟨s, 19 - (UInt.leadingZeros a : ℤ), (UInt.shl a (UInt.leadingZeros a - 257)).lo⟩
      else BigFloat.ZERO) = ⟨s, e, z⟩ ∧ 2 ^ 254 ≤ nat256 z ∧ nat256 z < 2 ^ 255 ∧
      |(nat256 z : ℝ) * (2 : ℝ) ^ (e - 254) - (UInt.nat a : ℝ) / 2 ^ 492| ≤ (UInt.nat a : ℝ) / 2 ^ 492 / 2 ^ 254 := by
  have hl := lz512_of h1 h2
  rw [hl]
  have hW : (2 : ℝ) ^ 492 = (2 : ℝ) ^ ((492 : ℕ) : ℤ) := (zpow_natCast _ _).symm
  rcases Nat.lt_or_ge 254 k with c | c
  · rw [if_pos (by omega), show 257 - (511 - k) = k - 254 by omega]
    obtain ⟨r1, r2, r3⟩ := fmaSub_big rfl hk h1 h2 c.le
    obtain ⟨v, hv⟩ : ∃ v, v = (UInt.roundingDivPow2 a (k - 254)).lo := ⟨_, rfl⟩
    obtain ⟨n, hn⟩ : ∃ n, n = Spec.rne (UInt.nat a) (2 ^ (k - 254)) := ⟨_, rfl⟩
    have hcl := rne_close (UInt.nat a) (k - 254)
    rw [← hv, ← hn] at r1
    rw [← hn] at r2 r3 hcl
    obtain ⟨j, hj1, hj2, hj3, hj4, hj5⟩ := fmaAdd_shift r1 r2 r3
    have hj : 1 - UInt.leadingZeros v = j := by
      rw [← hj2]
      by_cases h0 : UInt.leadingZeros v = 0
      · rw [h0]; rfl
      · rw [if_neg h0]; omega
    dsimp only
    rw [← hv, hj]
    refine ⟨_, _, rfl, hj4, hj5, ?_⟩
    have e1 : (nat256 (UInt.shr v j) : ℝ) * (2 : ℝ) ^ (19 - ((511 - k : ℕ) : ℤ) + j - 254) =
        (n : ℝ) * 2 ^ (k - 254) / 2 ^ 492 := by
      have hnR : (n : ℝ) = (nat256 (UInt.shr v j) : ℝ) * 2 ^ j := by exact_mod_cast hj3.symm
      rw [hnR, hW, ← zpow_natCast, ← zpow_natCast, mul_assoc, mul_div_assoc, ← zpow_add₀ (by norm_num),
        ← zpow_sub₀ (by norm_num)]
      refine congrArg (fun t : ℤ => (nat256 (UInt.shr v j) : ℝ) * (2 : ℝ) ^ t) ?_
      omega
    rw [e1, ← sub_div, abs_div, abs_of_pos (by positivity : (0 : ℝ) < 2 ^ 492), div_right_comm]
    refine div_le_div_of_nonneg_right (hcl.trans ?_) (by positivity)
    have h1R : (2 : ℝ) ^ k ≤ UInt.nat a := by exact_mod_cast h1
    rw [le_div_iff₀ (by positivity)]
    have e2 : (2 : ℝ) ^ k = 2 ^ (k - 254) * 2 ^ 254 := by rw [← pow_add]; congr 1; omega
    rw [e2] at h1R
    have : (0 : ℝ) < 2 ^ (k - 254) * 2 ^ 254 := by positivity
    linarith
  · rw [if_neg (by omega)]
    have hs : nat256 (UInt.shl a (254 - k)).lo = UInt.nat a * 2 ^ (254 - k) ∧ UInt.nat a * 2 ^ (254 - k) < 2 ^ 255 ∧
        2 ^ 254 ≤ UInt.nat a * 2 ^ (254 - k) := by
      have l1 : UInt.nat a * 2 ^ (254 - k) < 2 ^ 255 := by
        have := Nat.mul_lt_mul_of_pos_right h2 (Nat.two_pow_pos (254 - k))
        rwa [← Nat.pow_add, show k + 1 + (254 - k) = 255 by omega] at this
      have l2 : 2 ^ 254 ≤ UInt.nat a * 2 ^ (254 - k) := by
        have := Nat.mul_le_mul_right (2 ^ (254 - k)) h1
        rwa [← Nat.pow_add, show k + (254 - k) = 254 by omega] at this
      refine ⟨?_, l1, l2⟩
      have e : UInt.nat (UInt.shl a (254 - k)) = UInt.nat a * 2 ^ (254 - k) := by
        rw [nat_shl512 _ (by omega), Nat.mod_eq_of_lt]
        exact l1.trans (by norm_num)
      rw [lo_of_lt, e]
      rw [e]
      exact l1.trans (by norm_num)
    have fin : ∀ z : U256, nat256 z = UInt.nat a * 2 ^ (254 - k) →
        |(nat256 z : ℝ) * (2 : ℝ) ^ (19 - ((511 - k : ℕ) : ℤ) - 254) - (UInt.nat a : ℝ) / 2 ^ 492| ≤
        (UInt.nat a : ℝ) / 2 ^ 492 / 2 ^ 254 := by
      intro z hz
      have e1 : (nat256 z : ℝ) * (2 : ℝ) ^ (19 - ((511 - k : ℕ) : ℤ) - 254) = (UInt.nat a : ℝ) / 2 ^ 492 := by
        have hp : (((2 : ℕ) ^ (254 - k) : ℕ) : ℝ) = (2 : ℝ) ^ ((254 - k : ℕ) : ℤ) := by
          rw [zpow_natCast]; exact Nat.cast_pow 2 _
        rw [hz, Nat.cast_mul, hp, hW, mul_assoc, ← zpow_add₀ (by norm_num),
          div_eq_mul_inv, ← zpow_neg,
          show ((254 - k : ℕ) : ℤ) + (19 - ((511 - k : ℕ) : ℤ) - 254) = -((492 : ℕ) : ℤ) by omega]
      rw [e1, sub_self, abs_zero]
      exact div_nonneg (div_nonneg (Nat.cast_nonneg _) (pow_nonneg zero_le_two _)) (pow_nonneg zero_le_two _)
    rcases Nat.lt_or_ge k 254 with c' | c'
    · rw [if_neg (by omega), if_pos (by omega), show 511 - k - 257 = 254 - k by omega]
      refine ⟨_, _, rfl, ?_, ?_, fin _ hs.1⟩
      · rw [hs.1]; exact hs.2.2
      · rw [hs.1]; exact hs.2.1
    · have hk4 : k = 254 := by omega
      have hlo : nat256 a.lo = UInt.nat a * 2 ^ (254 - k) := by
        rw [hk4] at h2
        rw [lo_of_lt (h2.trans (by norm_num)), hk4, Nat.sub_self, pow_zero, Nat.mul_one]
      rw [if_pos (by omega)]
      refine ⟨_, _, rfl, ?_, ?_, fin _ hlo⟩
      · rw [hlo]; exact hs.2.2
      · rw [hlo]; exact hs.2.1

theorem toBigFloat_spec {v : FP492} (h0 : sval v ≠ 0) (hb : (sval v).natAbs ≤ 2 ^ 500) :
    Norm (toBigFloat v) ∧ |bval (toBigFloat v) - (sval v : ℝ) / 2 ^ 492| ≤ |(sval v : ℝ) / 2 ^ 492| / 2 ^ 254 := by
  obtain ⟨a, ha⟩ : ∃ a, a = if 0 ≤ signum v then v else ineg v := ⟨_, rfl⟩
  have han : UInt.nat a = (sval v).natAbs := by
    rw [ha, ← nat_iabs, signum_eq]
    unfold iabs
    rw [isSignNegative_eq]
    by_cases h : sval v < 0
    · rw [decide_eq_true h, if_pos rfl, if_neg (by rw [Int.sign_nonneg_iff]; omega)]
    · rw [decide_eq_false h, if_pos (Int.sign_nonneg_iff.mpr (not_lt.mp h)), if_neg Bool.false_ne_true]
  have ha0 : UInt.nat a ≠ 0 := by rw [han]; omega
  obtain ⟨k, hk, h1, h2⟩ := exists_log ha0 (b := 501) (by rw [han]; exact lt_of_le_of_lt hb (by norm_num))
  obtain ⟨e, z, hz, z1, z2, z3⟩ := toBig_mag (s := signum v) (by omega) h1 h2
  have ht : toBigFloat v = ⟨signum v, e, z⟩ := by
    rw [← hz, ha]
    rfl
  have hsg : Sgn (signum v) := by
    rw [signum_eq]
    rcases lt_or_gt_of_ne h0 with h | h
    · exact Or.inr (Int.sign_eq_neg_one_of_neg h)
    · exact Or.inl (Int.sign_eq_one_of_pos h)
  rw [ht]
  refine ⟨⟨hsg, z1, z2⟩, ?_⟩
  have hv : (sval v : ℝ) = (signum v : ℝ) * (UInt.nat a : ℝ) := by
    rw [han, signum_eq]
    have := congrArg (Int.cast : ℤ → ℝ) (Int.sign_mul_natAbs (sval v))
    rw [Int.cast_mul, Int.cast_natCast] at this
    exact this.symm
  have e1 : bval ⟨signum v, e, z⟩ - (sval v : ℝ) / 2 ^ 492 =
      signum v * ((nat256 z : ℝ) * (2 : ℝ) ^ (e - 254) - (UInt.nat a : ℝ) / 2 ^ 492) := by
    rw [hv, bval]
    ring
  rw [e1, abs_mul, sgn_abs hsg, one_mul, hv, mul_div_assoc, abs_mul, sgn_abs hsg, one_mul,
    abs_of_nonneg (by positivity : (0 : ℝ) ≤ (UInt.nat a : ℝ) / 2 ^ 492)]
  exact z3

end Verif.FP492
