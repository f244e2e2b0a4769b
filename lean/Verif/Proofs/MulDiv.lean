import Verif.Model.Mul
import Verif.Proofs.RemPow2
import Verif.Proofs.Add
import Verif.Proofs.Round2

/-!
# Shared parts of multiplication and division: rounding bits and assembly
-/

namespace Verif

open BigUInt LawfulBigUInt

/-- The rounding bits describe the position of the fraction `f` relative to one half. -/
def RndOK (f : ℝ) (rb : ℕ) : Prop := (2 < rb ↔ 1 / 2 < f) ∧ (rb = 2 ↔ f = 1 / 2)

theorem RNE.of_rnd {z rb : ℕ} {f : ℝ} (h0 : 0 ≤ f) (h1 : f < 1) (h : RndOK f rb) :
    RNE (z + f) (z + (decide (2 < rb ∨ (rb = 2 ∧ z % 2 = 1))).toNat) := by
  obtain ⟨ha, hb⟩ := h
  by_cases hc : 2 < rb ∨ (rb = 2 ∧ z % 2 = 1)
  · rw [decide_eq_true hc, Bool.toNat_true]
    have e : (z : ℝ) + f - ((z + 1 : ℕ) : ℝ) = -(1 - f) := by push_cast; ring
    unfold RNE
    rw [e, abs_neg, abs_of_pos (by linarith)]
    rcases hc with hc | ⟨hc, ho⟩
    · have := ha.mp hc
      exact ⟨by linarith, fun h => absurd h (by linarith)⟩
    · have := hb.mp hc
      exact ⟨by linarith, fun _ => by omega⟩
  · rw [decide_eq_false hc, Bool.toNat_false, Nat.add_zero]
    unfold RNE
    rw [add_sub_cancel_left, abs_of_nonneg h0]
    refine ⟨?_, fun hf => ?_⟩
    · by_contra hcon
      exact hc (Or.inl (ha.mpr (not_le.mp hcon)))
    · have := hb.mpr hf
      omega

theorem or_bit (a c : ℕ) (hc : c ≤ 1) : a ||| c = a / 2 * 2 + max (a % 2) c := by
  rcases Nat.le_one_iff_eq_zero_or_eq_one.mp hc with rfl | rfl
  · exact or_bool a false
  · exact or_bool a true

/-- Two leading bits, "above half" and sticky. -/
theorem rnd_combine {m s rb : ℕ} (hs : 2 ≤ s) (hm : m < 2 ^ s) (c : ℕ)
    (hc : c = (decide (2 ^ (s - 1) < m)).toNat) (st : ℕ) (hst : st = (decide (rb ≠ 0)).toNat) :
    (2 < (m / 2 ^ (s - 2) ||| c ||| st) ↔ 2 ^ (s - 1) < m ∨ (m = 2 ^ (s - 1) ∧ rb ≠ 0)) ∧
    ((m / 2 ^ (s - 2) ||| c ||| st) = 2 ↔ m = 2 ^ (s - 1) ∧ rb = 0) := by
  have hc1 : c ≤ 1 := by rw [hc]; exact bool_toNat_le _
  have hst1 : st ≤ 1 := by rw [hst]; exact bool_toNat_le _
  have hcv : c = 1 ↔ 2 ^ (s - 1) < m := by
    rw [hc]
    by_cases h : 2 ^ (s - 1) < m
    · rw [decide_eq_true h]; simp [h]
    · rw [decide_eq_false h]; simp [h]
  have hsv : st = 1 ↔ rb ≠ 0 := by
    rw [hst]
    by_cases h : rb ≠ 0
    · rw [decide_eq_true h]; simp [h]
    · rw [decide_eq_false h]; simp [h]
  clear hc hst
  obtain ⟨j, rfl⟩ := Nat.exists_eq_add_of_le hs
  have e1 : 2 ^ (2 + j) = 4 * 2 ^ j := by rw [pow_add]; norm_num
  have e2 : 2 ^ (2 + j - 1) = 2 * 2 ^ j := by
    rw [show 2 + j - 1 = j + 1 by omega, pow_succ]; ring
  rw [show 2 + j - 2 = j by omega]
  rw [e1] at hm
  rw [e2] at hcv ⊢
  have hJ := Nat.two_pow_pos j
  generalize 2 ^ j = J at *
  have hdm := Nat.div_add_mod m J
  have hml := Nat.mod_lt m hJ
  rw [or_bit _ c hc1, or_bit _ st hst1]
  have ha : m / J < 4 := (Nat.div_lt_iff_lt_mul hJ).mpr hm
  generalize m / J = a at *
  generalize m % J = r at *
  have : a = 0 ∨ a = 1 ∨ a = 2 ∨ a = 3 := by omega
  rcases this with rfl | rfl | rfl | rfl <;> omega

theorem toNat_shl_one {k : ℕ} (h : k < 128) : ((1 : BitVec 128) <<< k).toNat = 2 ^ k := by
  rw [BitVec.toNat_shiftLeft, show (1 : BitVec 128).toNat = 1 by decide, Nat.shiftLeft_eq, one_mul,
    Nat.mod_eq_of_lt]
  exact Nat.pow_lt_pow_right (by norm_num) h

theorem toNat_ushr (x : BitVec 128) (k : ℕ) : (x >>> k).toNat = x.toNat / 2 ^ k := by
  rw [BitVec.toNat_ushiftRight, Nat.shiftRight_eq_div_pow]

theorem nat_remPow2_256 (x : U256) (n : ℕ) : nat256 (UInt.remPow2 x n) = nat256 x % 2 ^ n :=
  UInt.nat_remPow2 x n

/-- If a value is below `2^128` it is its low word. -/
theorem lo_of_lt {x : U256} (h : nat256 x < 2 ^ 128) : x.lo.toNat = nat256 x := by
  have := x.lo.isLt
  unfold nat256 at *
  have : x.hi.toNat = 0 := by omega
  rw [this]; omega

theorem adjRndBits_nat (z : U256) (rb : ℕ) {s : ℕ} (h1 : 1 ≤ s) (h2 : s < 256) :
    (2 < adjRndBits z rb s ↔ 2 ^ (s - 1) < nat256 z % 2 ^ s ∨
      (nat256 z % 2 ^ s = 2 ^ (s - 1) ∧ rb ≠ 0)) ∧
    (adjRndBits z rb s = 2 ↔ nat256 z % 2 ^ s = 2 ^ (s - 1) ∧ rb = 0) := by
  have hml : nat256 z % 2 ^ s < 2 ^ s := Nat.mod_lt _ (Nat.two_pow_pos _)
  unfold adjRndBits
  by_cases c1 : s = 1
  · rw [if_pos c1]
    subst c1
    rw [lo_and_1, or_bit _ _ (bool_toNat_le _), Nat.shiftLeft_eq]
    have hb := bool_toNat_le (decide (rb ≠ 0))
    have hsv : (decide (rb ≠ 0)).toNat = 1 ↔ rb ≠ 0 := by
      by_cases h : rb ≠ 0
      · rw [decide_eq_true h]; simp [h]
      · rw [decide_eq_false h]; simp [h]
    generalize (decide (rb ≠ 0)).toNat = st at *
    simp only [pow_one] at *
    generalize nat256 z % 2 = m at *
    have : m = 0 ∨ m = 1 := by omega
    rcases this with rfl | rfl <;> omega
  rw [if_neg c1]
  by_cases c2 : s = 2
  · rw [if_pos c2]
    subst c2
    have := rnd_combine (m := nat256 z % 2 ^ 2) (s := 2) (rb := rb) le_rfl hml _ rfl _ rfl
    rw [Nat.sub_self, pow_zero, Nat.div_one] at this
    have e : nat256 z % 2 ^ 2 ||| (decide (2 ^ (2 - 1) < nat256 z % 2 ^ 2)).toNat =
        nat256 z % 2 ^ 2 := by
      generalize nat256 z % 2 ^ 2 = m at *
      have : m = 0 ∨ m = 1 ∨ m = 2 ∨ m = 3 := by omega
      rcases this with rfl | rfl | rfl | rfl <;> decide
    rw [e] at this
    rw [lo_and_3]
    exact this
  rw [if_neg c2]
  by_cases c3 : s ≤ 127
  · rw [if_pos c3]
    have e1 := nat_remPow2_256 z s
    have e2 : (UInt.remPow2 z s).lo.toNat = nat256 z % 2 ^ s := by
      rw [lo_of_lt, e1]
      rw [e1]
      exact lt_trans hml (Nat.pow_lt_pow_right (by norm_num) (by omega))
    simp only [toNat_ushr, BitVec.lt_def]
    rw [e2, toNat_shl_one (by omega)]
    exact rnd_combine (by omega) hml _ rfl _ rfl
  · rw [if_neg c3]
    have e1 := nat_remPow2_256 z s
    have e3 : nat256 (UInt.shl (UInt.one : U256) (s - 1)) = 2 ^ (s - 1) := by
      have e : nat256 (UInt.one : U256) = 1 := by decide
      have hp : 2 ^ (s - 1) < 2 ^ 256 := Nat.pow_lt_pow_right (by norm_num) (by omega)
      rw [nat_shl256_of_lt _ (by omega) (by rw [e, one_mul]; exact hp), e, one_mul]
    have e4 : (UInt.cmp (UInt.remPow2 z s) (UInt.shl UInt.one (s - 1)) == .gt) =
        decide (2 ^ (s - 1) < nat256 z % 2 ^ s) := by
      rw [cmp256, e1, e3, Bool.eq_iff_iff, beq_iff_eq, decide_eq_true_iff, Nat.compare_eq_gt]
    have e5 : (UInt.shr (UInt.remPow2 z s) (s - 2)).lo.toNat = nat256 z % 2 ^ s / 2 ^ (s - 2) := by
      have e6 := nat_shr256 (UInt.remPow2 z s) (n := s - 2) (by omega)
      rw [e1] at e6
      rw [lo_of_lt, e6]
      rw [e6, Nat.div_lt_iff_lt_mul (Nat.two_pow_pos _), ← pow_add]
      exact lt_of_lt_of_le hml (Nat.pow_le_pow_right (by norm_num) (by omega))
    simp only [e4, e5]
    exact rnd_combine (by omega) hml _ rfl _ rfl

/-- The rounding bits after a further shift are right for the shifted value. -/
theorem adjRndBits_ok (z : U256) (rb : ℕ) {s : ℕ} (h1 : 1 ≤ s) (h2 : s < 256) {f : ℝ}
    (hf0 : 0 ≤ f) (hf1 : f < 1) (hf : rb ≠ 0 ↔ f ≠ 0) :
    RndOK (((nat256 z % 2 ^ s : ℕ) + f) / 2 ^ s) (adjRndBits z rb s) := by
  obtain ⟨a, b⟩ := adjRndBits_nat z rb h1 h2
  have hp : (0 : ℝ) < 2 ^ s := by positivity
  have hhalf : (2 : ℝ) ^ s = 2 * 2 ^ (s - 1) := by rw [← pow_succ']; congr 1; omega
  generalize nat256 z % 2 ^ s = m at *
  have ecast : ((2 ^ (s - 1) : ℕ) : ℝ) = 2 ^ (s - 1) := by push_cast; rfl
  constructor
  · rw [a, lt_div_iff₀ hp, hhalf]
    constructor
    · rintro (h | ⟨h, hr⟩)
      · have : ((2 ^ (s - 1) : ℕ) : ℝ) + 1 ≤ m := by exact_mod_cast h
        rw [ecast] at this
        linarith
      · have hfp : 0 < f := lt_of_le_of_ne hf0 (Ne.symm (hf.mp hr))
        have : (m : ℝ) = 2 ^ (s - 1) := by rw [h, ecast]
        linarith
    · intro h
      have h3 : (2 : ℝ) ^ (s - 1) < m + f := by linarith
      have h4 : ((2 ^ (s - 1) : ℕ) : ℝ) < ((m + 1 : ℕ) : ℝ) := by
        rw [ecast]; push_cast; linarith
      have h5 : 2 ^ (s - 1) < m + 1 := by exact_mod_cast h4
      rcases Nat.lt_or_eq_of_le (Nat.lt_succ_iff.mp h5) with h6 | h6
      · exact Or.inl h6
      · right
        refine ⟨h6.symm, hf.mpr fun hz => ?_⟩
        have : (m : ℝ) = 2 ^ (s - 1) := by rw [← h6, ecast]
        rw [hz] at h3
        linarith
  · rw [b, div_eq_iff hp.ne', hhalf]
    constructor
    · rintro ⟨h, hr⟩
      have hfz : f = 0 := by
        by_contra hne
        exact (hf.mpr hne) hr
      have : (m : ℝ) = 2 ^ (s - 1) := by rw [h, ecast]
      rw [hfz, this]; ring
    · intro h
      have h3 : (m : ℝ) + f = 2 ^ (s - 1) := by linarith
      have h4 : (m : ℝ) ≤ ((2 ^ (s - 1) : ℕ) : ℝ) := by rw [ecast]; linarith
      have h5 : ((2 ^ (s - 1) : ℕ) : ℝ) < ((m + 1 : ℕ) : ℝ) := by rw [ecast]; push_cast; linarith
      have h6 : m ≤ 2 ^ (s - 1) := by exact_mod_cast h4
      have h7 : 2 ^ (s - 1) < m + 1 := by exact_mod_cast h5
      have h8 : m = 2 ^ (s - 1) := by omega
      refine ⟨h8, ?_⟩
      by_contra hr
      have : (m : ℝ) = 2 ^ (s - 1) := by rw [h8, ecast]
      exact (hf.mp hr) (by linarith)

theorem nat_assemble (z : U256) {e : ℕ} (hz : nat256 z < 2 ^ 237) (he : e ≤ 524286) :
    nat256 (assemble z e) = e * 2 ^ 236 + nat256 z := by
  have h1 := z.lo.isLt
  have h2 : z.hi.toNat < 2 ^ 109 := by unfold nat256 at hz; omega
  rw [assemble, nat256_new, BitVec.toNat_add, BitVec.toNat_shiftLeft,
    BitVec.toNat_ofNat, HI_FRACTION_BITS, Nat.shiftLeft_eq, Nat.mod_eq_of_lt (a := e) (by omega),
    Nat.mod_eq_of_lt (a := e * 2 ^ 108) (by omega), nat256]
  omega

theorem pat_finalRound (b : U256) (rb : ℕ) : (finalRound b rb).pat =
    (nat256 b + (decide (2 < rb ∨ (rb = 2 ∧ nat256 b % 2 = 1))).toNat) % 2 ^ 256 := by
  have hb := nat256_lt b
  have hc : (decide (rb > 2) || (decide (rb = 2) && isOdd b.lo)) =
      decide (2 < rb ∨ (rb = 2 ∧ nat256 b % 2 = 1)) := by
    rw [isOdd_lo]; simp
  unfold finalRound
  rw [hc]
  by_cases h : 2 < rb ∨ (rb = 2 ∧ nat256 b % 2 = 1)
  · rw [if_pos (by simpa using h), decide_eq_true h, Bool.toNat_true, pat_eq, nat_incr256]
  · rw [if_neg (by simpa using h), decide_eq_false h, Bool.toNat_false, pat_eq, Nat.add_zero,
      Nat.mod_eq_of_lt hb]

theorem sign_mod (s e n c : ℕ) (h : e * 2 ^ 236 + (n + c) < 2 ^ 255) (hs : s ≤ 1) :
    (s * 2 ^ 255 + (e * 2 ^ 236 + n) + c) % 2 ^ 256 = s * 2 ^ 255 + (e * 2 ^ 236 + (n + c)) := by
  omega

/-- Assembly and final rounding, with the sign. -/
theorem finish {z : U256} {e rb : ℕ} {f v w : ℝ}
    (hz : nat256 z < 2 ^ 237) (hz2 : e = 0 ∨ 2 ^ 236 ≤ nat256 z) (he : e ≤ 524285)
    (hf0 : 0 ≤ f) (hf1 : f < 1) (hrb : RndOK f rb)
    (hw : w = nat256 z + f) (hv : v = w * 2 ^ e) :
    ∃ A, RoundsTo v A ∧ ∀ (sg : BitVec 128) (s : ℕ), sg.toNat = s * 2 ^ 127 → s ≤ 1 →
      (finalRound ⟨(assemble z e).hi ||| sg, (assemble z e).lo⟩ rb).pat = s * 2 ^ 255 + A := by
  have ha := nat_assemble z hz (e := e) (by omega)
  have hM := RNE.of_rnd (z := nat256 z) hf0 hf1 hrb
  rw [← hw] at hM
  have hR : RoundsTo v (e * 2 ^ 236 + (nat256 z +
      (decide (2 < rb ∨ (rb = 2 ∧ nat256 z % 2 = 1))).toNat)) := by
    refine RoundsTo.of_rne hv ?_ ?_ hM he
    · have : ((nat256 z + 1 : ℕ) : ℝ) ≤ 2 ^ 237 := by exact_mod_cast hz
      push_cast at this
      rw [hw]; linarith
    · rcases hz2 with h | h
      · exact Or.inl h
      · right
        have : ((2 ^ 236 : ℕ) : ℝ) ≤ nat256 z := by exact_mod_cast h
        rw [Nat.cast_pow, Nat.cast_ofNat] at this
        rw [hw]; linarith
  refine ⟨_, hR, fun sg s hsg hs => ?_⟩
  have hlt := hR.lt_pow
  have hle := nat_or_sign (z := assemble z e) (h := sg) (s := s) (by rw [ha]; omega) hsg
  rw [pat_finalRound, hle, ha]
  have hodd : (s * 2 ^ 255 + (e * 2 ^ 236 + nat256 z)) % 2 = nat256 z % 2 := by omega
  rw [hodd]
  exact sign_mod _ _ _ _ hlt hs

/-! ## Rounding a value `(z + f) * 2 ^ T` given by significand, rounding bits and exponent -/

section tail

variable {z : U256} {rb : ℕ} {f v : ℝ} {T : ℤ}

theorem tail_inf (hz1 : 2 ^ 236 ≤ nat256 z) (hf0 : 0 ≤ f) (hv : v = (nat256 z + f) * (2 : ℝ) ^ T)
    (hT : 524286 ≤ T) : RoundsTo v INF := by
  obtain ⟨t, rfl⟩ := Int.eq_ofNat_of_zero_le (by omega : 0 ≤ T)
  rw [zpow_natCast] at hv
  have hz : ((2 ^ 236 : ℕ) : ℝ) ≤ nat256 z := by exact_mod_cast hz1
  rw [Nat.cast_pow, Nat.cast_ofNat] at hz
  refine RoundsTo.inf (t := t) (by omega) ?_
  rw [hv]
  exact mul_le_mul_of_nonneg_right (by linarith) (by positivity)

theorem tail_zero (hz2 : nat256 z < 2 ^ 237) (hf0 : 0 ≤ f) (hf1 : f < 1)
    (hv : v = (nat256 z + f) * (2 : ℝ) ^ T) (hT : T ≤ -238) : RoundsTo v 0 := by
  have hz : ((nat256 z + 1 : ℕ) : ℝ) ≤ ((2 ^ 237 : ℕ) : ℝ) := by exact_mod_cast hz2
  rw [Nat.cast_pow, Nat.cast_ofNat, Nat.cast_add, Nat.cast_one] at hz
  have h0 : (0 : ℝ) ≤ nat256 z := Nat.cast_nonneg _
  have hp : (0 : ℝ) < (2 : ℝ) ^ T := zpow_pos (by norm_num) _
  have hle : (2 : ℝ) ^ T ≤ 2 ^ (-238 : ℤ) := zpow_le_zpow_right₀ (by norm_num) hT
  have hv0 : 0 ≤ v := by rw [hv]; exact mul_nonneg (by linarith) hp.le
  have hv1 : v < 1 / 2 := by
    rw [hv]
    calc (nat256 z + f) * (2 : ℝ) ^ T < 2 ^ 237 * 2 ^ T := by
          exact mul_lt_mul_of_pos_right (by linarith) hp
      _ ≤ 2 ^ 237 * 2 ^ (-238 : ℤ) := mul_le_mul_of_nonneg_left hle (by positivity)
      _ = 1 / 2 := by norm_num
  have := RoundsTo.of_rne (v := v) (w := v) (t := 0) (M := 0) (by ring)
    (by linarith) (Or.inl rfl) ⟨by rw [Nat.cast_zero, sub_zero, abs_of_nonneg hv0]; exact hv1.le,
      fun _ => rfl⟩ (by norm_num)
  simpa using this

theorem tail_norm (hz1 : 2 ^ 236 ≤ nat256 z) (hz2 : nat256 z < 2 ^ 237) (hf0 : 0 ≤ f) (hf1 : f < 1)
    (hrb : RndOK f rb) (hv : v = (nat256 z + f) * (2 : ℝ) ^ T) (hT0 : 0 ≤ T) (hT : T < 524286) :
    ∃ A, RoundsTo v A ∧ ∀ (sg : BitVec 128) (s : ℕ), sg.toNat = s * 2 ^ 127 → s ≤ 1 →
      (finalRound ⟨(assemble z T.toNat).hi ||| sg, (assemble z T.toNat).lo⟩ rb).pat
      = s * 2 ^ 255 + A := by
  obtain ⟨t, rfl⟩ := Int.eq_ofNat_of_zero_le hT0
  rw [zpow_natCast] at hv
  exact finish hz2 (Or.inr hz1) (by omega) hf0 hf1 hrb rfl hv

theorem tail_sub (hz2 : nat256 z < 2 ^ 237) (hf0 : 0 ≤ f) (hf1 : f < 1)
    (hrb : rb ≠ 0 ↔ f ≠ 0) (hv : v = (nat256 z + f) * (2 : ℝ) ^ T) (hT0 : T < 0) (hT : -256 < T) :
    ∃ A, RoundsTo v A ∧ ∀ (sg : BitVec 128) (s : ℕ), sg.toNat = s * 2 ^ 127 → s ≤ 1 →
      (finalRound ⟨(assemble (UInt.shr z T.natAbs) 0).hi ||| sg,
      (assemble (UInt.shr z T.natAbs) 0).lo⟩ (adjRndBits z rb T.natAbs)).pat = s * 2 ^ 255 + A := by
  obtain ⟨k, hk⟩ : ∃ k : ℕ, k = T.natAbs := ⟨_, rfl⟩
  have hTk : T = -(k : ℤ) := by omega
  rw [← hk]
  have hsh := nat_shr256 z (n := k) (by omega)
  have hle : nat256 z / 2 ^ k ≤ nat256 z := Nat.div_le_self _ _
  have hp : (0 : ℝ) < 2 ^ k := by positivity
  have hml : nat256 z % 2 ^ k < 2 ^ k := Nat.mod_lt _ (Nat.two_pow_pos _)
  have hml' : ((nat256 z % 2 ^ k : ℕ) : ℝ) + 1 ≤ 2 ^ k := by exact_mod_cast hml
  have hm0 : (0 : ℝ) ≤ ((nat256 z % 2 ^ k : ℕ) : ℝ) := by positivity
  refine finish (f := ((nat256 z % 2 ^ k : ℕ) + f) / 2 ^ k) (w := v) (by omega) (Or.inl rfl)
    (by norm_num) (by positivity) ?_ (adjRndBits_ok z rb (by omega) (by omega) hf0 hf1 hrb) ?_
    (by rw [pow_zero, mul_one])
  · rw [div_lt_one hp]; linarith
  · rw [hsh, hv, hTk, zpow_neg, zpow_natCast]
    have e : (nat256 z : ℝ) = (nat256 z / 2 ^ k : ℕ) * 2 ^ k + (nat256 z % 2 ^ k : ℕ) := by
      have := Nat.div_add_mod (nat256 z) (2 ^ k)
      have h2 : (((2 ^ k) * (nat256 z / 2 ^ k) + nat256 z % 2 ^ k : ℕ) : ℝ) = nat256 z := by
        rw [this]
      rw [Nat.cast_add, Nat.cast_mul, Nat.cast_pow, Nat.cast_ofNat] at h2
      rw [← h2]; ring
    rw [← div_eq_mul_inv]
    conv_lhs => rw [e]
    field_simp
    ring

end tail

/-! ## Decoded operands -/

theorem nat_shiftLeft {x : U256} {n : ℕ} (hn : n < 256) (h : nat256 x * 2 ^ n < 2 ^ 256) :
    nat256 (U256.shiftLeft x n) = nat256 x * 2 ^ n := by
  have hl := x.lo.isLt
  unfold U256.shiftLeft
  by_cases c1 : 1 ≤ n ∧ n ≤ 127
  · rw [if_pos c1, nat256_new, BitVec.toNat_or, BitVec.toNat_shiftLeft, BitVec.toNat_shiftLeft,
      toNat_ushr, Nat.shiftLeft_eq, Nat.shiftLeft_eq]
    have e : 2 ^ 128 = 2 ^ (128 - n) * 2 ^ n := by rw [← pow_add]; congr 1; omega
    have h1 : x.hi.toNat * 2 ^ n < 2 ^ 128 := by
      have : x.hi.toNat * 2 ^ n * 2 ^ 128 ≤ nat256 x * 2 ^ n := by
        rw [nat256, Nat.add_mul]
        have : x.hi.toNat * 2 ^ n * 2 ^ 128 = x.hi.toNat * 2 ^ 128 * 2 ^ n := by ring
        omega
      omega
    have h2 : x.lo.toNat / 2 ^ (128 - n) < 2 ^ n := by
      rw [Nat.div_lt_iff_lt_mul (Nat.two_pow_pos _), Nat.mul_comm, ← e]; exact hl
    have h3 : x.lo.toNat / 2 ^ (128 - n) = x.lo.toNat * 2 ^ n / 2 ^ 128 := by
      rw [e, Nat.mul_div_mul_right _ _ (Nat.two_pow_pos _)]
    rw [Nat.mod_eq_of_lt h1, or_disjoint h2, h3]
    have h4 := Nat.div_add_mod (x.lo.toNat * 2 ^ n) (2 ^ 128)
    have h5 : x.hi.toNat * 2 ^ n * 2 ^ 128 = x.hi.toNat * 2 ^ 128 * 2 ^ n := by ring
    rw [nat256, Nat.add_mul, Nat.add_mul, h5, Nat.add_assoc,
      Nat.mul_comm (x.lo.toNat * 2 ^ n / 2 ^ 128), h4]
  rw [if_neg c1]
  have key : 128 ≤ n → x.hi.toNat = 0 := by
    intro hn2
    by_contra hne
    have h1 : 2 ^ 128 ≤ nat256 x := by unfold nat256; omega
    have h2 : 2 ^ 128 ≤ 2 ^ n := Nat.pow_le_pow_right (by norm_num) hn2
    have h3 := Nat.mul_le_mul h1 h2
    omega
  by_cases c2 : n = 128
  · rw [if_pos c2, nat256_new, nat256, key (by omega), c2]
    simp
  rw [if_neg c2]
  by_cases c3 : 129 ≤ n ∧ n ≤ 255
  · have hk := key (by omega)
    rw [if_pos c3]
    have hx : nat256 x = x.lo.toNat := by rw [nat256, hk, Nat.zero_mul, Nat.zero_add]
    rw [hx] at h ⊢
    have e : 2 ^ n = 2 ^ (n - 128) * 2 ^ 128 := by rw [← pow_add]; congr 1; omega
    rw [nat256_new, BitVec.toNat_shiftLeft, Nat.shiftLeft_eq, Nat.mod_eq_of_lt, e]
    · simp [Nat.mul_assoc]
    · rw [e] at h
      have : x.lo.toNat * 2 ^ (n - 128) * 2 ^ 128 < 2 ^ 128 * 2 ^ 128 := by
        rw [Nat.mul_assoc]; exact h
      exact Nat.lt_of_mul_lt_mul_right this
  · rw [if_neg c3, show n = 0 by omega, pow_zero, Nat.mul_one]

theorem leftAdjSignif_spec {A : U256} (h0 : nat256 (signif A) ≠ 0) :
    2 ^ 255 ≤ nat256 (leftAdjSignif A).1 ∧
    nat256 (leftAdjSignif A).1 = nat256 (signif A) * 2 ^ (leftAdjSignif A).2 := by
  unfold leftAdjSignif
  dsimp only
  have hl := log2_lt_256 (signif A)
  have hb := log2_bounds h0 rfl
  rw [leadingZeros256 h0]
  have hm : nat256 (signif A) * 2 ^ (255 - (nat256 (signif A)).log2) < 2 ^ 256 := by
    calc _ < 2 ^ ((nat256 (signif A)).log2 + 1) * 2 ^ (255 - (nat256 (signif A)).log2) :=
          Nat.mul_lt_mul_of_pos_right hb.2 (Nat.two_pow_pos _)
      _ = 2 ^ 256 := by rw [← pow_add]; congr 1; omega
  rw [nat_shiftLeft (by omega) hm]
  refine ⟨?_, rfl⟩
  calc 2 ^ 255 = 2 ^ (nat256 (signif A)).log2 * 2 ^ (255 - (nat256 (signif A)).log2) := by
        rw [← pow_add]; congr 1; omega
    _ ≤ _ := Nat.mul_le_mul_right _ hb.1

theorem normSignif_spec {A : U256} (h0 : nat256 (signif A) ≠ 0) (h1 : nat256 (signif A) < 2 ^ 237) :
    2 ^ 236 ≤ nat256 (normSignif A).1 ∧ nat256 (normSignif A).1 < 2 ^ 237 ∧
    nat256 (normSignif A).1 = nat256 (signif A) * 2 ^ (normSignif A).2 := by
  unfold normSignif FRACTION_BITS
  dsimp only
  have hl : (nat256 (signif A)).log2 < 237 := (Nat.log2_lt h0).mpr h1
  have hb := log2_bounds h0 rfl
  rw [msb256 h0]
  have hm : nat256 (signif A) * 2 ^ (236 - (nat256 (signif A)).log2) < 2 ^ 237 := by
    calc _ < 2 ^ ((nat256 (signif A)).log2 + 1) * 2 ^ (236 - (nat256 (signif A)).log2) :=
          Nat.mul_lt_mul_of_pos_right hb.2 (Nat.two_pow_pos _)
      _ = 2 ^ 237 := by rw [← pow_add]; congr 1; omega
  rw [nat_shiftLeft (by omega) (lt_trans hm (by norm_num))]
  refine ⟨?_, hm, rfl⟩
  calc 2 ^ 236 = 2 ^ (nat256 (signif A)).log2 * 2 ^ (236 - (nat256 (signif A)).log2) := by
        rw [← pow_add]; congr 1; omega
    _ ≤ _ := Nat.mul_le_mul_right _ hb.1

/-- Decoding a finite non-zero absolute value. -/
theorem decoded {A : U256} (h0 : nat256 A ≠ 0) (h1 : nat256 A < INF) :
    nat256 (signif A) ≠ 0 ∧ nat256 (signif A) < 2 ^ 237 ∧
    (mag (nat256 A) : ℝ) = nat256 (signif A) * (2 : ℝ) ^ ((expBits A : ℤ) - (normBit A : ℤ)) := by
  have hs := nat_signif A
  rw [expBits_eq, normBit_eq]
  generalize signif A = S at *
  generalize nat256 A = a at *
  unfold INF at h1
  have fA : Spec.expField a = a / 2 ^ 236 := by unfold Spec.expField; omega
  have sA : Spec.significandOf a = nat256 S := by
    unfold Spec.significandOf Spec.fracField
    rw [fA, hs]; split_ifs <;> omega
  refine ⟨by rw [hs]; split_ifs <;> omega, by rw [hs]; split_ifs <;> omega, ?_⟩
  have e : ((a / 2 ^ 236 : ℕ) : ℤ) - ((if 2 ^ 236 ≤ a then 1 else 0 : ℕ) : ℤ) =
      ((a / 2 ^ 236 - 1 : ℕ) : ℤ) := by split_ifs <;> omega
  rw [e, zpow_natCast]
  unfold mag
  rw [fA, sA, Nat.cast_mul, Nat.cast_pow, Nat.cast_ofNat]

end Verif
