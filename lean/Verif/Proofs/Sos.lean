import Verif.Model.Sos
import Verif.Proofs.Fma

/-!
# Sum of squares of normal numbers
-/

namespace Verif

open BigUInt LawfulBigUInt

theorem shl512 (x : U512) {n : ℕ} (h : n < 512) :
    UInt.nat (UInt.shl x n) = UInt.nat x * 2 ^ n % 2 ^ 512 :=
  UInt.nat_shl x n (show n < 2 * 256 by omega)

theorem shr512 (x : U512) {n : ℕ} (h : n < 512) :
    UInt.nat (UInt.shr x n) = UInt.nat x / 2 ^ n :=
  UInt.nat_shr x n (show n < 2 * 256 by omega)

theorem nat512_lt (x : U512) : UInt.nat x < 2 ^ 512 := UInt.nat_lt x

theorem square512 (x : U256) :
    UInt.nat (⟨(UInt.wideningMul x x).2, (UInt.wideningMul x x).1⟩ : U512) =
      nat256 x * nat256 x := by
  rw [nat_hi_lo, Nat.add_comm, Nat.mul_comm (nat256 (UInt.wideningMul x x).2)]
  rw [(wmul256 x x).1, (wmul256 x x).2]
  exact Nat.mod_add_div _ _

/-- Rounding an integer that is the integral part of `x`, but no midpoint. -/
theorem RNE.of_floor {x : ℝ} {n k M : ℕ} (hM : RNE ((n : ℝ) / 2 ^ (k + 1)) M)
    (hn : n % 2 ^ (k + 1) ≠ 2 ^ k) (h1 : (n : ℝ) ≤ x) (h2 : x < n + 1) :
    RNE (x / 2 ^ (k + 1)) M := by
  have hp : (0 : ℝ) < 2 ^ (k + 1) := by positivity
  have e2 : (2 : ℝ) ^ (k + 1) = 2 * 2 ^ k := by rw [pow_succ]; ring
  have e2n : 2 ^ (k + 1) = 2 * 2 ^ k := by rw [pow_succ]; ring
  have hne : ∀ L : ℕ, n ≠ L * 2 ^ (k + 1) + 2 ^ k := by
    intro L hL
    apply hn
    rw [hL, Nat.add_comm, Nat.add_mul_mod_self_right, Nat.mod_eq_of_lt]
    have := Nat.two_pow_pos k
    omega
  have ha := abs_le.mp hM.1
  have hlo : (M : ℝ) * 2 ^ (k + 1) - 2 ^ k ≤ n := by
    have := ha.1
    rw [le_sub_iff_add_le, le_div_iff₀ hp] at this
    nlinarith
  have hhi : (n : ℝ) ≤ M * 2 ^ (k + 1) + 2 ^ k := by
    have := ha.2
    rw [sub_le_iff_le_add, div_le_iff₀ hp] at this
    nlinarith
  have hhi' : n + 1 ≤ M * 2 ^ (k + 1) + 2 ^ k := by
    have h3 : n ≤ M * 2 ^ (k + 1) + 2 ^ k := by exact_mod_cast hhi
    have := hne M
    omega
  have hhi'' : (n : ℝ) + 1 ≤ M * 2 ^ (k + 1) + 2 ^ k := by exact_mod_cast hhi'
  have hlo' : (M : ℝ) * 2 ^ (k + 1) - 2 ^ k < n := by
    refine lt_of_le_of_ne hlo (fun h => ?_)
    rcases Nat.eq_zero_or_pos M with h0 | h0
    · rw [h0, Nat.cast_zero, zero_mul, zero_sub] at h
      have : (0 : ℝ) < 2 ^ k := by positivity
      have : (0 : ℝ) ≤ n := Nat.cast_nonneg n
      linarith
    · apply hne (M - 1)
      have h3 : (M : ℝ) * 2 ^ (k + 1) = n + 2 ^ k := by linarith
      have h4 : M * 2 ^ (k + 1) = n + 2 ^ k := by exact_mod_cast h3
      obtain ⟨L, rfl⟩ := Nat.exists_eq_succ_of_ne_zero h0.ne'
      rw [Nat.succ_sub_one]
      rw [Nat.succ_mul] at h4
      omega
  have b1 : x / 2 ^ (k + 1) - M < 1 / 2 := by
    rw [sub_lt_iff_lt_add, div_lt_iff₀ hp]
    nlinarith
  have b2 : -(1 / 2) < x / 2 ^ (k + 1) - M := by
    rw [lt_sub_iff_add_lt, lt_div_iff₀ hp]
    nlinarith
  have b3 : |x / 2 ^ (k + 1) - M| < 1 / 2 := abs_lt.mpr ⟨b2, b1⟩
  exact ⟨b3.le, fun h => absurd h b3.ne⟩

/-- Shifting out the sticky bit: the result is right unless the remaining integer is a midpoint. -/
theorem sos_shift {w : ℝ} {Z s M : ℕ} (h : RTO w Z)
    (hM : RNE (((Z / 2 ^ s : ℕ) : ℝ) / 2 ^ 256) M) :
    RNE (w / 2 ^ s / 2 ^ 256) M ∨ ((Z / 2 ^ s) % 2 ^ 256 = 2 ^ 255 ∧
      ((Z / 2 ^ s : ℕ) : ℝ) < w / 2 ^ s ∧ w / 2 ^ s < (Z / 2 ^ s : ℕ) + 1) := by
  have hp : (0 : ℝ) < 2 ^ s := by positivity
  rcases Nat.eq_zero_or_pos s with h0 | h0
  · left
    subst h0
    rw [pow_zero, Nat.div_one] at hM
    rw [pow_zero, div_one]
    exact RNE.of_rto (by norm_num) h hM
  · have hev : 2 ^ s % 2 = 0 := by
      obtain ⟨j, rfl⟩ := Nat.exists_eq_succ_of_ne_zero h0.ne'
      rw [pow_succ]; omega
    have d1 := Nat.div_add_mod Z (2 ^ s)
    have d2 := Nat.mod_lt Z (Nat.two_pow_pos s)
    have g1 : (((2 ^ s * (Z / 2 ^ s) : ℕ)) : ℝ) ≤ w := h.ge (by rw [Nat.mul_mod, hev]; simp) (by omega)
    have g2 : w < ((2 ^ s * (Z / 2 ^ s + 1) : ℕ) : ℝ) := h.lt (by rw [Nat.mul_add]; omega)
    rw [Nat.cast_mul, Nat.cast_pow, Nat.cast_ofNat] at g1 g2
    have k1 : ((Z / 2 ^ s : ℕ) : ℝ) ≤ w / 2 ^ s := by rw [le_div_iff₀ hp]; linarith
    have k2 : w / 2 ^ s < (Z / 2 ^ s : ℕ) + 1 := by
      rw [div_lt_iff₀ hp]; push_cast at g2 ⊢; linarith
    by_cases hm : (Z / 2 ^ s) % 2 ^ 256 = 2 ^ 255
    · rcases k1.lt_or_eq with k | k
      · exact Or.inr ⟨hm, k, k2⟩
      · left; rw [← k]; exact hM
    · left
      exact RNE.of_floor (k := 255) hM hm k1 k2

theorem sos_align {Y d : ℕ} {y2 : U512} (hy : UInt.nat y2 = Y * Y) (hY0 : Y ≠ 0)
    (hY : Y < 2 ^ 237) :
    RTO ((Y * Y : ℕ) * (2 : ℝ) ^ (20 - (d : ℤ))) (UInt.nat (Sos.align y2 d)) ∧
      UInt.nat (Sos.align y2 d) < 2 ^ 494 := by
  have hYY : Y * Y < 2 ^ 474 := by
    have := Nat.mul_lt_mul_of_lt_of_lt hY hY
    rwa [← Nat.pow_add] at this
  have h494 : (2 : ℕ) ^ 474 < 2 ^ 494 := Nat.pow_lt_pow_right (by norm_num) (by norm_num)
  unfold Sos.align
  by_cases h1 : d ≤ 19
  · rw [if_pos h1]
    have hb : Y * Y * 2 ^ (20 - d) < 2 ^ 494 := by
      calc Y * Y * 2 ^ (20 - d) < 2 ^ 474 * 2 ^ (20 - d) :=
            Nat.mul_lt_mul_of_pos_right hYY (Nat.two_pow_pos _)
        _ ≤ 2 ^ 494 := by rw [← Nat.pow_add]; exact Nat.pow_le_pow_right (by norm_num) (by omega)
    have e : UInt.nat (UInt.shl y2 (20 - d)) = Y * Y * 2 ^ (20 - d) := by
      rw [shl512 _ (by omega), hy, Nat.mod_eq_of_lt (hb.trans (Nat.pow_lt_pow_right (by norm_num) (by norm_num)))]
    rw [e]
    refine ⟨Or.inl ?_, hb⟩
    rw [Nat.cast_mul (Y * Y), Nat.cast_pow, Nat.cast_ofNat, ← zpow_natCast]
    congr 2
    push_cast [show d ≤ 20 by omega]; rfl
  rw [if_neg h1]
  by_cases h2 : d = 20
  · rw [if_pos h2, hy, h2]
    exact ⟨Or.inl (by simp), by omega⟩
  rw [if_neg h2]
  by_cases h3 : d ≤ 494
  · rw [if_pos h3]
    obtain ⟨k, hk⟩ : ∃ k, d - 20 = k + 1 := ⟨d - 21, by omega⟩
    have hz : (20 : ℤ) - d = -((k + 1 : ℕ) : ℤ) := by omega
    rw [hk, hz, zpow_neg, zpow_natCast, ← div_eq_mul_inv]
    have hT : UInt.wideningShr y2 (k + 1) = (UInt.shr y2 (k + 1), UInt.shl y2 (2 * 256 - (k + 1))) :=
      rfl
    rw [hT]
    dsimp only
    obtain ⟨A, hA⟩ : ∃ A, A = UInt.shr y2 (k + 1) := ⟨_, rfl⟩
    have hAn : UInt.nat A = Y * Y / 2 ^ (k + 1) := by rw [hA, shr512 _ (by omega), hy]
    have hB : isZero (UInt.shl y2 (2 * 256 - (k + 1))) = decide (Y * Y % 2 ^ (k + 1) = 0) := by
      have h4 := LawfulBigUInt.isZero_eq (UInt.shl y2 (2 * 256 - (k + 1)))
      rw [h4]
      have h5 : LawfulBigUInt.toNat (UInt.shl y2 (2 * 256 - (k + 1))) =
        UInt.nat (UInt.shl y2 (2 * 256 - (k + 1))) := rfl
      rw [decide_eq_decide, h5, shl512 _ (by omega), hy,
        show (512 : ℕ) = (k + 1) + (2 * 256 - (k + 1)) by omega, Nat.pow_add,
        Nat.mul_mod_mul_right]
      have := Nat.two_pow_pos (2 * 256 - (k + 1))
      constructor
      · intro h; rcases Nat.mul_eq_zero.mp h with h | h
        · exact h
        · omega
      · intro h; rw [h, Nat.zero_mul]
    rw [← hA, hB]
    have e : UInt.nat (⟨A.hi, ⟨A.lo.hi, A.lo.lo ||| boolU128 (!decide (Y * Y % 2 ^ (k + 1) = 0))⟩⟩ : U512) =
        Y * Y / 2 ^ (k + 1) / 2 * 2 + max (Y * Y / 2 ^ (k + 1) % 2)
          (decide (Y * Y % 2 ^ (k + 1) ≠ 0)).toNat := by
      rw [nat_hi_lo, nat_or_lo A.lo _ (by rw [toNat_bool]; exact bool_toNat_le _), toNat_bool, ← hAn,
        show UInt.nat A = nat256 A.hi * 2 ^ 256 + nat256 A.lo from rfl]
      have : (!decide (Y * Y % 2 ^ (k + 1) = 0)) = decide (Y * Y % 2 ^ (k + 1) ≠ 0) := by
        rw [decide_not]
      rw [this]
      generalize (decide (Y * Y % 2 ^ (k + 1) ≠ 0)).toNat = b
      generalize nat256 A.hi = p1
      generalize nat256 A.lo = p2
      clear * -
      omega
    rw [e]
    refine ⟨?_, ?_⟩
    · have := RTO.of_div (Y * Y) (b := 2 ^ (k + 1)) (Nat.two_pow_pos _)
      rw [Nat.cast_pow, Nat.cast_ofNat] at this
      exact this
    · have h6 := bool_toNat_le (decide (Y * Y % 2 ^ (k + 1) ≠ 0))
      have h7 : Y * Y / 2 ^ (k + 1) ≤ Y * Y := Nat.div_le_self _ _
      clear e hB hA hAn hT
      generalize (decide (Y * Y % 2 ^ (k + 1) ≠ 0)).toNat = b at *
      generalize Y * Y / 2 ^ (k + 1) = q at *
      have h9 : (1 : ℕ) ≤ 2 ^ 474 := Nat.one_le_two_pow
      have h10 : 2 * (2 : ℕ) ^ 474 ≤ 2 ^ 494 := by
        rw [← pow_succ']; exact Nat.pow_le_pow_right (by norm_num) (by norm_num)
      generalize (2 : ℕ) ^ 474 = p1 at *
      generalize (2 : ℕ) ^ 494 = p2 at *
      generalize Y * Y = p3 at *
      clear * - h6 h7 h9 h10 hYY
      omega
  · rw [if_neg h3]
    have e : UInt.nat (UInt.one : U512) = 1 := by decide
    rw [e]
    refine ⟨Or.inr ⟨rfl, ?_⟩, Nat.one_lt_two_pow (by norm_num)⟩
    have hY0' : (0 : ℝ) < ((Y * Y : ℕ) : ℝ) := by
      exact_mod_cast Nat.mul_pos (Nat.pos_of_ne_zero hY0) (Nat.pos_of_ne_zero hY0)
    have hpos : (0 : ℝ) < (Y * Y : ℕ) * (2 : ℝ) ^ (20 - (d : ℤ)) :=
      mul_pos hY0' (zpow_pos (by norm_num) _)
    have hlt : (Y * Y : ℕ) * (2 : ℝ) ^ (20 - (d : ℤ)) < 2 := by
      have h8 : (((Y * Y : ℕ)) : ℝ) < 2 ^ 474 := by exact_mod_cast hYY
      calc (Y * Y : ℕ) * (2 : ℝ) ^ (20 - (d : ℤ)) < 2 ^ 474 * (2 : ℝ) ^ (20 - (d : ℤ)) :=
            mul_lt_mul_of_pos_right h8 (zpow_pos (by norm_num) _)
        _ = (2 : ℝ) ^ (494 - (d : ℤ)) := by
            rw [← zpow_natCast, ← zpow_add₀ (by norm_num)]; congr 1; push_cast; ring
        _ ≤ (2 : ℝ) ^ (0 : ℤ) := zpow_le_zpow_right₀ (by norm_num) (by omega)
        _ < 2 := by norm_num
    rw [Nat.cast_one, abs_lt]
    constructor <;> linarith

/-- The last step is the one of the fused multiply-add. -/
theorem sos_round_eq (z : U512) (e : ℤ) :
    (Sos.round z e).pat = (Fma.round ⟨z.hi, z.lo, UInt.zero⟩ e 0).pat := by
  have hz : U256.isZero (UInt.zero : U256) = true := by decide
  have e1 : (z.lo.hi >>> 125).toNat ||| (decide (z.lo.hi <<< 3 ≠ 0)).toNat |||
      (decide (z.lo.lo ≠ 0)).toNat = (U128.shr z.lo.hi 125).toNat |||
      (decide (U128.shl z.lo.hi 3 ≠ 0) || decide (z.lo.lo ≠ 0) || !U256.isZero UInt.zero).toNat := by
    rw [hz, Nat.or_assoc, Bool.not_true, Bool.or_false]
    congr 1
    show _ = (decide (z.lo.hi <<< 3 ≠ 0) || decide (z.lo.lo ≠ 0)).toNat
    cases decide (z.lo.hi <<< 3 ≠ 0) <;> cases decide (z.lo.lo ≠ 0) <;> rfl
  have h0 : ∀ b : U256, (⟨⟨b.hi ||| 0, b.lo⟩⟩ : F256) = ⟨b⟩ := by
    intro b
    show (⟨⟨b.hi ||| 0#128, b.lo⟩⟩ : F256) = ⟨b⟩
    rw [BitVec.or_zero]
  unfold Sos.round
  dsimp only
  rw [e1]
  show _ = (⟨⟨_ ||| 0, _⟩⟩ : F256).pat
  rw [h0]
  dsimp only
  split <;> rfl

theorem nat768_512 (z : U512) : nat768 ⟨z.hi, z.lo, UInt.zero⟩ = UInt.nat z * 2 ^ 256 := by
  rw [nat768_mk, show nat256 (UInt.zero : U256) = 0 by decide,
    show UInt.nat z = nat256 z.hi * 2 ^ 256 + nat256 z.lo from rfl,
    show (512 : ℕ) = 256 + 256 by norm_num, Nat.pow_add]
  ring

theorem rne_scale (n d c : ℕ) (hc : 0 < c) (hd : 0 < d) : Spec.rne (n * c) (d * c) = Spec.rne n d := by
  refine RNE.unique (w := (n : ℝ) / d) ?_ (RNE.of_rne n hd)
  have := RNE.of_rne (n * c) (b := d * c) (Nat.mul_pos hd hc)
  rw [Nat.cast_mul, Nat.cast_mul, mul_div_mul_right _ _ (by exact_mod_cast hc.ne')] at this
  exact this

theorem sos_round {z : U512} {e : ℕ} (hz : UInt.nat z < 2 ^ 493) (he : e ≤ 524285) :
    (Sos.round z e).pat = e * 2 ^ 236 + Spec.rne (UInt.nat z) (2 ^ 256) := by
  rw [sos_round_eq, fma_round (s := 0) ?_ he (by norm_num) (by decide), Nat.zero_mul, Nat.zero_add,
    nat768_512, show (512 : ℕ) = 256 + 256 by norm_num, Nat.pow_add,
    rne_scale _ _ _ (Nat.two_pow_pos _) (Nat.two_pow_pos _)]
  rw [nat768_512, show (749 : ℕ) = 493 + 256 by norm_num, Nat.pow_add]
  exact Nat.mul_lt_mul_of_pos_right hz (Nat.two_pow_pos _)

theorem sos_finish {z : U512} {E : ℤ} {v w : ℝ} (hz1 : 2 ^ 492 ≤ UInt.nat z)
    (hz2 : UInt.nat z < 2 ^ 495) (hw : RTO w (UInt.nat z)) (hv : v = w * (2 : ℝ) ^ (E - 256)) :
    ∃ v' A, (Sos.finish z E).pat = A ∧ RoundsTo v' A ∧ v' ≤ v ∧
      (v' = v ∨ ∃ k t : ℕ, k < 2 ^ 237 ∧ (t = 0 ∨ 2 ^ 236 ≤ k) ∧ v' = (k + 1 / 2) * 2 ^ t ∧
        v < (k + 1 / 2 + 1 / 2 ^ 256) * 2 ^ t) := by
  have hz0 : UInt.nat z ≠ 0 := by have := Nat.two_pow_pos 492; omega
  obtain ⟨l, hl⟩ : ∃ l, l = (UInt.nat z).log2 := ⟨_, rfl⟩
  obtain ⟨b1, b2⟩ := log2_bounds hz0 hl.symm
  have hl1 : 492 ≤ l := by
    by_contra hc
    have := Nat.pow_le_pow_right (show 0 < 2 by norm_num) (show l + 1 ≤ 492 by omega)
    omega
  have hl2 : l ≤ 494 := by
    by_contra hc
    have := Nat.pow_le_pow_right (show 0 < 2 by norm_num) (show 495 ≤ l by omega)
    omega
  have hnlz : (leadingZeros z : ℤ) = 511 - l := by
    have h1 := LawfulBigUInt.leadingZeros_eq z
    have h2 : LawfulBigUInt.toNat z = UInt.nat z := rfl
    rw [h2, if_neg hz0, ← hl] at h1
    have h3 : BITS U512 = 512 := rfl
    rw [h3] at h1
    rw [h1]; omega
  have hpU : (0 : ℝ) < (2 : ℝ) ^ (E - 256) := zpow_pos (by norm_num) _
  have hwlo : (2 : ℝ) ^ 492 ≤ w := by
    have := hw.ge (m := 2 ^ 492) (by rw [show (492 : ℕ) = 491 + 1 by norm_num, pow_succ]; omega) hz1
    rwa [Nat.cast_pow, Nat.cast_ofNat] at this
  have hvlo (T : ℤ) (hT : T ≤ E) : 2 ^ 236 * (2 : ℝ) ^ T ≤ v := by
    rw [hv]
    calc 2 ^ 236 * (2 : ℝ) ^ T ≤ 2 ^ 236 * (2 : ℝ) ^ E :=
          mul_le_mul_of_nonneg_left (zpow_le_zpow_right₀ (by norm_num) hT) (by positivity)
      _ = 2 ^ 492 * (2 : ℝ) ^ (E - 256) := by
          rw [← zpow_natCast, ← zpow_natCast, ← zpow_add₀ (by norm_num), ← zpow_add₀ (by norm_num)]
          congr 1; push_cast; ring
      _ ≤ _ := mul_le_mul_of_nonneg_right hwlo hpU.le
  unfold Sos.finish
  dsimp only
  rw [hnlz, show (EXP_BITS : ℤ) = 19 by decide, show (EXP_MAX : ℤ) = 524287 by decide]
  by_cases hE : 524287 < E
  · rw [if_pos (by
      generalize (decide (HI_FRACTION_MASK < _)).toNat = c
      omega)]
    refine ⟨v, INF, by decide, ?_, le_refl _, Or.inl rfl⟩
    refine RoundsTo.inf (t := E.toNat) (by omega) ?_
    rw [← zpow_natCast (2 : ℝ) E.toNat, show ((E.toNat : ℕ) : ℤ) = E by omega]
    exact hvlo E (le_refl _)
  have hshl : min (max (max (E - 524287) (511 - (l : ℤ) - 19)) 0) 236 = 0 := by omega
  rw [hshl, Int.toNat_zero]
  obtain ⟨s, hs⟩ : ∃ s : ℤ, s = max (-E) (19 - (511 - (l : ℤ))) := ⟨_, rfl⟩
  rw [← hs]
  have hs0 : 0 ≤ s := by omega
  obtain ⟨r, hr⟩ : ∃ r : ℕ, r = (min (max s 0) 511).toNat := ⟨_, rfl⟩
  rw [← hr]
  obtain ⟨z', hz'⟩ : ∃ z', z' = UInt.shl (UInt.shr z r) 0 := ⟨_, rfl⟩
  have hzn : UInt.nat z' = UInt.nat z / 2 ^ r := by
    rw [hz', shl512 _ (by norm_num), pow_zero, Nat.mul_one, shr512 _ (by omega)]
    exact Nat.mod_eq_of_lt (lt_of_le_of_lt (Nat.div_le_self _ _) (nat512_lt z))
  rw [← hz']
  have hb : (HI_FRACTION_MASK < z'.hi.hi) ↔ 2 ^ 492 ≤ UInt.nat z' := by
    have h1 : UInt.nat z' = nat256 z'.hi * 2 ^ 256 + nat256 z'.lo := rfl
    have h2 := nat256_lt z'.lo
    have h3 : nat256 z'.hi = z'.hi.hi.toNat * 2 ^ 128 + z'.hi.lo.toNat := rfl
    have h4 := z'.hi.lo.isLt
    have h5 : HI_FRACTION_MASK.toNat = 2 ^ 108 - 1 := by decide
    rw [BitVec.lt_def, h5, h1, h3, show (492 : ℕ) = 108 + 128 + 256 by norm_num, Nat.pow_add,
      Nat.pow_add]
    generalize z'.hi.hi.toNat = c1 at *
    generalize z'.hi.lo.toNat = c2 at *
    generalize nat256 z'.lo = c3 at *
    clear * - h2 h4
    omega
  simp only [hb]
  by_cases hbig : 511 < s
  · -- everything is shifted out
    have hr511 : r = 511 := by omega
    have hz'0 : UInt.nat z' = 0 := by
      rw [hzn, hr511]
      exact Nat.div_eq_of_lt (hz2.trans (Nat.pow_lt_pow_right (by norm_num) (by norm_num)))
    have hn : ¬ 2 ^ 492 ≤ UInt.nat z' := by rw [hz'0]; have := Nat.two_pow_pos 492; omega
    rw [decide_eq_false hn, Bool.toNat_false, if_neg (by push_cast; omega),
      show min (max (E + (s - 0 + ((0 : ℕ) : ℤ)) - 1) 0) 524287 = ((0 : ℕ) : ℤ) by push_cast; omega]
    have hv2 : v < 1 / 2 := by
      have hwhi : w < 2 ^ 495 := by
        have := hw.lt hz2
        rwa [Nat.cast_pow, Nat.cast_ofNat] at this
      rw [hv]
      calc w * (2 : ℝ) ^ (E - 256) < 2 ^ 495 * (2 : ℝ) ^ (E - 256) :=
            mul_lt_mul_of_pos_right hwhi hpU
        _ = (2 : ℝ) ^ (239 + E) := by
            rw [← zpow_natCast, ← zpow_add₀ (by norm_num)]; congr 1; push_cast; ring
        _ ≤ (2 : ℝ) ^ (-1 : ℤ) := zpow_le_zpow_right₀ (by norm_num) (by omega)
        _ = 1 / 2 := by norm_num
    have hv0 : 0 ≤ v := by rw [hv]; exact mul_nonneg (le_trans (by positivity) hwlo) hpU.le
    refine ⟨v, 0 * 2 ^ 236 + 0, ?_, ?_, le_refl _, Or.inl rfl⟩
    · rw [sos_round (by rw [hz'0]; exact Nat.two_pow_pos _) (by norm_num), hz'0]
      decide
    · refine RoundsTo.of_rne (w := v) (by rw [pow_zero, mul_one])
        (lt_trans hv2 (by norm_num)) (Or.inl rfl) ⟨?_, fun _ => rfl⟩ (by norm_num)
      rw [Nat.cast_zero, sub_zero, abs_of_nonneg hv0]
      exact hv2.le
  have hrs : (r : ℤ) = s := by omega
  obtain ⟨T, hT⟩ : ∃ T : ℕ, (T : ℤ) = E + s := ⟨(E + s).toNat, by omega⟩
  have hr2 : l - 492 ≤ r := by omega
  have hz493 : UInt.nat z' < 2 ^ 493 := by
    rw [hzn, Nat.div_lt_iff_lt_mul (Nat.two_pow_pos _), ← Nat.pow_add]
    exact lt_of_lt_of_le b2 (Nat.pow_le_pow_right (by norm_num) (by omega))
  have hTor : T = 0 ∨ 2 ^ 492 ≤ UInt.nat z' := by
    by_cases h : r = l - 492
    · right
      rw [hzn, Nat.le_div_iff_mul_le (Nat.two_pow_pos _), ← Nat.pow_add]
      exact le_trans (Nat.pow_le_pow_right (by norm_num) (by omega)) b1
    · left; omega
  -- `v` in units of `2^T`
  have hvT : v = w / 2 ^ r / 2 ^ 256 * 2 ^ T := by
    rw [hv, div_eq_mul_inv, div_eq_mul_inv, mul_assoc, mul_assoc, ← zpow_natCast (2 : ℝ) r,
      ← zpow_natCast (2 : ℝ) 256, ← zpow_natCast (2 : ℝ) T, ← zpow_neg, ← zpow_neg,
      ← zpow_add₀ (by norm_num), ← zpow_add₀ (by norm_num)]
    congr 2
    push_cast; omega
  have hz'w : 2 ^ 492 ≤ UInt.nat z' → (2 : ℝ) ^ 236 ≤ w / 2 ^ r / 2 ^ 256 := by
    intro h
    rw [hzn, Nat.le_div_iff_mul_le (Nat.two_pow_pos _)] at h
    have h1 := hw.ge (m := 2 ^ 492 * 2 ^ r)
      (by rw [show (492 : ℕ) = 491 + 1 by norm_num, pow_succ]; rw [Nat.mul_assoc, Nat.mul_mod, Nat.mul_mod 2]; simp) h
    rw [Nat.cast_mul, Nat.cast_pow, Nat.cast_pow, Nat.cast_ofNat] at h1
    rw [le_div_iff₀ (by positivity), le_div_iff₀ (by positivity), ← pow_add]
    exact h1
  by_cases hov : 524286 ≤ T
  · -- overflow
    have h1 : 2 ^ 492 ≤ UInt.nat z' := hTor.resolve_left (by omega)
    rw [decide_eq_true h1, Bool.toNat_true, if_pos (by push_cast; omega)]
    refine ⟨v, INF, by decide, ?_, le_refl _, Or.inl rfl⟩
    refine RoundsTo.inf (t := T) hov ?_
    rw [hvT]
    exact mul_le_mul_of_nonneg_right (hz'w h1) (by positivity)
  have hw237 : w / 2 ^ r / 2 ^ 256 < 2 ^ 237 := by
    have h1 := hz493
    rw [hzn, Nat.div_lt_iff_lt_mul (Nat.two_pow_pos _)] at h1
    have h2 := hw.lt h1
    rw [Nat.cast_mul, Nat.cast_pow, Nat.cast_pow, Nat.cast_ofNat] at h2
    rw [div_lt_iff₀ (by positivity), div_lt_iff₀ (by positivity), ← pow_add]
    exact h2
  have hcond : ¬ (E + (s - 0 + (((decide (2 ^ 492 ≤ UInt.nat z')).toNat : ℕ) : ℤ)) ≥ 524287) := by
    have := bool_toNat_le (decide (2 ^ 492 ≤ UInt.nat z'))
    generalize (decide (2 ^ 492 ≤ UInt.nat z')).toNat = c at *
    omega
  have hexp : min (max (E + (s - 0 + (((decide (2 ^ 492 ≤ UInt.nat z')).toNat : ℕ) : ℤ)) - 1) 0)
      524287 = (T : ℤ) := by
    by_cases h : 2 ^ 492 ≤ UInt.nat z'
    · rw [decide_eq_true h, Bool.toNat_true]; push_cast; omega
    · rw [decide_eq_false h, Bool.toNat_false]
      have := hTor.resolve_right h
      push_cast; omega
  rw [if_neg hcond, hexp, sos_round hz493 (by omega)]
  have hM := RNE.of_rne (UInt.nat z') (b := 2 ^ 256) (Nat.two_pow_pos _)
  rw [Nat.cast_pow, Nat.cast_ofNat] at hM
  generalize Spec.rne (UInt.nat z') (2 ^ 256) = M at *
  have hsh := sos_shift (s := r) hw (M := M) (by rw [← hzn]; exact hM)
  rw [← hzn] at hsh
  rcases hsh with hR | ⟨m1, m2, m3⟩
  · refine ⟨v, _, rfl, ?_, le_refl _, Or.inl rfl⟩
    exact RoundsTo.of_rne hvT hw237 (hTor.imp id hz'w) hR (by omega)
  · -- a midpoint
    have hdm := Nat.div_add_mod (UInt.nat z') (2 ^ 256)
    rw [m1] at hdm
    obtain ⟨k, hk⟩ : ∃ k, k = UInt.nat z' / 2 ^ 256 := ⟨_, rfl⟩
    rw [← hk] at hdm
    have hp : (0 : ℝ) < 2 ^ T := by positivity
    have hzk : (UInt.nat z' : ℝ) / 2 ^ 256 = k + 1 / 2 := by
      rw [← hdm, Nat.cast_add, Nat.cast_mul, Nat.cast_pow, Nat.cast_pow, Nat.cast_ofNat, add_div,
        mul_div_cancel_left₀ _ (by positivity)]
      norm_num
    have hk237 : k < 2 ^ 237 := by
      rw [hk, Nat.div_lt_iff_lt_mul (Nat.two_pow_pos _), ← Nat.pow_add]
      exact hz493
    have hk236 : T = 0 ∨ 2 ^ 236 ≤ k := by
      refine hTor.imp id (fun h => ?_)
      rw [hk, Nat.le_div_iff_mul_le (Nat.two_pow_pos _), ← Nat.pow_add]
      exact h
    refine ⟨(k + 1 / 2) * 2 ^ T, _, rfl, ?_, ?_, Or.inr ⟨k, T, hk237, hk236, rfl, ?_⟩⟩
    · refine RoundsTo.of_rne (w := (k : ℝ) + 1 / 2) rfl ?_ ?_ (by rw [← hzk]; exact hM) (by omega)
      · have : (k : ℝ) + 1 ≤ 2 ^ 237 := by exact_mod_cast hk237
        linarith
      · refine hk236.imp id (fun h => ?_)
        have : (2 : ℝ) ^ 236 ≤ k := by exact_mod_cast h
        linarith
    · rw [hvT, ← hzk]
      refine mul_le_mul_of_nonneg_right ?_ hp.le
      exact div_le_div_of_nonneg_right m2.le (by positivity)
    · rw [hvT, ← hzk]
      refine mul_lt_mul_of_pos_right ?_ hp
      rw [← add_div]
      exact div_lt_div_of_pos_right m3 (by positivity)

/-- The sum of squares, measured in quanta, as computed by the code for two normal numbers. -/
theorem sos_normal {A B : U256} {Tx Ty : ℕ} {v : ℝ}
    (x1 : (expBits A : ℤ) - normBit A = Tx) (x2 : 2 ^ 236 ≤ nat256 (signif A))
    (x3 : nat256 (signif A) < 2 ^ 237)
    (y1 : (expBits B : ℤ) - normBit B = Ty) (y2 : nat256 (signif B) ≠ 0)
    (y3 : nat256 (signif B) < 2 ^ 237) (hT : Ty ≤ Tx) (hTx : Tx ≤ 524285)
    (hv : v = (((nat256 (signif A) * 2 ^ Tx) ^ 2 + (nat256 (signif B) * 2 ^ Ty) ^ 2 : ℕ) : ℝ) /
      2 ^ 262378) :
    ∃ r v', Sos.normal A B = some r ∧ RoundsTo v' r.pat ∧ v' ≤ v ∧
      (v' = v ∨ ∃ k t : ℕ, k < 2 ^ 237 ∧ (t = 0 ∨ 2 ^ 236 ≤ k) ∧ v' = (k + 1 / 2) * 2 ^ t ∧
        v < (k + 1 / 2 + 1 / 2 ^ 256) * 2 ^ t) := by
  obtain ⟨d, hd⟩ : ∃ d : ℕ, d = 2 * Tx - 2 * Ty := ⟨_, rfl⟩
  unfold Sos.normal
  dsimp only
  rw [x1, y1, show ((2 * (Tx : ℤ) - 2 * (Ty : ℤ)) % 4294967296).toNat = d by omega]
  have hX10 : nat256 (UInt.shl (signif A) 10) = nat256 (signif A) * 2 ^ 10 :=
    nat_shl256_of_lt _ (by norm_num) (by omega)
  have hz := square512 (UInt.shl (signif A) 10)
  rw [hX10] at hz
  have hy := square512 (signif B)
  generalize (⟨(UInt.wideningMul (UInt.shl (signif A) 10) (UInt.shl (signif A) 10)).2,
    (UInt.wideningMul (UInt.shl (signif A) 10) (UInt.shl (signif A) 10)).1⟩ : U512) = zx at *
  generalize (⟨(UInt.wideningMul (signif B) (signif B)).2,
    (UInt.wideningMul (signif B) (signif B)).1⟩ : U512) = zy at *
  obtain ⟨X, hX⟩ : ∃ X, X = nat256 (signif A) := ⟨_, rfl⟩
  obtain ⟨Y, hY⟩ : ∃ Y, Y = nat256 (signif B) := ⟨_, rfl⟩
  rw [← hX] at x2 x3 hz hv
  rw [← hY] at y2 y3 hy hv
  obtain ⟨a1, a2⟩ := sos_align (d := d) hy y2 y3
  have hzlo : 2 ^ 492 ≤ UInt.nat zx := by
    rw [hz, show (492 : ℕ) = (236 + 10) + (236 + 10) by norm_num, Nat.pow_add 2 (236 + 10),
      Nat.pow_add]
    have := Nat.mul_le_mul_right (2 ^ 10) x2
    exact Nat.mul_le_mul this this
  have hzhi : UInt.nat zx < 2 ^ 494 := by
    rw [hz, show (494 : ℕ) = (237 + 10) + (237 + 10) by norm_num, Nat.pow_add 2 (237 + 10),
      Nat.pow_add]
    have := Nat.mul_lt_mul_of_pos_right x3 (show 0 < 2 ^ 10 by norm_num)
    exact Nat.mul_lt_mul_of_lt_of_lt this this
  have hsum : UInt.nat zx + UInt.nat (Sos.align zy d) < 2 ^ 495 := by
    rw [show (495 : ℕ) = 494 + 1 by norm_num, Nat.pow_succ]
    generalize (2 : ℕ) ^ 494 = p at *
    omega
  have hadd := UInt.add_eq zx (Sos.align zy d)
  have hlt512 : UInt.nat zx + UInt.nat (Sos.align zy d) < 2 ^ 512 :=
    hsum.trans (Nat.pow_lt_pow_right (by norm_num) (by norm_num))
  rw [if_pos (show UInt.nat zx + UInt.nat (Sos.align zy d) < 2 ^ (2 * BITS U256) from hlt512)] at hadd
  rw [hadd, Option.bind_some]
  obtain ⟨z, hzz⟩ : ∃ z : U512, z = UInt.mkNat (UInt.nat zx + UInt.nat (Sos.align zy d)) := ⟨_, rfl⟩
  have hzn : UInt.nat z = UInt.nat zx + UInt.nat (Sos.align zy d) := by
    rw [hzz, UInt.nat_mkNat]
    exact Nat.mod_eq_of_lt hlt512
  rw [← hzz]
  have hev : UInt.nat zx % 2 = 0 := by
    rw [hz, show X * 2 ^ 10 * (X * 2 ^ 10) = 2 * (X * 2 ^ 9 * (X * 2 ^ 10)) by ring]; omega
  have hRTO := a1.add_even hev
  rw [← hzn] at hRTO
  obtain ⟨v', N, f1, f2, f3, f4⟩ := sos_finish (E := 2 * (Tx : ℤ) + EMIN) (v := v)
    (by omega) (by omega) hRTO (by
      have e1 : (2 : ℝ) ^ (20 - (d : ℤ)) * (2 : ℝ) ^ (2 * (Tx : ℤ) + EMIN - 256) =
          2 ^ (2 * Ty) / 2 ^ 262378 := by
        rw [← zpow_add₀ (by norm_num), ← zpow_natCast, ← zpow_natCast, ← zpow_sub₀ (by norm_num)]
        congr 1
        rw [EMIN]; push_cast; omega
      have e2 : (2 : ℝ) ^ 20 * (2 : ℝ) ^ (2 * (Tx : ℤ) + EMIN - 256) = 2 ^ (2 * Tx) / 2 ^ 262378 := by
        rw [← zpow_natCast, ← zpow_natCast, ← zpow_natCast, ← zpow_add₀ (by norm_num),
          ← zpow_sub₀ (by norm_num)]
        congr 1
        rw [EMIN]; push_cast; ring
      rw [hv, add_mul, mul_assoc, e1, hz]
      have e3 : ((X * 2 ^ 10 * (X * 2 ^ 10) : ℕ) : ℝ) * (2 : ℝ) ^ (2 * (Tx : ℤ) + EMIN - 256) =
          X * X * (2 ^ (2 * Tx) / 2 ^ 262378) := by
        rw [← e2]; push_cast; ring
      rw [e3]
      simp only [Nat.cast_mul, Nat.cast_add, Nat.cast_pow, Nat.cast_ofNat]
      rw [pow_mul', pow_mul']
      generalize (2 : ℝ) ^ 262378 = K
      ring)
  exact ⟨_, v', rfl, by rw [f1]; exact f2, f3, f4⟩

end Verif
