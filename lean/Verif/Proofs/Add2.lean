import Verif.Proofs.Add

/-!
# Refinement of `src/binops/add.rs`, part 2
-/

namespace Verif

open BigUInt LawfulBigUInt

theorem rne_two (n : ℕ) : Spec.rne n 2 = n / 2 + (decide (n % 4 = 3)).toNat := by
  unfold Spec.rne
  by_cases h : n % 4 = 3
  · rw [if_pos (by omega), decide_eq_true h]; rfl
  · rw [if_neg (by omega), decide_eq_false h]; rfl

theorem combine_nat (b : Bool) {x y s t : ℕ} (h : y ≤ x) (hs : s = if b then x + y else x - y) :
    combine b ((x : ℝ) * 2 ^ t) ((y : ℝ) * 2 ^ t) = (s : ℝ) * 2 ^ t := by
  cases b
  · simp only [Bool.false_eq_true, if_false] at hs
    rw [combine_false, hs, Nat.cast_sub h]; ring
  · simp only [if_true] at hs
    rw [combine_true, hs, Nat.cast_add]; ring

theorem INF_new : nat256 (U256.new INF_HI 0) = INF := by decide

theorem addOrSubNormalsExact_spec (b : Bool) {e sx sy : ℕ} {SX SY : U256}
    (hx : nat256 SX = sx) (hy : nat256 SY = sy) (he1 : 1 ≤ e) (hex : e ≤ 524286)
    (hsx2 : sx < 2 ^ 237) (hsy1 : 2 ^ 236 ≤ sy) (hle : sy ≤ sx)
    (hne : b = false → sy < sx) {V : ℝ}
    (hV : V = combine b (sx * 2 ^ (e - 1)) (sy * 2 ^ (e - 1))) :
    ∃ z, addOrSubNormalsExact e SX SY (opOf b) = some z ∧ RoundsTo V (nat256 z) := by
  obtain ⟨z, hz, hzn⟩ := opOf_spec b (x := SX) (y := SY) (by omega) (by omega)
  rw [hx, hy] at hzn
  obtain ⟨S, hS⟩ : ∃ S, nat256 z = S := ⟨_, rfl⟩
  rw [hS] at hzn
  rw [combine_nat b hle hzn] at hV
  have hSb : 0 < S ∧ S ≤ 2 ^ 238 - 2 := by
    cases b
    · simp only [Bool.false_eq_true, if_false] at hzn
      have := hne rfl
      omega
    · simp only [if_true] at hzn
      omega
  clear hzn hle hne
  have hEM : EXP_MAX = 524287 := rfl
  have hc1 : HI_FRACTION_BIAS <<< 1 ≤ z.hi ↔ 2 ^ 237 ≤ nat256 z :=
    pow_le_hi z (k := 109) (by decide)
  have hc0 : z.hi < HI_FRACTION_BIAS ↔ nat256 z < 2 ^ 236 := hi_lt_pow z (k := 108) (by decide)
  have hun : addOrSubNormalsExact e SX SY (opOf b) =
      if HI_FRACTION_BIAS <<< 1 ≤ z.hi then
        if e + 1 ≥ EXP_MAX then some (U256.new INF_HI 0)
        else some (packAbs (incrIf (UInt.shr z 1) (decide ((z.lo &&& 3).toNat = 3))) (e + 1))
      else if z.hi < HI_FRACTION_BIAS then
        some (packAbs (UInt.shl z (min (FRACTION_BITS - msb z) e -
          (decide (e - min (FRACTION_BITS - msb z) e = 0)).toNat))
            (e - min (FRACTION_BITS - msb z) e))
      else some (packAbs z e) := by
    unfold addOrSubNormalsExact
    rw [hz]
    simp only [Option.bind_eq_bind, Option.bind_some, Option.pure_def]
  rw [hun]
  simp only [hc1, hc0, hS]
  by_cases h1 : 2 ^ 237 ≤ S
  · rw [if_pos h1]
    by_cases hinf : e + 1 ≥ EXP_MAX
    · rw [if_pos hinf]
      refine ⟨_, rfl, ?_⟩
      rw [INF_new]
      refine RoundsTo.inf (t := e) (by omega) ?_
      rw [hV]
      have e2 : (2 : ℝ) ^ e = 2 * 2 ^ (e - 1) := by
        rw [← pow_succ']; congr 1; omega
      rw [e2, ← mul_assoc]
      have : (2 : ℝ) ^ 237 ≤ S := by exact_mod_cast h1
      exact mul_le_mul_of_nonneg_right (by linarith) (by positivity)
    · rw [if_neg hinf]
      refine ⟨_, rfl, ?_⟩
      have hM := RNE.of_rne S (b := 2) (by norm_num)
      have hrb : 2 ^ 236 ≤ Spec.rne S 2 ∧ Spec.rne S 2 < 2 ^ 237 := by
        clear * - h1 hSb
        unfold Spec.rne
        split <;> omega
      have hn : nat256 (incrIf (UInt.shr z 1) (decide ((z.lo &&& 3).toNat = 3))) =
          Spec.rne S 2 := by
        rw [nat_incrIf256, nat_shr256 z (by norm_num), lo_and_3, hS, pow_one, ← rne_two,
          Nat.mod_eq_of_lt]
        exact lt_trans hrb.2 (by norm_num)
      rw [hEM] at hinf
      have hp := nat_packAbs (incrIf (UInt.shr z 1) (decide ((z.lo &&& 3).toNat = 3)))
        (e := e + 1) (by clear * - hinf; omega)
      rw [hn] at hp
      have hp' : (e + 1) * 2 ^ 236 + Spec.rne S 2 % 2 ^ 236 = e * 2 ^ 236 + Spec.rne S 2 := by
        generalize Spec.rne S 2 = r at hrb ⊢
        clear * - hrb
        omega
      rw [hp, hp']
      refine RoundsTo.of_rne (w := (S : ℝ) / (2 : ℕ)) ?_ ?_ (Or.inr ?_) hM ?_
      · rw [hV, show (2 : ℝ) ^ e = 2 * 2 ^ (e - 1) by
          rw [← pow_succ']; congr 1; clear * - he1; omega]
        push_cast; ring
      · have : (S : ℝ) < 2 ^ 238 := by
          have : S < 2 ^ 238 := by clear * - hSb; omega
          exact_mod_cast this
        push_cast; linarith
      · have : (2 : ℝ) ^ 237 ≤ S := by exact_mod_cast h1
        push_cast; linarith
      · clear * - hinf; omega
  · rw [if_neg h1]
    by_cases h0 : S < 2 ^ 236
    · rw [if_pos h0]
      refine ⟨_, rfl, ?_⟩
      have hne : nat256 z ≠ 0 := by omega
      rw [msb256 hne, FRACTION_BITS, hS]
      rw [hS] at hne
      obtain ⟨l, hl⟩ : ∃ l, S.log2 = l := ⟨_, rfl⟩
      obtain ⟨hl1, hl2⟩ := log2_bounds hne hl
      rw [hl]
      have hl3 : l < 236 := by
        by_contra hcon
        have : 2 ^ 236 ≤ 2 ^ l := Nat.pow_le_pow_right (by norm_num) (by omega)
        omega
      rcases Nat.lt_or_ge (236 - l) e with hadj | hadj
      · have e1 : min (236 - l) e = 236 - l := by omega
        have e2 : (decide (e - (236 - l) = 0)).toNat = 0 := by
          rw [decide_eq_false (by omega)]; rfl
        rw [e1, e2, Nat.sub_zero]
        have hpow : 2 ^ 237 = 2 ^ (l + 1) * 2 ^ (236 - l) := by rw [← pow_add]; congr 1; omega
        have hpow' : 2 ^ 236 = 2 ^ l * 2 ^ (236 - l) := by rw [← pow_add]; congr 1; omega
        have hlt : S * 2 ^ (236 - l) < 2 ^ 237 := by
          rw [hpow]; exact Nat.mul_lt_mul_of_pos_right hl2 (Nat.two_pow_pos _)
        have hge : 2 ^ 236 ≤ S * 2 ^ (236 - l) := by
          rw [hpow']; exact Nat.mul_le_mul_right _ hl1
        have hzn' : nat256 (UInt.shl z (236 - l)) = S * 2 ^ (236 - l) := by
          rw [← hS] at hlt ⊢
          exact nat_shl256_of_lt z (by omega) (lt_trans hlt (by norm_num))
        rw [nat_packAbs _ (by omega), hzn']
        have e3 : (e - (236 - l)) * 2 ^ 236 + S * 2 ^ (236 - l) % 2 ^ 236 =
            (e - (236 - l) - 1) * 2 ^ 236 + S * 2 ^ (236 - l) := by omega
        have e4 : V = ((S * 2 ^ (236 - l) * 2 ^ (e - (236 - l) - 1) : ℕ) : ℝ) := by
          rw [hV, Nat.mul_assoc, ← pow_add, Nat.cast_mul, Nat.cast_pow, Nat.cast_ofNat]
          congr 2; omega
        rw [e3, e4]
        exact RoundsTo.exact hlt (Or.inr hge) (by omega)
      · have e1 : min (236 - l) e = e := by omega
        rw [e1, Nat.sub_self, decide_eq_true rfl, Bool.toNat_true]
        have hpow : 2 ^ (l + 1) * 2 ^ (e - 1) ≤ 2 ^ 236 := by
          rw [← pow_add]; exact Nat.pow_le_pow_right (by norm_num) (by omega)
        have hlt : S * 2 ^ (e - 1) < 2 ^ 236 :=
          lt_of_lt_of_le (Nat.mul_lt_mul_of_pos_right hl2 (Nat.two_pow_pos _)) hpow
        have hzn' : nat256 (UInt.shl z (e - 1)) = S * 2 ^ (e - 1) := by
          rw [← hS] at hlt ⊢
          exact nat_shl256_of_lt z (by omega) (lt_trans hlt (by norm_num))
        rw [nat_packAbs _ (by omega), hzn', Nat.mod_eq_of_lt hlt]
        have e4 : V = ((S * 2 ^ (e - 1) * 2 ^ 0 : ℕ) : ℝ) := by
          rw [hV, pow_zero, mul_one, Nat.cast_mul, Nat.cast_pow, Nat.cast_ofNat]
        rw [e4]
        exact RoundsTo.exact (lt_trans hlt (by norm_num)) (Or.inl rfl) (by omega)
    · rw [if_neg h0]
      refine ⟨_, rfl, ?_⟩
      rw [nat_packAbs _ (by omega), hS]
      have e3 : e * 2 ^ 236 + S % 2 ^ 236 = (e - 1) * 2 ^ 236 + S := by omega
      have e4 : V = ((S * 2 ^ (e - 1) : ℕ) : ℝ) := by
        rw [hV, Nat.cast_mul, Nat.cast_pow, Nat.cast_ofNat]
      rw [e3, e4]
      exact RoundsTo.exact (by omega) (Or.inr (by omega)) (by omega)

theorem addOrSubSubnormals_spec (b : Bool) {sx sy : ℕ} {SX SY : U256}
    (hx : nat256 SX = sx) (hy : nat256 SY = sy) (hsx : sx < 2 ^ 236) (hle : sy ≤ sx) {V : ℝ}
    (hV : V = combine b sx sy) :
    ∃ z, addOrSubSubnormals SX SY (opOf b) = some z ∧ RoundsTo V (nat256 z) := by
  obtain ⟨z, hz, hzn⟩ := opOf_spec b (x := SX) (y := SY) (by omega) (by omega)
  rw [hx, hy] at hzn
  refine ⟨z, hz, ?_⟩
  have h := combine_nat b (t := 0) hle hzn
  rw [pow_zero, mul_one, mul_one, mul_one] at h
  have hlt : nat256 z < 2 ^ 237 := by
    cases b
    · simp only [Bool.false_eq_true, if_false] at hzn; omega
    · simp only [if_true] at hzn; omega
  have := RoundsTo.exact (t := 0) hlt (Or.inl rfl) (by norm_num)
  rw [pow_zero, mul_one, Nat.zero_mul, Nat.zero_add] at this
  rwa [hV, h]

/-- The finite non-zero case, in terms of magnitudes. -/
theorem addAbs_spec (b : Bool) {A B : U256} (hA : nat256 A < INF) (hB0 : nat256 B ≠ 0)
    (hle : nat256 B ≤ nat256 A) (hne : b = false → nat256 B ≠ nat256 A) :
    ∃ z, addAbs A B b = some z ∧
      RoundsTo (combine b (mag (nat256 A)) (mag (nat256 B))) (nat256 z) := by
  have hop : (if b then UInt.add else UInt.sub : U256 → U256 → Option U256) = opOf b := rfl
  unfold addAbs
  simp only [hop]
  rw [normBit_eq, expBits_eq, expBits_eq]
  have hsA := nat_signif A
  have hsB := nat_signif B
  generalize signif A = SX at *
  generalize signif B = SY at *
  generalize nat256 A = a at *
  generalize nat256 B = c at *
  unfold INF at hA
  have fA : Spec.expField a = a / 2 ^ 236 := by unfold Spec.expField; omega
  have fB : Spec.expField c = c / 2 ^ 236 := by unfold Spec.expField; omega
  have sA : Spec.significandOf a = nat256 SX := by
    unfold Spec.significandOf Spec.fracField
    rw [fA, hsA]; split_ifs <;> omega
  have sB : Spec.significandOf c = nat256 SY := by
    unfold Spec.significandOf Spec.fracField
    rw [fB, hsB]; split_ifs <;> omega
  have mA : (mag a : ℝ) = (nat256 SX : ℝ) * 2 ^ (a / 2 ^ 236 - 1) := by
    unfold mag; rw [fA, sA, Nat.cast_mul, Nat.cast_pow, Nat.cast_ofNat]
  have mB : (mag c : ℝ) = (nat256 SY : ℝ) * 2 ^ (c / 2 ^ 236 - 1) := by
    unfold mag; rw [fB, sB, Nat.cast_mul, Nat.cast_pow, Nat.cast_ofNat]
  rw [mA, mB]
  by_cases hn : 2 ^ 236 ≤ a
  · rw [if_pos hn] at hsA
    rw [if_pos hn, if_neg (by norm_num)]
    by_cases he : a / 2 ^ 236 = c / 2 ^ 236
    · rw [if_pos he]
      have hnc : 2 ^ 236 ≤ c := by omega
      rw [if_pos hnc] at hsB
      refine addOrSubNormalsExact_spec b rfl rfl (by omega) (by omega) (by omega) (by omega)
        (by omega) (fun h => ?_) (by rw [he])
      have := hne h
      omega
    · rw [if_neg he]
      refine addOrSubRounded_spec b rfl rfl ?_ (by omega) (by omega) (by omega) ?_ ?_ ?_ rfl
      · have := Nat.div_le_div_right (c := 2 ^ 236) hle
        omega
      · rw [hsB]; split_ifs <;> omega
      · rw [hsB]; split_ifs <;> omega
      · intro h; rw [hsB, if_neg (by omega)]; omega
  · rw [if_neg hn] at hsA
    rw [if_neg hn, if_pos rfl]
    rw [if_neg (by omega)] at hsB
    have e1 : a / 2 ^ 236 - 1 = 0 := by omega
    have e2 : c / 2 ^ 236 - 1 = 0 := by omega
    refine addOrSubSubnormals_spec b rfl rfl (by omega) (by omega) ?_
    rw [e1, e2, pow_zero, mul_one, mul_one]

end Verif
