import Verif.Proofs.FastExact
import Verif.Proofs.PowTable
import Verif.Proofs.New

/-!
# `fast_approx`: the result is a nearest one for an approximation from below
-/

namespace Verif

open Spec Props

/-- The rounding direction, src/conv/from_str/fast_approx.rs:55-82 -/
def approxUp (e : ℤ) (S : U256) (sh : ℕ) (c : Bool) : Option Bool :=
  let mask : BitVec 128 := (1 <<< sh) - 1
  let tie : BitVec 128 := 1 <<< (sh - 1)
  let fract := S.lo &&& mask
  if fract > tie then some true
  else if fract < tie then
    if fract = tie - 1 then none else some false
  else if 0 ≤ e ∧ e ≤ 110 then some c
  else some true

theorem approx_round {S : U256} {sh : ℕ} (hsh : sh = 18 ∨ sh = 19) {up c : Bool} {e : ℤ}
    (h : approxUp e S sh c = some up) :
    (up = false → 2 * (nat256 S % 2 ^ sh) ≤ 2 ^ sh) ∧ (up = true → 2 ^ sh ≤ 2 * (nat256 S % 2 ^ sh)) := by
  unfold approxUp at h
  simp only at h
  generalize hm : ((1 <<< sh : ℕ) : BitVec 128) - 1 = m at h
  generalize hy : ((1 <<< (sh - 1) : ℕ) : BitVec 128) = y at h
  have hm' : m.toNat = 2 ^ sh - 1 := by
    subst hm; rcases hsh with rfl | rfl <;> decide
  have ht : y.toNat * 2 = 2 ^ sh := by
    subst hy; rcases hsh with rfl | rfl <;> decide
  have hf : (S.lo &&& m).toNat = nat256 S % 2 ^ sh := by
    rw [BitVec.toNat_and, hm', Nat.and_two_pow_sub_one_eq_mod, nat_mod_lo _ (by omega)]
  generalize S.lo &&& m = x at *
  simp only [gt_iff_lt, BitVec.lt_def] at h
  split_ifs at h with h1 h2 h3 h4
  · simp only [Option.some.injEq] at h; subst h; exact ⟨by simp, fun _ => by omega⟩
  · simp only [Option.some.injEq] at h; subst h; exact ⟨fun _ => by omega, by simp⟩
  · exact ⟨fun _ => by omega, fun _ => by omega⟩
  · exact ⟨fun _ => by omega, fun _ => by omega⟩

theorem approx_none {S : U256} {sh : ℕ} (hsh : sh = 18 ∨ sh = 19) {c : Bool} {e : ℤ}
    (h : approxUp e S sh c = none) : 2 * (nat256 S % 2 ^ sh) + 2 = 2 ^ sh := by
  unfold approxUp at h
  simp only at h
  generalize hm : ((1 <<< sh : ℕ) : BitVec 128) - 1 = m at h
  generalize hy : ((1 <<< (sh - 1) : ℕ) : BitVec 128) = y at h
  have hm' : m.toNat = 2 ^ sh - 1 := by
    subst hm; rcases hsh with rfl | rfl <;> decide
  have ht : (y - 1).toNat * 2 + 2 = 2 ^ sh := by
    subst hy; rcases hsh with rfl | rfl <;> decide
  have hf : (S.lo &&& m).toNat = nat256 S % 2 ^ sh := by
    rw [BitVec.toNat_and, hm', Nat.and_two_pow_sub_one_eq_mod, nat_mod_lo _ (by omega)]
  split_ifs at h with h1 h2 h3 h4
  rw [h3] at hf
  omega

/-- `u` is about in the middle between two neighbouring numbers. -/
def HalfU (u : ℝ) : Prop :=
  ∃ t k : ℕ, 2 ^ 236 ≤ k ∧ k < 2 ^ 237 ∧ ((k : ℝ) + 1 / 4) * 2 ^ t ≤ u ∧ u < ((k : ℝ) + 3 / 4) * 2 ^ t

/-- Such a number is not just above a number. -/
theorem HalfU.clear {u : ℝ} (h : HalfU u) {N : ℕ} (hN : N < INF) : ¬ JustAboveU u (mag N) := by
  obtain ⟨t, k, hk1, hk2, h1, h2⟩ := h
  rintro ⟨j1, j2⟩
  have hpt : (0 : ℝ) < 2 ^ t := by positivity
  have hkR : (k : ℝ) < 2 ^ 237 := by exact_mod_cast hk2
  have low : (mag N : ℝ) ≤ k * 2 ^ t → False := by
    intro hle
    have e1 : (mag N : ℝ) * (1 + 1 / 2 ^ 252) ≤ (k * 2 ^ t) * (1 + 1 / 2 ^ 252) :=
      mul_le_mul_of_nonneg_right hle (by positivity)
    have e2 : (k : ℝ) * (1 + 1 / 2 ^ 252) ≤ k + 1 / 4 := by
      rw [mul_add, mul_one, mul_one_div]
      have : (k : ℝ) / 2 ^ 252 ≤ 1 / 4 := by
        rw [div_le_iff₀ (by positivity)]
        norm_num at hkR ⊢
        linarith
      linarith
    have e3 : (k * 2 ^ t : ℝ) * (1 + 1 / 2 ^ 252) ≤ (k + 1 / 4) * 2 ^ t := by
      calc (k * 2 ^ t : ℝ) * (1 + 1 / 2 ^ 252) = (k * (1 + 1 / 2 ^ 252)) * 2 ^ t := by ring
        _ ≤ _ := mul_le_mul_of_nonneg_right e2 hpt.le
    linarith
  rcases Nat.lt_or_ge 524285 t with ht | ht
  · apply low
    have e1 : mag N ≤ mag INF := mag_mono hN.le le_rfl
    rw [mag_INF] at e1
    have e2 : 2 ^ 237 * 2 ^ 524285 ≤ k * 2 ^ t := by
      obtain ⟨i, rfl⟩ := Nat.exists_eq_add_of_lt ht
      rw [show 524285 + i + 1 = 524285 + (i + 1) by ring, pow_add 2 524285, pow_succ 2 i]
      have : 2 ^ 237 ≤ k * (2 ^ i * 2) := by
        have : 1 ≤ 2 ^ i := Nat.one_le_two_pow
        calc 2 ^ 237 = 2 ^ 236 * (1 * 2) := by norm_num
          _ ≤ k * (2 ^ i * 2) := Nat.mul_le_mul hk1 (Nat.mul_le_mul_right _ this)
      calc 2 ^ 237 * 2 ^ 524285 ≤ k * (2 ^ i * 2) * 2 ^ 524285 := Nat.mul_le_mul_right _ this
        _ = _ := by ring
    exact_mod_cast e1.trans e2
  · have m1 := mag_asm' (t := t) (M := k) (Or.inr hk1) hk2.le ht
    have m2 := mag_asm' (t := t) (M := k + 1) (Or.inr (by omega)) hk2 ht
    rcases Nat.lt_or_ge (t * 2 ^ 236 + k) N with hlt | hge
    · have e1 : mag (t * 2 ^ 236 + (k + 1)) ≤ mag N := mag_mono (by omega) hN.le
      rw [m2] at e1
      have e2 : ((k : ℝ) + 1) * 2 ^ t ≤ mag N := by exact_mod_cast e1
      have : ((k : ℝ) + 3 / 4) * 2 ^ t ≤ (k + 1) * 2 ^ t :=
        mul_le_mul_of_nonneg_right (by linarith) hpt.le
      linarith
    · apply low
      have e1 : mag N ≤ mag (t * 2 ^ 236 + k) := mag_mono hge (by unfold INF; omega)
      rw [m1] at e1
      exact_mod_cast e1

/-- The pattern assembled, src/conv/from_str/fast_approx.rs:84-98 -/
theorem approx_asm {sign t : ℕ} {e : ℤ} {S : U256} {up : Bool} (hs : sign ≤ 1) (ht : 0 < t)
    (ht' : t + 2 < 2 ^ 19) (he : e + 262142 = t)
    (h1 : 2 ^ 236 ≤ nat256 S) (h2 : nat256 S < 2 ^ 237) :
    let S1 := if up then UInt.incr S else S
    let over := up && decide (S1.hi ≥ HI_FRACTION_BIAS <<< 1)
    (F256.new sign (if over then e + 1 else e) (if over then UInt.shr S1 1 else S1)).pat =
      sign * 2 ^ 255 + (t * 2 ^ 236 + (nat256 S + up.toNat)) := by
  cases up with
  | false =>
    intro S1 over
    have : over = false := rfl
    rw [this, if_neg (by simp), if_neg (by simp), pat_new (k := t + 1) _ hs (by omega) (by push_cast; omega)]
    simp only [S1, Bool.false_eq_true, if_false, Bool.toNat_false]
    omega
  | true =>
    intro S1 over
    have hS1 : nat256 S1 = nat256 S + 1 := by
      simp only [S1, if_true]
      rw [nat_incr256, Nat.mod_eq_of_lt (by omega)]
    have hov : over = decide (nat256 S1 = 2 ^ 237) := by
      simp only [over, Bool.true_and, ge_iff_le, BitVec.le_def]
      rw [show (HI_FRACTION_BIAS <<< 1).toNat = 2 ^ 109 by decide]
      congr 1
      rw [eq_iff_iff]
      have := S1.lo.isLt
      unfold nat256 at hS1 ⊢
      unfold nat256 at h2
      omega
    clear_value S1 over
    by_cases h : nat256 S1 = 2 ^ 237
    · rw [hov, decide_eq_true h, if_pos rfl, if_pos rfl, pat_new (k := t + 2) _ hs (by omega) (by push_cast; omega),
        nat_shr256 _ (by norm_num), h, Bool.toNat_true]
      omega
    · rw [hov, decide_eq_false h, if_neg (by simp), if_neg (by simp),
        pat_new (k := t + 1) _ hs (by omega) (by push_cast; omega), hS1, Bool.toNat_true]
      omega

/-- The number assembled, src/conv/from_str/fast_approx.rs:84-98 -/
def approxEnd (sign : ℕ) (e e2 : ℤ) (nlz nlz2 : ℕ) (S : U256) (up : Bool) : F256 :=
  let S1 := if up then UInt.incr S else S
  let over := up && decide (S1.hi ≥ HI_FRACTION_BIAS <<< 1)
  let x := (if over then e2 + 1 else e2) + (256 - nlz - nlz2 + e)
  if x > EMAX then signedInf sign
  else F256.new sign x (if over then UInt.shr S1 1 else S1)

theorem approxCore_eq {sign : ℕ} {e e2 : ℤ} {w T S : U256} (hT : getPowerOfFive e = some (T, e2))
    (hS : BigUInt.truncatingMul (UInt.shl w (BigUInt.leadingZeros w)) T = S) {sh : ℕ}
    (hsh : EXP_BITS - BigUInt.leadingZeros S = sh) :
    approxCore sign e w = some ((approxUp e S sh (UInt.isOdd (UInt.shr S sh))).map
      (approxEnd sign e e2 (BigUInt.leadingZeros w) (BigUInt.leadingZeros S) (UInt.shr S sh))) := by
  subst hS
  subst hsh
  unfold approxCore
  rw [hT]
  simp only [Option.bind_eq_bind, Option.bind_some, Option.pure_def]
  generalize hR : approxUp e _ _ _ = R
  unfold approxUp at hR
  simp only at hR
  rw [hR]
  cases R with
  | none => rfl
  | some up =>
    simp only [Option.map_some]
    unfold approxEnd
    simp only
    split_ifs <;> rfl

theorem approxEnd_pat {sign t nlz nlz2 : ℕ} {e e2 : ℤ} {S : U256} {up : Bool} (hs : sign ≤ 1)
    (ht : 0 < t) (ht' : t < 500000) (he : (e2 + (256 - nlz - nlz2 + e)) + 262142 = (t : ℤ))
    (h1 : 2 ^ 236 ≤ nat256 S) (h2 : nat256 S < 2 ^ 237) :
    (approxEnd sign e e2 nlz nlz2 S up).pat =
      sign * 2 ^ 255 + (t * 2 ^ 236 + (nat256 S + up.toNat)) := by
  rw [← approx_asm (S := S) (up := up) hs ht (by omega) he h1 h2]
  unfold approxEnd
  simp only
  generalize (up && decide ((if up then UInt.incr S else S).hi ≥ HI_FRACTION_BIAS <<< 1)) = over
  rw [if_neg]
  · congr 2
    cases over
    · rfl
    · simp only [if_true]; ring
  · unfold EMAX; cases over <;> simp <;> omega

/-- The approximation is a nearest number to a number slightly below the exact one. If there is none, the
exact number is about in the middle between two numbers. -/
theorem approxCore_spec {sign : ℕ} {e : ℤ} {w : U256} (hs : sign ≤ 1) (h0 : nat256 w ≠ 0)
    (he : e.natAbs ≤ 1024) : ∃ r, approxCore sign e w = some r ∧ (∀ f, r = some f → ∃ A N,
      f.pat = sign * 2 ^ 255 + N ∧ 0 < A ∧ NearTo A N ∧ A ≤ decU (nat256 w) e ∧
      decU (nat256 w) e < A * (1 + 1 / 2 ^ 252)) ∧ (r = none → HalfU (decU (nat256 w) e)) := by
  obtain ⟨T, e2, hT, hT1, he2, hT2, hT3⟩ := getPowerOfFive_spec he
  have hTlt := nat256_lt T
  have hwlt := nat256_lt w
  have hlog1 := Nat.log2_self_le h0
  have hlog2 := Nat.lt_log2_self (n := nat256 w)
  have hlog : (nat256 w).log2 < 256 := (Nat.log2_lt h0).mpr hwlt
  obtain ⟨nlz, hnlz0⟩ : ∃ n, BigUInt.leadingZeros w = n := ⟨_, rfl⟩
  have hnlz := hnlz0
  rw [leadingZeros256 h0] at hnlz
  have hnlz' : (nat256 w).log2 + nlz = 255 := by omega
  obtain ⟨w', hw'⟩ : ∃ x, UInt.shl w nlz = x := ⟨_, rfl⟩
  have hwl : nat256 w * 2 ^ nlz < 2 ^ 256 := by
    calc nat256 w * 2 ^ nlz < 2 ^ ((nat256 w).log2 + 1) * 2 ^ nlz :=
          Nat.mul_lt_mul_of_pos_right hlog2 (by positivity)
      _ = 2 ^ 256 := by rw [← pow_add]; congr 1; omega
  have hwg : 2 ^ 255 ≤ nat256 w * 2 ^ nlz := by
    calc 2 ^ 255 = 2 ^ (nat256 w).log2 * 2 ^ nlz := by rw [← pow_add, hnlz']
      _ ≤ _ := Nat.mul_le_mul_right _ hlog1
  have hw'n : nat256 w' = nat256 w * 2 ^ nlz := by rw [← hw']; exact nat_shl256_of_lt w (by omega) hwl
  obtain ⟨S, hS⟩ : ∃ x, BigUInt.truncatingMul w' T = x := ⟨_, rfl⟩
  have hSn : nat256 S = nat256 w' * nat256 T / 2 ^ 256 := by
    rw [← hS]; exact LawfulBigUInt.toNat_wideningMul_snd (α := U256) w' T
  have hSg : 2 ^ 254 ≤ nat256 S := by
    rw [hSn, Nat.le_div_iff_mul_le (by positivity)]
    calc 2 ^ 254 * 2 ^ 256 = 2 ^ 255 * 2 ^ 255 := by norm_num
      _ ≤ _ := Nat.mul_le_mul (by rw [hw'n]; exact hwg) hT1
  have hSl := nat256_lt S
  have hS0 : nat256 S ≠ 0 := by omega
  obtain ⟨nlz2, hnlz20⟩ : ∃ n, BigUInt.leadingZeros S = n := ⟨_, rfl⟩
  have hnlz2 := hnlz20
  rw [leadingZeros256 hS0] at hnlz2
  have hSlog1 := Nat.log2_self_le hS0
  have hSlog2 := Nat.lt_log2_self (n := nat256 S)
  have hSlog3 : (nat256 S).log2 < 256 := (Nat.log2_lt hS0).mpr hSl
  have hSlog4 : 254 ≤ (nat256 S).log2 := (Nat.le_log2 hS0).mpr hSg
  have hsh : EXP_BITS - nlz2 = 18 ∨ EXP_BITS - nlz2 = 19 := by unfold EXP_BITS; omega
  obtain ⟨sh, hshd⟩ : ∃ x, EXP_BITS - nlz2 = x := ⟨_, rfl⟩
  rw [hshd] at hsh
  have hsh' : (nat256 S).log2 = 236 + sh := by unfold EXP_BITS at hshd; omega
  rw [hsh'] at hSlog1 hSlog2
  rw [approxCore_eq hT (by rw [hnlz0, hw', hS]) (by rw [hnlz20, hshd]), hnlz0, hnlz20]
  -- the value
  obtain ⟨t, p, htp, hp⟩ : ∃ t p : ℕ, t = p + sh ∧ (p : ℤ) = e2 + 1 - nlz + e + 262378 :=
    ⟨_, (e2 + 1 - nlz + e + 262378).toNat, rfl, by omega⟩
  have hq : nat256 (UInt.shr S sh) = nat256 S / 2 ^ sh := nat_shr256 S (by omega)
  have hq1 : 2 ^ 236 ≤ nat256 S / 2 ^ sh := by
    rw [Nat.le_div_iff_mul_le (by positivity), ← pow_add]; exact hSlog1
  have hq2 : nat256 S / 2 ^ sh < 2 ^ 237 := by
    rw [Nat.div_lt_iff_lt_mul (by positivity), ← pow_add]
    exact lt_of_lt_of_le hSlog2 (le_of_eq (by congr 1; omega))
  have hSR : (0 : ℝ) < nat256 S := by exact_mod_cast Nat.pos_of_ne_zero hS0
  have hpp : (0 : ℝ) < 2 ^ p := by positivity
  have hkey : decU (nat256 w) e =
      nat256 w' * 5 ^ e * ((2 : ℝ) ^ ((p : ℤ) - 256 - (e2 - 255))) := by
    have h20 : (2 : ℝ) ≠ 0 := by norm_num
    unfold decU
    rw [hw'n, Nat.cast_mul, Nat.cast_pow, Nat.cast_ofNat, show (10 : ℝ) = 5 * 2 by norm_num, mul_zpow,
      show ((p : ℤ) - 256 - (e2 - 255)) = e + (262378 : ℕ) - (nlz : ℕ) by push_cast; omega,
      zpow_sub₀ h20, zpow_add₀ h20, zpow_natCast, zpow_natCast]
    have : (2 : ℝ) ^ nlz ≠ 0 := by positivity
    field_simp
  have hA : (nat256 S : ℝ) * 2 ^ p =
      nat256 S * 2 ^ 256 * 2 ^ (e2 - 255) * ((2 : ℝ) ^ ((p : ℤ) - 256 - (e2 - 255))) := by
    have h20 : (2 : ℝ) ≠ 0 := by norm_num
    rw [mul_assoc, ← zpow_add₀ h20, mul_assoc, ← zpow_natCast, ← zpow_natCast, ← zpow_add₀ h20]
    congr 2
    push_cast
    ring
  generalize hc : (2 : ℝ) ^ ((p : ℤ) - 256 - (e2 - 255)) = c at *
  have hcp : 0 < c := by rw [← hc]; positivity
  generalize hd : (2 : ℝ) ^ (e2 - 255) = d at *
  have hdp : 0 < d := by rw [← hd]; positivity
  have hw'R : (0 : ℝ) < nat256 w' := by
    have : 0 < nat256 w' := by rw [hw'n]; exact lt_of_lt_of_le (by norm_num) hwg
    exact_mod_cast this
  have hw'lt : (nat256 w' : ℝ) < 2 ^ 256 := by exact_mod_cast nat256_lt w'
  have hfl1 : (nat256 S : ℝ) * 2 ^ 256 ≤ nat256 w' * nat256 T := by
    have : nat256 S * 2 ^ 256 ≤ nat256 w' * nat256 T := by rw [hSn]; exact Nat.div_mul_le_self _ _
    exact_mod_cast this
  have hfl2 : (nat256 w' : ℝ) * nat256 T < (nat256 S + 1) * 2 ^ 256 := by
    have : nat256 w' * nat256 T < (nat256 S + 1) * 2 ^ 256 := by
      rw [hSn]; exact Nat.lt_mul_of_div_lt (Nat.lt_succ_self _) (by positivity)
    exact_mod_cast this
  have hlo : (nat256 S : ℝ) * 2 ^ p ≤ decU (nat256 w) e := by
    rw [hA, hkey]
    apply mul_le_mul_of_nonneg_right _ hcp.le
    calc (nat256 S : ℝ) * 2 ^ 256 * d ≤ nat256 w' * nat256 T * d := mul_le_mul_of_nonneg_right hfl1 hdp.le
      _ = nat256 w' * (nat256 T * d) := by ring
      _ ≤ _ := mul_le_mul_of_nonneg_left hT2 hw'R.le
  have hhi : decU (nat256 w) e < ((nat256 S : ℝ) + 2) * 2 ^ p := by
    have hA2 : ((nat256 S : ℝ) + 2) * 2 ^ p = (nat256 S + 2) * 2 ^ 256 * d * c := by
      have : (nat256 S : ℝ) * ((nat256 S + 2) * 2 ^ p) = nat256 S * ((nat256 S + 2) * 2 ^ 256 * d * c) := by
        calc (nat256 S : ℝ) * ((nat256 S + 2) * 2 ^ p) = (nat256 S * 2 ^ p) * (nat256 S + 2) := by ring
          _ = _ := by rw [hA]; ring
      exact mul_left_cancel₀ hSR.ne' this
    rw [hA2, hkey]
    have h1 : (nat256 w' : ℝ) * 5 ^ e < (nat256 S + 2) * 2 ^ 256 * d := by
      calc (nat256 w' : ℝ) * 5 ^ e < nat256 w' * ((nat256 T + 1) * d) := mul_lt_mul_of_pos_left hT3 hw'R
        _ = (nat256 w' * nat256 T + nat256 w') * d := by ring
        _ < ((nat256 S + 1) * 2 ^ 256 + 2 ^ 256) * d := mul_lt_mul_of_pos_right (by linarith) hdp
        _ = _ := by ring
    exact mul_lt_mul_of_pos_right h1 hcp
  have hhi2 : decU (nat256 w) e < nat256 S * 2 ^ p * (1 + 1 / 2 ^ 252) := by
    have h2 : (nat256 S : ℝ) + 2 ≤ nat256 S * (1 + 1 / 2 ^ 252) := by
      have : (2 : ℝ) ^ 254 ≤ nat256 S := by exact_mod_cast hSg
      have e4 : (2 : ℝ) = 2 ^ 253 * (1 / 2 ^ 252) := by norm_num
      nlinarith [show (0 : ℝ) < 1 / 2 ^ 252 by positivity]
    refine lt_of_lt_of_le hhi ?_
    calc ((nat256 S : ℝ) + 2) * 2 ^ p ≤ nat256 S * (1 + 1 / 2 ^ 252) * 2 ^ p := by gcongr
      _ = _ := by ring
  have hp2 : (2 : ℝ) ^ t = 2 ^ sh * 2 ^ p := by rw [htp, pow_add, mul_comm]
  have hdm := Nat.div_add_mod (nat256 S) (2 ^ sh)
  have hml := Nat.mod_lt (nat256 S) (show 0 < 2 ^ sh by positivity)
  have hdmR : (nat256 S : ℝ) = 2 ^ sh * (nat256 S / 2 ^ sh : ℕ) + (nat256 S % 2 ^ sh : ℕ) := by
    exact_mod_cast hdm.symm
  refine ⟨_, rfl, fun f hf => ?_, fun hf => ?_⟩
  swap
  · rw [Option.map_eq_none_iff] at hf
    have hn := approx_none hsh hf
    have hnR : (2 : ℝ) * (nat256 S % 2 ^ sh : ℕ) + 2 = 2 ^ sh := by exact_mod_cast hn
    have h8 : (8 : ℝ) ≤ 2 ^ sh := by
      rcases hsh with rfl | rfl <;> norm_num
    refine ⟨t, nat256 S / 2 ^ sh, hq1, hq2, le_trans ?_ hlo, lt_of_lt_of_le hhi ?_⟩
    · rw [hp2, ← mul_assoc]
      apply mul_le_mul_of_nonneg_right _ hpp.le
      linarith
    · rw [hp2, ← mul_assoc]
      apply mul_le_mul_of_nonneg_right _ hpp.le
      linarith
  rw [Option.map_eq_some_iff] at hf
  obtain ⟨up, hup, hf⟩ := hf
  obtain ⟨hu1, hu2⟩ := approx_round hsh hup
  have hpat : f.pat = sign * 2 ^ 255 + (t * 2 ^ 236 + (nat256 S / 2 ^ sh + up.toNat)) := by
    rw [← hf, ← hq]
    have hee : (e2 + (256 - nlz - nlz2 + e)) + 262142 = (t : ℤ) := by
      unfold EXP_BITS at hshd; push_cast [htp]; omega
    exact approxEnd_pat hs (by omega) (by omega) hee (by rw [hq]; exact hq1) (by rw [hq]; exact hq2)
  refine ⟨nat256 S * 2 ^ p, _, hpat, mul_pos hSR hpp, ?_, hlo, hhi2⟩
  · apply NearTo.of_form (t := t) (M := nat256 S / 2 ^ sh + up.toNat)
    · rw [pow_add, hp2, ← mul_assoc, ← pow_add]
      apply mul_lt_mul_of_pos_right _ hpp
      have : nat256 S < 2 ^ (237 + sh) := lt_of_lt_of_le hSlog2 (le_of_eq (by congr 1; omega))
      exact_mod_cast this
    · right
      rw [pow_add, hp2, ← mul_assoc, ← pow_add]
      apply mul_le_mul_of_nonneg_right _ hpp.le
      exact_mod_cast hSlog1
    · have hmlR : ((nat256 S % 2 ^ sh : ℕ) : ℝ) < 2 ^ sh := by exact_mod_cast hml
      have hm0 : (0 : ℝ) ≤ ((nat256 S % 2 ^ sh : ℕ) : ℝ) := Nat.cast_nonneg _
      have hkey2 : |(nat256 S : ℝ) - ((nat256 S / 2 ^ sh + up.toNat : ℕ) : ℝ) * 2 ^ sh| ≤ 2 ^ sh / 2 := by
        rw [Nat.cast_add]
        cases up with
        | false =>
          have := hu1 rfl
          have : (2 : ℝ) * (nat256 S % 2 ^ sh : ℕ) ≤ 2 ^ sh := by exact_mod_cast this
          rw [abs_le, Bool.toNat_false, Nat.cast_zero]
          constructor <;> linarith
        | true =>
          have := hu2 rfl
          have : (2 : ℝ) ^ sh ≤ 2 * (nat256 S % 2 ^ sh : ℕ) := by exact_mod_cast this
          rw [abs_le, Bool.toNat_true, Nat.cast_one]
          constructor <;> linarith
      rw [hp2]
      have e3 : (nat256 S : ℝ) * 2 ^ p - ((nat256 S / 2 ^ sh + up.toNat : ℕ) : ℝ) * (2 ^ sh * 2 ^ p) =
        ((nat256 S : ℝ) - ((nat256 S / 2 ^ sh + up.toNat : ℕ) : ℝ) * 2 ^ sh) * 2 ^ p := by ring
      rw [e3, abs_mul, abs_of_pos hpp]
      calc _ ≤ 2 ^ sh / 2 * 2 ^ p := mul_le_mul_of_nonneg_right hkey2 hpp.le
        _ = _ := by ring
    · rw [if_neg (by omega)]

end Verif
