import Verif.Model.Sqrt
import Verif.Proofs.New
import Mathlib.Analysis.Real.Sqrt

/-!
# The square root loop and its result
-/

namespace Verif

open BigUInt LawfulBigUInt

/-- The loop computes the integer square root `q` of `N`; the remainder is zero exactly if `N` is
a square. -/
theorem sqrtLoop_spec {N : ℕ} (hN : N < 2 ^ 476) : ∀ (n : ℕ) (q r s : U256),
    n ≤ 237 → nat256 s = 2 ^ n → nat256 q * nat256 q + nat256 r * 2 ^ n = N →
    N < (nat256 q + 2 ^ n) * (nat256 q + 2 ^ n) →
    ∃ q' r', sqrtLoop n q r s = some (q', r') ∧ nat256 q' * nat256 q' ≤ N ∧
      N < (nat256 q' + 1) * (nat256 q' + 1) ∧ (nat256 r' = 0 ↔ nat256 q' * nat256 q' = N) := by
  intro n
  induction n with
  | zero =>
    intro q r s hn hs h1 h2
    rw [pow_zero] at h1 h2
    exact ⟨q, r, rfl, by omega, h2, by omega⟩
  | succ n ih =>
    intro q r s hn hs h1 h2
    rw [sqrtLoop, isZero256]
    have hq : nat256 q < 2 ^ 238 := by
      by_contra hc
      have : 2 ^ 238 * 2 ^ 238 ≤ nat256 q * nat256 q := Nat.mul_le_mul (not_lt.mp hc) (not_lt.mp hc)
      have e : (2 : ℕ) ^ 238 * 2 ^ 238 = 2 ^ 476 := by rw [← pow_add]
      have : nat256 q * nat256 q ≤ N := by rw [← h1]; exact Nat.le_add_right _ _
      omega
    have hp : 2 ^ n ≤ 2 ^ 236 := Nat.pow_le_pow_right (by norm_num) (by omega)
    have hp0 : 0 < 2 ^ n := Nat.two_pow_pos n
    by_cases hr : nat256 r = 0
    · rw [hr, decide_eq_true rfl, if_pos rfl]
      rw [hr, Nat.zero_mul, Nat.add_zero] at h1
      refine ⟨q, r, rfl, by omega, ?_, by simp [hr, h1]⟩
      rw [← h1]; exact Nat.mul_lt_mul'' (by omega) (by omega)
    · rw [decide_eq_false hr, if_neg (by decide)]
      rw [pow_succ] at h1 h2 hs
      -- remainder bound
      have hrb : nat256 r < 2 * nat256 q + 2 ^ n * 2 := by
        by_contra hc
        have : (2 * nat256 q + 2 ^ n * 2) * (2 ^ n * 2) ≤ nat256 r * (2 ^ n * 2) :=
          Nat.mul_le_mul_right _ (not_lt.mp hc)
        nlinarith
      have s1 : nat256 (UInt.shr s 1) = 2 ^ n := by
        rw [nat_shr256 s (by norm_num), hs, pow_one, Nat.mul_div_cancel _ (by norm_num)]
      have r1 : nat256 (UInt.shl r 1) = nat256 r * 2 := by
        rw [nat_shl256_of_lt r (by norm_num) (by omega), pow_one]
      have q1 : nat256 (UInt.shl q 1) = nat256 q * 2 := by
        rw [nat_shl256_of_lt q (by norm_num) (by omega), pow_one]
      obtain ⟨u, hu, hu'⟩ := add256 (x := UInt.shl q 1) (y := UInt.shr s 1) (by omega)
      dsimp only
      rw [hu]
      simp only [Option.bind_eq_bind, Option.bind_some]
      rw [cmp256]
      by_cases hc : nat256 (UInt.shl r 1) < nat256 u
      · rw [if_pos (by rw [Nat.compare_eq_lt.mpr hc]; rfl)]
        rw [hu', s1, r1, q1] at hc
        refine ih q (UInt.shl r 1) (UInt.shr s 1) (by omega) s1 ?_ ?_
        · rw [r1, ← h1]; ring
        · have : nat256 r * 2 * 2 ^ n < (nat256 q * 2 + 2 ^ n) * 2 ^ n :=
            Nat.mul_lt_mul_of_pos_right hc hp0
          nlinarith
      · rw [if_neg (by
          rw [beq_iff_eq, Nat.compare_eq_lt]; exact hc)]
        obtain ⟨q2, hq2, hq2'⟩ := add256 (x := q) (y := UInt.shr s 1) (by omega)
        obtain ⟨r2, hr2, hr2'⟩ := sub256 (x := UInt.shl r 1) (y := u) (by omega)
        rw [hq2, hr2]
        simp only [Option.bind_some]
        rw [r1, hu', q1, s1] at hr2' hc
        rw [s1] at hq2'
        refine ih q2 r2 (UInt.shr s 1) (by omega) s1 ?_ ?_
        · obtain ⟨k, hk⟩ := Nat.exists_eq_add_of_le (not_lt.mp hc)
          have : nat256 r2 = k := by rw [hr2']; omega
          rw [hq2', this, ← h1]
          have e : nat256 r * (2 ^ n * 2) = (nat256 r * 2) * 2 ^ n := by ring
          rw [e, hk]; ring
        · rw [hq2']
          have e : nat256 q + 2 ^ n + 2 ^ n = nat256 q + 2 ^ n * 2 := by ring
          rw [e]; exact h2

/-- Rounding the integer square root, computed with one extra bit. -/
theorem sqrt_round {N Q r : ℕ} (h1 : Q * Q ≤ N) (h2 : N < (Q + 1) * (Q + 1))
    (hr : r = 0 ↔ Q * Q = N) :
    RNE (Real.sqrt N / 2) ((Q + (decide (Q % 4 = 3) || (decide (Q % 4 = 1) && !decide (r = 0))).toNat) / 2) := by
  have hN0 : (0 : ℝ) ≤ N := Nat.cast_nonneg N
  have a1 : (Q : ℝ) ≤ Real.sqrt N := by
    apply Real.le_sqrt_of_sq_le
    rw [pow_two]; exact_mod_cast h1
  have a2 : Real.sqrt N < Q + 1 := by
    rw [Real.sqrt_lt' (by positivity), pow_two]; exact_mod_cast h2
  have a3 : r = 0 ↔ Real.sqrt N = Q := by
    rw [hr, Real.sqrt_eq_iff_mul_self_eq hN0 (Nat.cast_nonneg _)]
    constructor
    · intro h; exact_mod_cast h.symm
    · intro h; exact_mod_cast h.symm
  have key := RNE.of_rnd (z := Q / 2) (rb := Q % 2 * 2 + if r = 0 then 0 else 1)
    (f := Real.sqrt N / 2 - (Q / 2 : ℕ))
  have hd : (Q : ℝ) = 2 * ((Q / 2 : ℕ) : ℝ) + ((Q % 2 : ℕ) : ℝ) := by
    exact_mod_cast (Nat.div_add_mod Q 2).symm
  rw [add_sub_cancel] at key
  have hm : Q % 2 = 0 ∨ Q % 2 = 1 := by omega
  have e : (Q + (decide (Q % 4 = 3) || (decide (Q % 4 = 1) && !decide (r = 0))).toNat) / 2 =
      Q / 2 + (decide (2 < Q % 2 * 2 + (if r = 0 then 0 else 1) ∨
        (Q % 2 * 2 + (if r = 0 then 0 else 1) = 2 ∧ Q / 2 % 2 = 1))).toNat := by
    have h4 : Q % 4 = 0 ∨ Q % 4 = 1 ∨ Q % 4 = 2 ∨ Q % 4 = 3 := by omega
    by_cases hz : r = 0
    · rcases h4 with h | h | h | h <;>
        simp [hz, h, show Q % 2 = Q % 4 % 2 by omega, show Q / 2 % 2 = Q % 4 / 2 by omega] <;> omega
    · rcases h4 with h | h | h | h <;>
        simp [hz, h, show Q % 2 = Q % 4 % 2 by omega, show Q / 2 % 2 = Q % 4 / 2 by omega] <;> omega
  rw [e]
  apply key
  · have : (0:ℝ) ≤ ((Q % 2 : ℕ) : ℝ) := Nat.cast_nonneg _
    linarith
  · have : ((Q % 2 : ℕ) : ℝ) ≤ 1 := by exact_mod_cast (show Q % 2 ≤ 1 by omega)
    linarith
  · unfold RndOK
    rcases hm with hm | hm
    · rw [hm, Nat.cast_zero, add_zero] at hd
      rw [hm]
      refine ⟨⟨fun h => ?_, fun h => ?_⟩, ⟨fun h => ?_, fun h => ?_⟩⟩
      · split_ifs at h <;> omega
      · linarith
      · split_ifs at h <;> omega
      · linarith
    · rw [hm, Nat.cast_one] at hd
      rw [hm]
      by_cases hz : r = 0
      · rw [if_pos hz]
        have := a3.mp hz
        refine ⟨⟨fun h => by omega, fun h => by linarith⟩, ⟨fun h => by linarith, fun h => rfl⟩⟩
      · rw [if_neg hz]
        have hne : Real.sqrt N ≠ Q := fun h => hz (a3.mpr h)
        have : (Q : ℝ) < Real.sqrt N := lt_of_le_of_ne a1 (Ne.symm hne)
        refine ⟨⟨fun h => by linarith, fun h => by omega⟩, ⟨fun h => by omega, fun h => ?_⟩⟩
        exact absurd h (by intro h; linarith)

/-- The normalised significand used by the code. -/
def sqrtSignif (bits : U256) : U256 :=
  ⟨(UInt.shl (fraction bits) (leadingZeros bits - EXP_BITS)).hi |||
    (BitVec.ofNat 128 (decide (expBits bits ≠ 0)).toNat <<< HI_FRACTION_BITS),
    (UInt.shl (fraction bits) (leadingZeros bits - EXP_BITS)).lo⟩

/-- The exponent used by the code, of the leading bit. -/
def sqrtExp (bits : U256) : ℤ :=
  expBits bits + EMIN - ((decide (expBits bits ≠ 0)).toNat : ℕ) - ((leadingZeros bits - EXP_BITS : ℕ) : ℤ)

theorem sqrt_decode {A : U256} (h0 : nat256 A ≠ 0) (h1 : nat256 A < INF) :
    2 ^ 236 ≤ nat256 (sqrtSignif A) ∧ nat256 (sqrtSignif A) < 2 ^ 237 ∧
    -262378 ≤ sqrtExp A ∧ sqrtExp A ≤ 262143 ∧
    (mag (nat256 A) : ℝ) = nat256 (sqrtSignif A) * (2 : ℝ) ^ (sqrtExp A + 262142) := by
  obtain ⟨d1, d2, d3⟩ := decoded h0 h1
  have hl := leadingZeros256 h0
  have hb : 2 ^ (nat256 A).log2 ≤ nat256 A := Nat.log2_self_le h0
  have hb2 : nat256 A < 2 ^ ((nat256 A).log2 + 1) := Nat.lt_log2_self
  have hs := nat_signif A
  have hf := nat_fraction A
  have hh : (BitVec.ofNat 128 (decide (expBits A ≠ 0)).toNat <<< HI_FRACTION_BITS).toNat =
      (decide (expBits A ≠ 0)).toNat * 2 ^ 108 := by
    cases decide (expBits A ≠ 0) <;> decide
  rw [d3]
  unfold sqrtSignif sqrtExp
  rw [hl, nat256_mk, BitVec.toNat_or, hh]
  rw [normBit_eq]
  have hE := expBits_eq A
  unfold EXP_BITS EMIN
  by_cases hn : 2 ^ 236 ≤ nat256 A
  · have hlog : 236 ≤ (nat256 A).log2 := by
      by_contra hc
      have : 2 ^ ((nat256 A).log2 + 1) ≤ 2 ^ 236 := Nat.pow_le_pow_right (by norm_num) (by omega)
      omega
    have z : 255 - (nat256 A).log2 - 19 = 0 := by omega
    have he : expBits A ≠ 0 := by rw [hE]; omega
    have he2 : expBits A ≤ 524286 := by rw [hE]; unfold INF at h1; omega
    rw [z, decide_eq_true he, if_pos hn]
    have hsh : UInt.shl (fraction A) 0 = fraction A := by
      apply nat256_inj
      have := nat256_lt (fraction A)
      rw [nat_shl256 _ (by norm_num), pow_zero, Nat.mul_one, Nat.mod_eq_of_lt this]
    rw [hsh]
    have hfh : (fraction A).hi.toNat < 2 ^ 108 := by
      have : nat256 (fraction A) < 2 ^ 236 := by rw [hf]; exact Nat.mod_lt _ (by norm_num)
      unfold nat256 at this; omega
    rw [Bool.toNat_true, or_disjoint' hfh]
    have e1 : (1 * 2 ^ 108 + (fraction A).hi.toNat) * 2 ^ 128 + (fraction A).lo.toNat =
        2 ^ 236 + nat256 (fraction A) := by unfold nat256; ring
    rw [e1, hf]
    rw [if_pos hn] at hs
    have e2 : nat256 (signif A) = 2 ^ 236 + nat256 A % 2 ^ 236 := by
      rw [hs]
    rw [← e2]
    have e3 : (expBits A : ℤ) - ((1 : ℕ) : ℤ) = (expBits A : ℤ) + -262142 - ((1 : ℕ) : ℤ) - ((0 : ℕ) : ℤ) + 262142 := by
      ring
    refine ⟨by omega, by omega, by omega, by omega, ?_⟩
    rw [e3]
  · have hlog : (nat256 A).log2 < 236 := (Nat.log2_lt h0).mpr (not_le.mp hn)
    have he : expBits A = 0 := by rw [hE]; exact Nat.div_eq_of_lt (not_le.mp hn)
    rw [he, if_neg hn]
    have hfr : nat256 (fraction A) = nat256 A := by rw [hf]; exact Nat.mod_eq_of_lt (not_le.mp hn)
    have z : 255 - (nat256 A).log2 - 19 = 236 - (nat256 A).log2 := by omega
    rw [z, show (decide ((0:ℕ) ≠ 0)).toNat = 0 from rfl, Nat.zero_mul, Nat.or_zero]
    have hm : nat256 A * 2 ^ (236 - (nat256 A).log2) < 2 ^ 237 := by
      calc _ < 2 ^ ((nat256 A).log2 + 1) * 2 ^ (236 - (nat256 A).log2) :=
            Nat.mul_lt_mul_of_pos_right hb2 (Nat.two_pow_pos _)
        _ = 2 ^ 237 := by
          rw [← pow_add, show (nat256 A).log2 + 1 + (236 - (nat256 A).log2) = 237 by omega]
    have hm2 : 2 ^ 236 ≤ nat256 A * 2 ^ (236 - (nat256 A).log2) := by
      calc 2 ^ 236 = 2 ^ (nat256 A).log2 * 2 ^ (236 - (nat256 A).log2) := by
            rw [← pow_add, show (nat256 A).log2 + (236 - (nat256 A).log2) = 236 by omega]
        _ ≤ _ := Nat.mul_le_mul_right _ hb
    have hsh : nat256 (UInt.shl (fraction A) (236 - (nat256 A).log2)) =
        nat256 A * 2 ^ (236 - (nat256 A).log2) := by
      rw [nat_shl256_of_lt _ (by omega) (by rw [hfr]; exact lt_trans hm (by norm_num)), hfr]
    have e1 : (UInt.shl (fraction A) (236 - (nat256 A).log2)).hi.toNat * 2 ^ 128 +
      (UInt.shl (fraction A) (236 - (nat256 A).log2)).lo.toNat =
        nat256 A * 2 ^ (236 - (nat256 A).log2) := hsh
    rw [e1]
    refine ⟨hm2, hm, by push_cast; omega, by push_cast; omega, ?_⟩
    rw [if_neg hn] at hs
    have e2 : nat256 (signif A) = nat256 A := by
      rw [hs]
    rw [e2]
    have e3 : (((nat256 A * 2 ^ (236 - (nat256 A).log2) : ℕ)) : ℝ) =
        nat256 A * (2:ℝ) ^ ((236 - (nat256 A).log2 : ℕ) : ℤ) := by
      rw [zpow_natCast]; push_cast; ring
    have e4 : ((236 - (nat256 A).log2 : ℕ) : ℤ) + (((0 : ℕ) : ℤ) + -262142 - ((0 : ℕ) : ℤ) -
        ((236 - (nat256 A).log2 : ℕ) : ℤ) + 262142) = ((0 : ℕ) : ℤ) - ((0 : ℕ) : ℤ) := by
      push_cast; ring
    rw [e3, mul_assoc, ← zpow_add₀ (by norm_num), e4]

/-- The square root of a positive finite number is correctly rounded. -/
theorem sqrtFinite_spec {A : U256} (h0 : nat256 A ≠ 0) (h1 : nat256 A < INF) :
    ∃ z, sqrtFinite A = some z ∧
      RoundsTo (Real.sqrt (mag (nat256 A) / 2 ^ 262378) * 2 ^ 262378) z.pat := by
  obtain ⟨s1, s2, e1, e2, hm⟩ := sqrt_decode h0 h1
  unfold sqrtFinite
  dsimp only
  change ∃ z, (do
    let r ← UInt.sub (UInt.shl (sqrtSignif A) (1 + (sqrtExp A % 2).toNat)) (U256.new (HI_FRACTION_BIAS <<< 1) 0)
    let (q, r) ← sqrtLoop SIGNIFICAND_BITS (U256.new (HI_FRACTION_BIAS <<< 1) 0) r (U256.new (HI_FRACTION_BIAS <<< 1) 0)
    some (F256.new 0 ((sqrtExp A - sqrtExp A % 2) / 2)
      (UInt.shr (incrIf q (decide ((q.lo &&& 3).toNat = 3) || (decide ((q.lo &&& 3).toNat = 1) && !U256.isZero r))) 1))) = some z ∧ _
  generalize sqrtSignif A = S at *
  generalize sqrtExp A = e at *
  obtain ⟨o, E, ho, ho1, hE1, he⟩ : ∃ (o : ℕ) (E : ℤ), (e % 2).toNat = o ∧ o ≤ 1 ∧
      (e - e % 2) / 2 = E ∧ e = 2 * E + o :=
    ⟨(e % 2).toNat, (e - e % 2) / 2, rfl, by omega, rfl, by omega⟩
  rw [ho, hE1]
  have hq0 : nat256 (U256.new (HI_FRACTION_BIAS <<< 1) 0) = 2 ^ 237 := by decide
  generalize U256.new (HI_FRACTION_BIAS <<< 1) 0 = q0 at *
  have ho2 : 1 ≤ 2 ^ o ∧ 2 ^ o ≤ 2 := by
    rcases Nat.le_one_iff_eq_zero_or_eq_one.mp ho1 with rfl | rfl <;> norm_num
  have hS1 : 2 ^ 236 ≤ nat256 S * 2 ^ o := le_trans s1 (Nat.le_mul_of_pos_right _ (by omega))
  have hS2 : nat256 S * 2 ^ o ≤ 2 ^ 238 - 2 :=
    le_trans (Nat.mul_le_mul_left _ ho2.2) (by omega)
  have hsh : nat256 (UInt.shl S (1 + o)) = nat256 S * 2 ^ o * 2 := by
    rw [nat_shl256_of_lt S (by omega) (by rw [pow_add, pow_one]; rw [Nat.mul_comm 2, ← Nat.mul_assoc]; omega)]
    rw [pow_add]; ring
  obtain ⟨r, hr, hr'⟩ := sub256 (x := UInt.shl S (1 + o)) (y := q0) (by omega)
  rw [hr]
  simp only [Option.bind_eq_bind, Option.bind_some]
  rw [hsh, hq0] at hr'
  obtain ⟨m, hmm⟩ : ∃ m, m = nat256 S * 2 ^ o := ⟨_, rfl⟩
  rw [← hmm] at hS1 hS2 hr'
  have p476 : (2 : ℕ) ^ 476 = 2 ^ 238 * 2 ^ 238 := by rw [← pow_add]
  have hN : m * 2 ^ 238 < 2 ^ 476 := by
    rw [p476]; exact Nat.mul_lt_mul_of_pos_right (by omega) (by norm_num)
  obtain ⟨Q, R, hl, hQ1, hQ2, hQ3⟩ := sqrtLoop_spec (N := m * 2 ^ 238) hN 237 q0 r q0 (le_refl _) hq0
    (by rw [hq0, hr', ← Nat.add_mul, show 2 ^ 237 + (m * 2 - 2 ^ 237) = m * 2 by omega]; ring)
    (by rw [hq0, ← Nat.two_mul, ← pow_succ', ← p476]; exact hN)
  rw [show SIGNIFICAND_BITS = 237 from rfl, hl]
  simp only [Option.bind_some]
  rw [lo_and_3, isZero256]
  refine ⟨_, rfl, ?_⟩
  have hround := sqrt_round hQ1 hQ2 hQ3
  -- the rounded significand
  have hQlt : nat256 Q ≤ 2 ^ 238 - 2 := by
    by_contra hc
    have h3 : (2 ^ 238 - 1) * (2 ^ 238 - 1) ≤ nat256 Q * nat256 Q :=
      Nat.mul_le_mul (by omega) (by omega)
    have h4 : m * 2 ^ 238 ≤ (2 ^ 238 - 2) * 2 ^ 238 := Nat.mul_le_mul_right _ hS2
    have h5 : (2 ^ 238 - 2) * 2 ^ 238 < (2 ^ 238 - 1) * (2 ^ 238 - 1) := by norm_num
    omega
  have hQge : 2 ^ 237 ≤ nat256 Q := by
    by_contra hc
    have h3 : (nat256 Q + 1) * (nat256 Q + 1) ≤ 2 ^ 237 * 2 ^ 237 :=
      Nat.mul_le_mul (by omega) (by omega)
    have h4 : 2 ^ 236 * 2 ^ 238 ≤ m * 2 ^ 238 := Nat.mul_le_mul_right _ hS1
    have h5 : (2 : ℕ) ^ 237 * 2 ^ 237 = 2 ^ 236 * 2 ^ 238 := by rw [← pow_add, ← pow_add]
    omega
  obtain ⟨b, hb⟩ : ∃ b, b = (decide (nat256 Q % 4 = 3) || (decide (nat256 Q % 4 = 1) && !decide (nat256 R = 0))) := ⟨_, rfl⟩
  rw [← hb] at hround ⊢
  have hbt : b.toNat ≤ 1 := by cases b <;> decide
  have hM : nat256 (UInt.shr (incrIf Q b) 1) = (nat256 Q + b.toNat) / 2 := by
    rw [nat_shr256 _ (by norm_num), nat_incrIf256, Nat.mod_eq_of_lt (by omega), pow_one]
  obtain ⟨M, hMe⟩ : ∃ M, M = (nat256 Q + b.toNat) / 2 := ⟨_, rfl⟩
  rw [← hMe] at hM hround
  have hM1 : 2 ^ 236 ≤ M := by omega
  have hM2 : M < 2 ^ 237 := by omega
  obtain ⟨k, hk⟩ : ∃ k : ℕ, E + 262142 = k := ⟨(E + 262142).toNat, by omega⟩
  have hk2 : k ≤ 524285 := by omega
  rw [pat_new (k := k + 1) _ (by norm_num) (by omega) (by push_cast; omega), hM, Nat.zero_mul,
    Nat.zero_add, show (k + 1) * 2 ^ 236 + M % 2 ^ 236 = k * 2 ^ 236 + M by omega]
  refine RoundsTo.of_rne (w := Real.sqrt ((m * 2 ^ 238 : ℕ) : ℝ) / 2) ?_ ?_ ?_ hround hk2
  · have hv : (mag (nat256 A) : ℝ) / 2 ^ 262378 = m * (2:ℝ) ^ (238:ℕ) * ((2:ℝ) ^ (E - 237)) ^ 2 := by
      rw [hm, he, hmm]
      push_cast
      rw [← zpow_natCast (2:ℝ) o, ← zpow_natCast (2:ℝ) 262378, ← zpow_natCast (2:ℝ) 238, pow_two,
        ← zpow_add₀ (by norm_num), div_eq_mul_inv, ← zpow_neg, mul_assoc, mul_assoc, mul_assoc,
        ← zpow_add₀ (by norm_num), ← zpow_add₀ (by norm_num), ← zpow_add₀ (by norm_num),
        show (2 * E + (o : ℤ) + 262142 + -((262378 : ℕ) : ℤ)) =
          ((o : ℤ) + (((238 : ℕ) : ℤ) + (E - 237 + (E - 237)))) by push_cast; ring]
    rw [hv, Real.sqrt_mul (mul_nonneg (Nat.cast_nonneg _) (pow_nonneg (by norm_num) _)),
      Real.sqrt_sq (zpow_pos (by norm_num) _).le, Nat.cast_mul, Nat.cast_pow, Nat.cast_ofNat]
    rw [mul_assoc, ← zpow_natCast (2:ℝ) 262378, ← zpow_add₀ (by norm_num), div_mul_eq_mul_div,
      ← zpow_natCast (2:ℝ) k, mul_div_assoc, div_eq_mul_inv ((2:ℝ)^(k:ℤ)) 2, ← zpow_neg_one,
      ← zpow_add₀ (by norm_num), show E - 237 + ((262378 : ℕ) : ℤ) = (k : ℤ) + -1 by
        rw [← hk]; push_cast; ring]
  · have : Real.sqrt ((m * 2 ^ 238 : ℕ) : ℝ) < 2 ^ 238 := by
      rw [Real.sqrt_lt' (by positivity), pow_two]
      exact_mod_cast (p476 ▸ hN)
    rw [show (2:ℝ)^238 = 2 * 2 ^ 237 by rw [← pow_succ']] at this
    generalize Real.sqrt ((m * 2 ^ 238 : ℕ) : ℝ) = w at this ⊢
    linarith
  · right
    have : (2:ℝ) ^ 237 ≤ Real.sqrt ((m * 2 ^ 238 : ℕ) : ℝ) := by
      apply Real.le_sqrt_of_sq_le
      have h4 : 2 ^ 236 * 2 ^ 238 ≤ m * 2 ^ 238 := Nat.mul_le_mul_right _ hS1
      have h5 : (2 : ℕ) ^ 237 * 2 ^ 237 = 2 ^ 236 * 2 ^ 238 := by rw [← pow_add, ← pow_add]
      rw [pow_two]
      rw [← h5] at h4
      exact_mod_cast h4
    rw [show (2:ℝ)^237 = 2 * 2 ^ 236 by rw [← pow_succ']] at this
    generalize Real.sqrt ((m * 2 ^ 238 : ℕ) : ℝ) = w at this ⊢
    linarith

end Verif
