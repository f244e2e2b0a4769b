import Verif.Proofs.MulDiv
import Verif.Proofs.Add2

/-!
# Multiplication of finite non-zero absolute values
-/

namespace Verif

open BigUInt LawfulBigUInt

theorem toNat_lo_remPow2 (x : U256) {n : ℕ} (h : n ≤ 128) :
    (UInt.remPow2 x n).lo.toNat = nat256 x % 2 ^ n := by
  have e := nat_remPow2_256 x n
  rw [lo_of_lt, e]
  rw [e]
  exact lt_of_lt_of_le (Nat.mod_lt _ (Nat.two_pow_pos _)) (Nat.pow_le_pow_right (by norm_num) h)

theorem wideningMul256 (x y : U256) :
    nat256 (UInt.wideningMul x y).1 + nat256 (UInt.wideningMul x y).2 * 2 ^ 256 =
      nat256 x * nat256 y := UInt.wideningMul_spec x y

/-- The product of two left-adjusted significands, as significand and rounding bits. The rounding
bits may miss a small fraction (below 1/4). -/
theorem mulSignifs_spec {x y : U256} (hx : 2 ^ 255 ≤ nat256 x) (hy : 2 ^ 255 ≤ nat256 y) :
    2 ^ 236 ≤ nat256 (mulSignifs x y).1 ∧ nat256 (mulSignifs x y).1 < 2 ^ 237 ∧
    (mulSignifs x y).2.1 ≤ 1 ∧
    ∃ f : ℝ, 0 ≤ f ∧ f < 1 ∧ RndOK f (mulSignifs x y).2.2 ∧
      ((mulSignifs x y).2.2 ≠ 0 → f ≠ 0) ∧ ((mulSignifs x y).2.2 = 0 → f < 1 / 4) ∧
      (nat256 x : ℝ) * nat256 y = (nat256 (mulSignifs x y).1 + f) * 2 ^ (274 + (mulSignifs x y).2.1) := by
  have hw := wideningMul256 x y
  have hx2 := nat256_lt x
  have hy2 := nat256_lt y
  have hp1 : 2 ^ 255 * 2 ^ 255 ≤ nat256 x * nat256 y := Nat.mul_le_mul hx hy
  unfold mulSignifs
  generalize UInt.wideningMul x y = p at *
  obtain ⟨lo, hi⟩ := p
  dsimp only at hw ⊢
  have hlo := nat256_lt lo
  have hhi := nat256_lt hi
  have hhi1 : 2 ^ 254 ≤ nat256 hi := by omega
  have hcar : decide (HI_SIGN_MASK ≤ hi.hi) = decide (2 ^ 255 ≤ nat256 hi) :=
    decide_eq_decide.mpr (pow_le_hi hi (k := 127) (by decide))
  rw [hcar]
  obtain ⟨c, hc⟩ : ∃ c, c = (decide (2 ^ 255 ≤ nat256 hi)).toNat := ⟨_, rfl⟩
  have hc1 : c ≤ 1 := by rw [hc]; exact bool_toNat_le _
  have hr : 2 ^ (236 + (18 + c)) ≤ nat256 hi ∧ nat256 hi < 2 ^ (237 + (18 + c)) := by
    by_cases h : 2 ^ 255 ≤ nat256 hi
    · rw [decide_eq_true h, Bool.toNat_true] at hc
      rw [hc]; exact ⟨h, hhi⟩
    · rw [decide_eq_false h, Bool.toNat_false] at hc
      rw [hc]; exact ⟨hhi1, not_le.mp h⟩
  rw [← hc]
  have hEB : EXP_BITS - 1 + c = 18 + c := rfl
  rw [hEB]
  clear hc hcar hEB
  have hsh := nat_shr256 hi (n := 18 + c) (by omega)
  have hrem := toNat_lo_remPow2 hi (n := 18 + c) (by omega)
  have hdec : decide ((1 : BitVec 128) <<< (18 + c - 1) < (UInt.remPow2 hi (18 + c)).lo) =
      decide (2 ^ (18 + c - 1) < nat256 hi % 2 ^ (18 + c)) := by
    rw [decide_eq_decide, BitVec.lt_def, hrem, toNat_shl_one (by omega)]
  rw [toNat_ushr, hrem, hdec, isZero256,
    show (!decide (nat256 lo = 0)) = decide (nat256 lo ≠ 0) by simp, hsh]
  have hm : nat256 hi % 2 ^ (18 + c) < 2 ^ (18 + c) := Nat.mod_lt _ (Nat.two_pow_pos _)
  have hrn := rnd_combine (m := nat256 hi % 2 ^ (18 + c)) (s := 18 + c) (rb := nat256 lo)
    (by omega) hm _ rfl _ rfl
  refine ⟨?_, ?_, hc1, ?_⟩
  · rw [Nat.le_div_iff_mul_le (Nat.two_pow_pos _), ← pow_add]; exact hr.1
  · rw [Nat.div_lt_iff_lt_mul (Nat.two_pow_pos _), ← pow_add]; exact hr.2
  have hlo0 : (0 : ℝ) ≤ nat256 lo := Nat.cast_nonneg _
  have hlo1 : (nat256 lo : ℝ) < ((2 ^ 256 : ℕ) : ℝ) := by exact_mod_cast hlo
  rw [Nat.cast_pow, Nat.cast_ofNat] at hlo1
  obtain ⟨g, hg⟩ : ∃ g : ℝ, g = nat256 lo / 2 ^ 256 := ⟨_, rfl⟩
  have hg0 : 0 ≤ g := by rw [hg]; exact div_nonneg hlo0 (pow_nonneg (by norm_num) _)
  have hg1 : g < 1 := by rw [hg, div_lt_one (pow_pos (by norm_num) _)]; exact hlo1
  have hgz : nat256 lo = 0 ↔ g = 0 := by
    rw [hg, div_eq_zero_iff]
    constructor
    · intro h; left; exact_mod_cast h
    · rintro (h | h)
      · exact_mod_cast h
      · exact absurd h (by positivity)
  have hdm := Nat.div_add_mod (nat256 hi) (2 ^ (18 + c))
  obtain ⟨m, hmd⟩ : ∃ m, m = nat256 hi % 2 ^ (18 + c) := ⟨_, rfl⟩
  obtain ⟨z, hzd⟩ : ∃ z, z = nat256 hi / 2 ^ (18 + c) := ⟨_, rfl⟩
  rw [← hmd] at hm hrn hdm ⊢
  rw [← hzd] at hdm ⊢
  have hP : (0 : ℝ) < 2 ^ (18 + c) := by positivity
  have hm0 : (0 : ℝ) ≤ m := Nat.cast_nonneg _
  have hm1 : (m : ℝ) + 1 ≤ 2 ^ (18 + c) := by exact_mod_cast hm
  have hhalf : (2 : ℝ) ^ (18 + c) = 2 * 2 ^ (18 + c - 1) := by rw [← pow_succ']; congr 1; omega
  have hquart : (2 : ℝ) ^ (18 + c) = 4 * 2 ^ (18 + c - 2) := by
    rw [show (4 : ℝ) = 2 ^ 2 by norm_num, ← pow_add]; congr 1; omega
  have ecast : ((2 ^ (18 + c - 1) : ℕ) : ℝ) = 2 ^ (18 + c - 1) := by rw [Nat.cast_pow, Nat.cast_ofNat]
  have ecast2 : ((2 ^ (18 + c - 2) : ℕ) : ℝ) = 2 ^ (18 + c - 2) := by rw [Nat.cast_pow, Nat.cast_ofNat]
  refine ⟨(m + g) / 2 ^ (18 + c), by positivity, ?_, ?_, ?_, ?_, ?_⟩
  · rw [div_lt_one hP]; linarith
  · constructor
    · rw [hrn.1, lt_div_iff₀ hP, hhalf]
      constructor
      · rintro (h | ⟨h, hl⟩)
        · have : ((2 ^ (18 + c - 1) : ℕ) : ℝ) + 1 ≤ m := by exact_mod_cast h
          rw [ecast] at this
          linarith
        · have hgp : 0 < g := lt_of_le_of_ne hg0 (fun h' => hl (hgz.mpr h'.symm))
          have : (m : ℝ) = 2 ^ (18 + c - 1) := by rw [h, ecast]
          linarith
      · intro h
        have h5 : ((2 ^ (18 + c - 1) : ℕ) : ℝ) < ((m + 1 : ℕ) : ℝ) := by
          rw [ecast, Nat.cast_add, Nat.cast_one]; linarith
        have h6 : 2 ^ (18 + c - 1) < m + 1 := by exact_mod_cast h5
        rcases Nat.lt_or_eq_of_le (Nat.lt_succ_iff.mp h6) with h7 | h7
        · exact Or.inl h7
        · refine Or.inr ⟨h7.symm, fun hl => ?_⟩
          have : (m : ℝ) = 2 ^ (18 + c - 1) := by rw [← h7, ecast]
          have := hgz.mp hl
          linarith
    · rw [hrn.2, div_eq_iff hP.ne', hhalf]
      constructor
      · rintro ⟨h, hl⟩
        have : (m : ℝ) = 2 ^ (18 + c - 1) := by rw [h, ecast]
        have := hgz.mp hl
        linarith
      · intro h
        have h4 : (m : ℝ) ≤ ((2 ^ (18 + c - 1) : ℕ) : ℝ) := by rw [ecast]; linarith
        have h5 : ((2 ^ (18 + c - 1) : ℕ) : ℝ) < ((m + 1 : ℕ) : ℝ) := by
          rw [ecast, Nat.cast_add, Nat.cast_one]; linarith
        have h6 : m ≤ 2 ^ (18 + c - 1) := by exact_mod_cast h4
        have h7 : 2 ^ (18 + c - 1) < m + 1 := by exact_mod_cast h5
        have h8 : m = 2 ^ (18 + c - 1) := by omega
        have : (m : ℝ) = 2 ^ (18 + c - 1) := by rw [h8, ecast]
        exact ⟨h8, hgz.mpr (by linarith)⟩
  · intro h hf
    apply h
    rw [div_eq_zero_iff] at hf
    rcases hf with hf | hf
    · have h1 : (m : ℝ) = 0 := by linarith
      have h2 : g = 0 := by linarith
      have h1' : m = 0 := by exact_mod_cast h1
      rw [h1', hgz.mpr h2]
      simp
    · exact absurd hf hP.ne'
  · intro h
    rw [Nat.or_eq_zero_iff, Nat.or_eq_zero_iff] at h
    obtain ⟨⟨h1, -⟩, h2⟩ := h
    have h3 : m < 2 ^ (18 + c - 2) := by
      rcases (Nat.div_eq_zero_iff).mp h1 with h | h
      · exact absurd h (Nat.two_pow_pos _).ne'
      · exact h
    have h4 : nat256 lo = 0 := by
      by_contra hne
      rw [decide_eq_true hne] at h2
      simp at h2
    have h5 : (m : ℝ) < ((2 ^ (18 + c - 2) : ℕ) : ℝ) := by exact_mod_cast h3
    rw [ecast2] at h5
    rw [div_lt_iff₀ hP, hquart, hgz.mp h4]
    linarith
  · have e1 : (nat256 x : ℝ) * nat256 y = (nat256 hi + g) * 2 ^ 256 := by
      have : ((nat256 x * nat256 y : ℕ) : ℝ) = ((nat256 lo + nat256 hi * 2 ^ 256 : ℕ) : ℝ) := by
        rw [hw]
      rw [Nat.cast_mul, Nat.cast_add, Nat.cast_mul, Nat.cast_pow, Nat.cast_ofNat] at this
      rw [this, hg]
      field_simp
      ring
    have e2 : (nat256 hi : ℝ) = z * 2 ^ (18 + c) + m := by
      have : ((2 ^ (18 + c) * z + m : ℕ) : ℝ) = nat256 hi := by rw [hdm]
      rw [Nat.cast_add, Nat.cast_mul, Nat.cast_pow, Nat.cast_ofNat] at this
      rw [← this]; ring
    have e3 : (2 : ℝ) ^ (274 + c) = 2 ^ (18 + c) * 2 ^ 256 := by rw [← pow_add]; congr 1; omega
    rw [e1, e2, e3]
    field_simp
    ring

/-- `|x| * |y|` for finite non-zero operands: the returned bits with the sign `s` inserted, after
the final rounding. `v` is the exact product in units of `2^-262378`; the result is the correctly
rounded value of `v'`, which is `v` except for subnormal results. -/
theorem mulAbsFinite_spec {A B : U256} (hA0 : nat256 A ≠ 0) (hA : nat256 A < INF)
    (hB0 : nat256 B ≠ 0) (hB : nat256 B < INF) {v : ℝ}
    (hv : v = (mag (nat256 A) : ℝ) * mag (nat256 B) / 2 ^ 262378) :
    ∃ N v', RoundsTo v' N ∧ (∀ (sg : BitVec 128) (s : ℕ), sg.toNat = s * 2 ^ 127 → s ≤ 1 →
      (finalRound ⟨(mulAbsFinite A B).1.hi ||| sg, (mulAbsFinite A B).1.lo⟩ (mulAbsFinite A B).2).pat
        = s * 2 ^ 255 + N) ∧
      (v' ≠ v → v < 2 ^ 236 ∧ v' < v ∧ v < v' + 1 / 8 ∧ (∀ k : ℤ, 2 * v ≠ k) ∧
        v ≤ v' + v / 2 ^ 238) := by
  obtain ⟨a1, a2, a3⟩ := decoded hA0 hA
  obtain ⟨b1, b2, b3⟩ := decoded hB0 hB
  obtain ⟨x1, x2⟩ := leftAdjSignif_spec a1
  obtain ⟨y1, y2⟩ := leftAdjSignif_spec b1
  unfold mulAbsFinite
  dsimp only
  obtain ⟨m1, m2, m3, f, f0, f1, frb, frb0, frb1, fP⟩ := mulSignifs_spec x1 y1
  generalize (leftAdjSignif A).1 = X at *
  generalize (leftAdjSignif B).1 = Y at *
  generalize (leftAdjSignif A).2 = lx at *
  generalize (leftAdjSignif B).2 = ly at *
  generalize mulSignifs X Y = p at *
  obtain ⟨z, c, rb⟩ := p
  dsimp only at m1 m2 m3 frb frb0 frb1 fP ⊢
  obtain ⟨T, hT⟩ : ∃ T : ℤ, T = (expBits A : ℤ) - (normBit A : ℤ) +
      ((expBits B : ℤ) - (normBit B : ℤ)) - ((lx + ly : ℕ) : ℤ) + (EMIN + 2 * (EXP_BITS : ℤ)) +
      (c : ℤ) := ⟨_, rfl⟩
  rw [← hT]
  have hEM : (EXP_MAX : ℤ) - 1 = 524286 := by decide
  have hSB : SIGNIFICAND_BITS + 1 = 238 := rfl
  have hvT : v = (nat256 z + f) * (2 : ℝ) ^ T := by
    have hconst : EMIN + 2 * (EXP_BITS : ℤ) = 274 - 262378 := by decide
    have h2 : (2 : ℝ) ≠ 0 := by norm_num
    have hx2' : (nat256 X : ℝ) = nat256 (signif A) * 2 ^ lx := by
      rw [x2, Nat.cast_mul, Nat.cast_pow, Nat.cast_ofNat]
    have hy2' : (nat256 Y : ℝ) = nat256 (signif B) * 2 ^ ly := by
      rw [y2, Nat.cast_mul, Nat.cast_pow, Nat.cast_ofNat]
    rw [hx2', hy2'] at fP
    rw [hT, hconst, hv, a3, b3]
    generalize (expBits A : ℤ) - (normBit A : ℤ) = ea
    generalize (expBits B : ℤ) - (normBit B : ℤ) = eb
    generalize (nat256 (signif A) : ℝ) = SA at *
    generalize (nat256 (signif B) : ℝ) = SB at *
    generalize (nat256 z : ℝ) + f = w at *
    have e1 : (2 : ℝ) ^ (ea + eb - ((lx + ly : ℕ) : ℤ) + (274 - 262378) + (c : ℤ)) *
        (2 ^ lx * 2 ^ ly) * 2 ^ 262378 = 2 ^ ea * 2 ^ eb * 2 ^ (274 + c) := by
      rw [← zpow_natCast, ← zpow_natCast, ← zpow_natCast, ← zpow_natCast, ← zpow_add₀ h2,
        ← zpow_add₀ h2, ← zpow_add₀ h2, ← zpow_add₀ h2, ← zpow_add₀ h2]
      congr 1
      push_cast
      ring
    have hL : (2 : ℝ) ^ lx * 2 ^ ly ≠ 0 := by positivity
    rw [div_eq_iff (by positivity)]
    apply mul_right_cancel₀ hL
    calc SA * 2 ^ ea * (SB * 2 ^ eb) * (2 ^ lx * 2 ^ ly) =
          (SA * 2 ^ lx * (SB * 2 ^ ly)) * (2 ^ ea * 2 ^ eb) := by ring
      _ = w * (2 ^ ea * 2 ^ eb * 2 ^ (274 + c)) := by rw [fP]; ring
      _ = _ := by rw [← e1]; ring
  clear hT hv fP
  by_cases c1 : T ≥ (EXP_MAX : ℤ) - 1
  · rw [if_pos c1]
    rw [hEM] at c1
    refine ⟨INF, v, tail_inf m1 f0 hvT c1, fun sg s hsg hs => ?_, fun h => absurd rfl h⟩
    have := nat_or_sign (z := U256.new INF_HI 0) (h := sg) (s := s) (by decide) hsg
    rw [pat_finalRound, this, INF_new]
    have hI := INF_lt
    simp
    omega
  rw [if_neg c1]
  rw [hEM] at c1
  by_cases c2 : T < 0
  · rw [if_pos c2]
    by_cases c3 : T.natAbs > SIGNIFICAND_BITS + 1
    · rw [if_pos c3]
      rw [hSB] at c3
      refine ⟨0, v, tail_zero m2 f0 f1 hvT (by omega), fun sg s hsg hs => ?_, fun h => absurd rfl h⟩
      have := nat_or_sign (z := UInt.zero) (h := sg) (s := s) (by decide) hsg
      rw [pat_finalRound, this, show nat256 UInt.zero = 0 by decide]
      simp
      omega
    · rw [if_neg c3]
      rw [hSB] at c3
      obtain ⟨f', hf'⟩ : ∃ f' : ℝ, f' = if rb = 0 then 0 else f := ⟨_, rfl⟩
      have hf'0 : 0 ≤ f' := by rw [hf']; split_ifs <;> linarith
      have hf'1 : f' < 1 := by rw [hf']; split_ifs <;> linarith
      have hrb' : rb ≠ 0 ↔ f' ≠ 0 := by
        rw [hf']
        by_cases h : rb = 0
        · simp [h]
        · simp [h, frb0 h]
      obtain ⟨N, hN, hN2⟩ := tail_sub (v := (nat256 z + f') * (2 : ℝ) ^ T) m2 hf'0 hf'1 hrb' rfl
        c2 (by omega)
      refine ⟨N, _, hN, hN2, ?_⟩
      intro hne
      have hr0 : rb = 0 := by
        by_contra h
        rw [if_neg h] at hf'
        exact hne (by rw [hvT, hf'])
      rw [if_pos hr0] at hf'
      have hfl := frb1 hr0
      have hfne : f ≠ 0 := by
        intro h
        exact hne (by rw [hvT, hf', h])
      have hfp : 0 < f := lt_of_le_of_ne f0 (Ne.symm hfne)
      have hp : (0 : ℝ) < (2 : ℝ) ^ T := zpow_pos (by norm_num) _
      have hp1 : (2 : ℝ) ^ T ≤ 2 ^ (-1 : ℤ) := zpow_le_zpow_right₀ (by norm_num) (by omega)
      rw [show (2 : ℝ) ^ (-1 : ℤ) = 1 / 2 by norm_num] at hp1
      have hzl : ((nat256 z + 1 : ℕ) : ℝ) ≤ ((2 ^ 237 : ℕ) : ℝ) := by exact_mod_cast m2
      rw [Nat.cast_pow, Nat.cast_ofNat, Nat.cast_add, Nat.cast_one] at hzl
      have hz0 : (0 : ℝ) ≤ nat256 z := Nat.cast_nonneg _
      rw [hf', add_zero, hvT]
      refine ⟨?_, ?_, ?_, ?_, ?_⟩
      · calc (nat256 z + f) * (2 : ℝ) ^ T < 2 ^ 237 * (2 : ℝ) ^ T :=
              mul_lt_mul_of_pos_right (by linarith) hp
          _ ≤ 2 ^ 237 * (1 / 2) := mul_le_mul_of_nonneg_left hp1 (by positivity)
          _ = 2 ^ 236 := by norm_num
      · exact mul_lt_mul_of_pos_right (by linarith) hp
      · nlinarith
      · intro k hk
        obtain ⟨j, hj⟩ : ∃ j : ℕ, T = -((j + 1 : ℕ) : ℤ) := ⟨T.natAbs - 1, by omega⟩
        rw [hj, zpow_neg, zpow_natCast] at hk
        have hk2 : (nat256 z : ℝ) + f = (((k : ℤ) * 2 ^ j : ℤ) : ℝ) := by
          push_cast
          rw [← hk, pow_succ]
          field_simp
        have h1 : ((nat256 z : ℤ) : ℝ) < ((k * 2 ^ j : ℤ) : ℝ) := by
          rw [← hk2, Int.cast_natCast]; linarith
        have h2 : ((k * 2 ^ j : ℤ) : ℝ) < ((nat256 z + 1 : ℤ) : ℝ) := by
          rw [← hk2, Int.cast_add, Int.cast_natCast, Int.cast_one]; linarith
        have h1' : (nat256 z : ℤ) < k * 2 ^ j := by exact_mod_cast h1
        have h2' : k * 2 ^ j < (nat256 z : ℤ) + 1 := by exact_mod_cast h2
        omega
      · have hz6 : ((2 ^ 236 : ℕ) : ℝ) ≤ nat256 z := by exact_mod_cast m1
        rw [Nat.cast_pow, Nat.cast_ofNat] at hz6
        have : f ≤ (nat256 z + f) / 2 ^ 238 := by
          rw [le_div_iff₀ (by positivity)]
          have : (2 : ℝ) ^ 238 = 4 * 2 ^ 236 := by norm_num
          rw [this]
          nlinarith
        calc (nat256 z + f) * (2 : ℝ) ^ T ≤ (nat256 z + (nat256 z + f) / 2 ^ 238) * (2 : ℝ) ^ T :=
              mul_le_mul_of_nonneg_right (by linarith) hp.le
          _ = _ := by ring
  · rw [if_neg c2]
    obtain ⟨N, hN, hN2⟩ := tail_norm (v := v) m1 m2 f0 f1 frb hvT (by omega) (by omega)
    exact ⟨N, v, hN, hN2, fun h => absurd rfl h⟩

end Verif
