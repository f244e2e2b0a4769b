import Verif.Proofs.MulDiv
import Verif.Proofs.Add2
import Verif.Proofs.DivRem

/-!
# Division of finite non-zero absolute values
-/

namespace Verif

open BigUInt LawfulBigUInt

/-- Dividing a 512-bit value by a 256-bit value whose quotient fits. -/
theorem divRemSub512 {t : U512} {y : U256} (h0 : nat256 t.hi ≠ 0) (hlt : nat256 t.hi < nat256 y) :
    ∃ q : U512, ∃ r : U256, UInt.divRemSub t y = some (q, r) ∧ UInt.nat q = UInt.nat t / nat256 y ∧
      nat256 r = UInt.nat t % nat256 y := by
  have hy : nat256 y ≠ 0 := by omega
  refine ⟨_, _, UInt.divRemSub_spec t y hy (fun h => absurd h h0) (fun h => absurd hlt (not_lt.mpr h)),
    ?_, ?_⟩
  · show UInt.nat (UInt.mkNat (UInt.nat t / nat256 y)) = _
    rw [UInt.nat_mkNat]
    exact Nat.mod_eq_of_lt (lt_of_le_of_lt (Nat.div_le_self _ _) (UInt.nat_lt t))
  · show toNat (LawfulBigUInt.ofNat (α := U256) (UInt.nat t % nat256 y)) = _
    rw [toNat_ofNat]
    exact Nat.mod_eq_of_lt (lt_trans (Nat.mod_lt _ (Nat.pos_of_ne_zero hy)) (nat256_lt y))

theorem divSignifs_spec {x y : U256} (hx : 2 ^ 236 ≤ nat256 x) (hx2 : nat256 x < 2 ^ 237)
    (hy : 2 ^ 236 ≤ nat256 y) (hy2 : nat256 y < 2 ^ 237) :
    ∃ z rb, divSignifs x y = some (z, rb) ∧ 2 ^ 236 ≤ nat256 z ∧ nat256 z < 2 ^ 237 ∧
    ∃ f : ℝ, 0 ≤ f ∧ f < 1 ∧ RndOK f rb ∧ (rb ≠ 0 ↔ f ≠ 0) ∧
      (nat256 x : ℝ) * 2 ^ (237 + (decide (nat256 x < nat256 y)).toNat) =
        (nat256 z + f) * 2 * nat256 y := by
  obtain ⟨b, hb⟩ : ∃ b, b = (decide (nat256 x < nat256 y)).toNat := ⟨_, rfl⟩
  have hb1 : b ≤ 1 := by rw [hb]; exact bool_toNat_le _
  have hcmp : (UInt.cmp x y == .lt).toNat = b := by
    rw [hb, cmp256]; congr 1
    rw [Bool.eq_iff_iff, beq_iff_eq, decide_eq_true_iff, Nat.compare_eq_lt]
  -- bounds of the quotient
  have hq : 2 ^ 237 * nat256 y ≤ nat256 x * 2 ^ (237 + b) ∧
      nat256 x * 2 ^ (237 + b) < 2 ^ 238 * nat256 y := by
    by_cases h : nat256 x < nat256 y
    · rw [decide_eq_true h, Bool.toNat_true] at hb
      rw [hb]; omega
    · rw [decide_eq_false h, Bool.toNat_false] at hb
      rw [hb]; omega
  unfold divSignifs
  rw [← hb, hcmp]
  obtain ⟨t, ht⟩ : ∃ t : U512, t = UInt.shl (⟨UInt.zero, x⟩ : U512) (SIGNIFICAND_BITS + b) :=
    ⟨_, rfl⟩
  have htn : UInt.nat t = nat256 x * 2 ^ (237 + b) := by
    rw [ht]
    have h1 := UInt.nat_shl (⟨UInt.zero, x⟩ : U512) (237 + b)
      (by show 237 + b < 2 * 256; omega)
    have h2 : UInt.nat (⟨UInt.zero, x⟩ : U512) = nat256 x := by
      show nat256 UInt.zero * 2 ^ 256 + nat256 x = _
      rw [show nat256 UInt.zero = 0 by decide]; omega
    rw [h2, Nat.mod_eq_of_lt] at h1
    · exact h1
    · have h3 : 2 ^ (237 + b) ≤ 2 ^ 238 := Nat.pow_le_pow_right (by norm_num) (by omega)
      calc nat256 x * 2 ^ (237 + b) < 2 ^ 237 * 2 ^ 238 :=
            Nat.mul_lt_mul_of_lt_of_le hx2 h3 (Nat.two_pow_pos _)
        _ < 2 ^ (2 * 256) := by
            rw [← pow_add]; exact Nat.pow_lt_pow_right (by norm_num) (by norm_num)
  dsimp only
  rw [← ht]
  have hts : UInt.nat t = nat256 t.hi * 2 ^ 256 + nat256 t.lo := rfl
  have htl := nat256_lt t.lo
  have ha : nat256 t.hi ≠ 0 := by
    intro h
    rw [h] at hts
    have : 2 ^ 237 * 2 ^ 236 ≤ 2 ^ 237 * nat256 y := Nat.mul_le_mul_left _ hy
    omega
  have hb' : nat256 t.hi < nat256 y := by
    have : nat256 t.hi * 2 ^ 256 < 2 ^ 238 * nat256 y := by omega
    omega
  obtain ⟨q, r, hqr, hqn, hrn⟩ := divRemSub512 ha hb'
  have hy0 : 0 < nat256 y := by omega
  have hq1 : 2 ^ 237 ≤ UInt.nat q := by
    rw [hqn, Nat.le_div_iff_mul_le hy0, htn]; exact hq.1
  have hq2 : UInt.nat q < 2 ^ 238 := by
    rw [hqn, Nat.div_lt_iff_lt_mul hy0, htn]; exact hq.2
  have hqs : UInt.nat q = nat256 q.hi * 2 ^ 256 + nat256 q.lo := rfl
  have hqlo : nat256 q.lo = UInt.nat q := by omega
  have hsh : UInt.nat (UInt.shr q 1) = UInt.nat q / 2 := by
    have := UInt.nat_shr q 1 (by show 1 < 2 * 256; omega)
    rwa [pow_one] at this
  have hss : UInt.nat (UInt.shr q 1) = nat256 (UInt.shr q 1).hi * 2 ^ 256 +
      nat256 (UInt.shr q 1).lo := rfl
  have hz : nat256 (UInt.shr q 1).lo = UInt.nat q / 2 := by omega
  rw [hqr]
  refine ⟨(UInt.shr q 1).lo, _, rfl, by omega, by omega, ?_⟩
  rw [lo_and_1, hqlo, isZero256, hz, hrn, Nat.shiftLeft_eq, pow_one]
  have hdm := Nat.div_add_mod (UInt.nat t) (nat256 y)
  have hml := Nat.mod_lt (UInt.nat t) hy0
  rw [← hqn] at hdm
  generalize UInt.nat t % nat256 y = R at *
  generalize UInt.nat q = Q at *
  have hY : (0 : ℝ) < nat256 y := by exact_mod_cast hy0
  have hR0 : (0 : ℝ) ≤ R := Nat.cast_nonneg _
  have hR1 : (R : ℝ) < nat256 y := by exact_mod_cast hml
  obtain ⟨g, hg⟩ : ∃ g : ℝ, g = R / nat256 y := ⟨_, rfl⟩
  have hg0 : 0 ≤ g := by rw [hg]; exact div_nonneg hR0 hY.le
  have hg1 : g < 1 := by rw [hg, div_lt_one hY]; exact hR1
  have hgz : R = 0 ↔ g = 0 := by
    rw [hg, div_eq_zero_iff]
    constructor
    · intro h; left; exact_mod_cast h
    · rintro (h | h)
      · exact_mod_cast h
      · exact absurd h hY.ne'
  have hgy : g * nat256 y = R := by rw [hg, div_mul_cancel₀ _ hY.ne']
  have hX : (nat256 x : ℝ) * 2 ^ (237 + b) = (Q + g) * nat256 y := by
    have : ((nat256 x * 2 ^ (237 + b) : ℕ) : ℝ) = ((nat256 y * Q + R : ℕ) : ℝ) := by
      rw [hdm, htn]
    rw [Nat.cast_mul, Nat.cast_add, Nat.cast_mul, Nat.cast_pow, Nat.cast_ofNat] at this
    rw [this, add_mul, hgy]; ring
  have hQ2 : (Q : ℝ) = 2 * (Q / 2 : ℕ) + (Q % 2 : ℕ) := by
    have : ((2 * (Q / 2) + Q % 2 : ℕ) : ℝ) = Q := by rw [Nat.div_add_mod]
    rw [Nat.cast_add, Nat.cast_mul, Nat.cast_ofNat] at this
    exact this.symm
  have hdz : (!decide (R = 0)).toNat = 0 ↔ g = 0 := by
    rw [← hgz]; by_cases h : R = 0 <;> simp [h]
  have hdz1 : (!decide (R = 0)).toNat ≤ 1 := bool_toNat_le _
  generalize (!decide (R = 0)).toNat = st at *
  have hodd : Q % 2 = 0 ∨ Q % 2 = 1 := by omega
  refine ⟨((Q % 2 : ℕ) + g) / 2, by positivity, ?_, ?_, ?_, ?_⟩
  · rcases hodd with h | h <;> rw [h] <;> norm_num <;> linarith
  · rw [or_bit _ _ hdz1]
    have hst : st = 0 ∨ st = 1 := by omega
    rcases hodd with h | h <;> rw [h] <;> rcases hst with h' | h' <;> subst h' <;>
      simp only [RndOK] <;> norm_num
    · have := hdz.mp rfl; constructor <;> linarith
    · have : g ≠ 0 := fun hh => absurd (hdz.mpr hh) (by norm_num)
      constructor
      · linarith
      · intro hh; linarith
    · have := hdz.mp rfl; constructor <;> linarith
    · have : g ≠ 0 := fun hh => absurd (hdz.mpr hh) (by norm_num)
      have : 0 < g := lt_of_le_of_ne hg0 (Ne.symm this)
      constructor
      · linarith
      · intro hh; linarith
  · rw [or_bit _ _ hdz1]
    have hst : st = 0 ∨ st = 1 := by omega
    rcases hodd with h | h <;> rw [h] <;> rcases hst with h' | h' <;> subst h' <;> norm_num
    · exact hdz.mp rfl
    · exact fun hh => absurd (hdz.mpr hh) (by norm_num)
    · have := hdz.mp rfl; intro hh; linarith
    · intro hh; linarith
  · rw [hX, hQ2]; ring

/-- `|x| / |y|` for finite non-zero operands, with the final rounding and the sign. -/
theorem divFinite_spec {A B : U256} (hA0 : nat256 A ≠ 0) (hA : nat256 A < INF)
    (hB0 : nat256 B ≠ 0) (hB : nat256 B < INF) {v : ℝ}
    (hv : v = (mag (nat256 A) : ℝ) / mag (nat256 B) * 2 ^ 262378) :
    ∃ N, RoundsTo v N ∧ ∀ (sg : BitVec 128) (s : ℕ), sg.toNat = s * 2 ^ 127 → s ≤ 1 →
      ∃ z, divFinite A B sg = some z ∧ z.pat = s * 2 ^ 255 + N := by
  obtain ⟨a1, a2, a3⟩ := decoded hA0 hA
  obtain ⟨b1, b2, b3⟩ := decoded hB0 hB
  obtain ⟨x1, x2, x3⟩ := normSignif_spec a1 a2
  obtain ⟨y1, y2, y3⟩ := normSignif_spec b1 b2
  obtain ⟨z, rb, hds, m1, m2, f, f0, f1, frb, frb0, fP⟩ := divSignifs_spec x1 x2 y1 y2
  unfold divFinite
  dsimp only
  simp only [hds]
  have hc : (UInt.cmp (normSignif A).1 (normSignif B).1 != .lt).toNat =
      1 - (decide (nat256 (normSignif A).1 < nat256 (normSignif B).1)).toNat := by
    rw [cmp256]
    by_cases h : nat256 (normSignif A).1 < nat256 (normSignif B).1
    · rw [decide_eq_true h, Nat.compare_eq_lt.mpr h]; rfl
    · rw [decide_eq_false h]
      have h2 : compare (nat256 (normSignif A).1) (nat256 (normSignif B).1) ≠ .lt := by
        rw [Ne, Nat.compare_eq_lt]; exact h
      simp [bne, h2]
  simp only [hc]
  have hb1 : (decide (nat256 (normSignif A).1 < nat256 (normSignif B).1)).toNat ≤ 1 :=
    bool_toNat_le _
  generalize (decide (nat256 (normSignif A).1 < nat256 (normSignif B).1)).toNat = b at *
  generalize (normSignif A).1 = X at *
  generalize (normSignif B).1 = Y at *
  generalize (normSignif A).2 = lx at *
  generalize (normSignif B).2 = ly at *
  obtain ⟨T, hT⟩ : ∃ T : ℤ, T = (expBits A : ℤ) - (normBit A : ℤ) -
      ((expBits B : ℤ) - (normBit B : ℤ)) - ((lx : ℤ) - (ly : ℤ)) + (-EMIN - 1) +
      ((1 - b : ℕ) : ℤ) := ⟨_, rfl⟩
  simp only [← hT]
  have hEM : (EXP_MAX : ℤ) - 1 = 524286 := by decide
  have hSB : SIGNIFICAND_BITS + 1 = 238 := rfl
  have hvT : v = (nat256 z + f) * (2 : ℝ) ^ T := by
    have hconst : -EMIN - 1 = 262378 - 237 := by decide
    have h2 : (2 : ℝ) ≠ 0 := by norm_num
    have hx2' : (nat256 X : ℝ) = nat256 (signif A) * 2 ^ lx := by
      rw [x3, Nat.cast_mul, Nat.cast_pow, Nat.cast_ofNat]
    have hy2' : (nat256 Y : ℝ) = nat256 (signif B) * 2 ^ ly := by
      rw [y3, Nat.cast_mul, Nat.cast_pow, Nat.cast_ofNat]
    have hSB0 : (nat256 (signif B) : ℝ) ≠ 0 := by exact_mod_cast b1
    rw [hx2', hy2'] at fP
    rw [hT, hconst, hv, a3, b3]
    clear hT hv a3 b3
    generalize (expBits A : ℤ) - (normBit A : ℤ) = ea
    generalize (expBits B : ℤ) - (normBit B : ℤ) = eb
    generalize (nat256 (signif A) : ℝ) = SA at *
    generalize (nat256 (signif B) : ℝ) = SB at *
    generalize (nat256 z : ℝ) + f = w at *
    have e1 : (2 : ℝ) ^ (ea - eb - ((lx : ℤ) - (ly : ℤ)) + (262378 - 237) + ((1 - b : ℕ) : ℤ)) *
        (2 ^ eb * 2 ^ lx * 2 ^ (237 + b)) = 2 ^ ea * 2 ^ ly * 2 * 2 ^ 262378 := by
      have e0 : (2 : ℝ) ^ ea * 2 ^ ly * 2 * 2 ^ 262378 =
          (2 : ℝ) ^ (ea + (ly : ℤ) + 1 + (262378 : ℕ)) := by
        rw [zpow_add₀ h2, zpow_add₀ h2, zpow_add₀ h2, zpow_natCast, zpow_natCast, zpow_one]
      rw [e0, ← zpow_natCast, ← zpow_natCast, ← zpow_add₀ h2, ← zpow_add₀ h2, ← zpow_add₀ h2]
      congr 1
      rw [Nat.cast_sub hb1]
      push_cast
      ring
    have hL : (2 : ℝ) ^ eb * 2 ^ lx * 2 ^ (237 + b) ≠ 0 :=
      mul_ne_zero (mul_ne_zero (zpow_ne_zero _ h2) (pow_ne_zero _ h2)) (pow_ne_zero _ h2)
    have hE : (2 : ℝ) ^ eb ≠ 0 := zpow_ne_zero _ h2
    rw [div_mul_eq_mul_div, div_eq_iff (mul_ne_zero hSB0 hE)]
    apply mul_right_cancel₀ hL
    calc SA * 2 ^ ea * 2 ^ 262378 * (2 ^ eb * 2 ^ lx * 2 ^ (237 + b)) =
          (SA * 2 ^ lx * 2 ^ (237 + b)) * (2 ^ ea * 2 ^ 262378 * 2 ^ eb) := by ring
      _ = w * SB * 2 ^ eb * (2 ^ ea * 2 ^ ly * 2 * 2 ^ 262378) := by rw [fP]; ring
      _ = _ := by rw [← e1]; ring
  clear hT hv fP
  by_cases c1 : T ≥ (EXP_MAX : ℤ) - 1
  · simp only [if_pos c1]
    rw [hEM] at c1
    refine ⟨INF, tail_inf m1 f0 hvT c1, fun sg s hsg hs => ⟨_, rfl, ?_⟩⟩
    have := nat_or_sign (z := U256.new INF_HI 0) (h := sg) (s := s) (by decide) hsg
    rw [pat_eq, BitVec.or_comm]
    exact this.trans (by rw [INF_new])
  simp only [if_neg c1, Option.bind_some]
  rw [hEM] at c1
  by_cases c2 : T < 0
  · simp only [if_pos c2]
    by_cases c3 : T.natAbs > SIGNIFICAND_BITS + 1
    · simp only [if_pos c3]
      rw [hSB] at c3
      refine ⟨0, tail_zero m2 f0 f1 hvT (by omega), fun sg s hsg hs => ⟨_, rfl, ?_⟩⟩
      rw [pat_eq, nat256_new, hsg, show (0 : BitVec 128).toNat = 0 by decide]
      ring
    · simp only [if_neg c3]
      rw [hSB] at c3
      obtain ⟨N, hN, hN2⟩ := tail_sub m2 f0 f1 frb0 hvT c2 (by omega)
      exact ⟨N, hN, fun sg s hsg hs => ⟨_, rfl, hN2 sg s hsg hs⟩⟩
  · simp only [if_neg c2]
    obtain ⟨N, hN, hN2⟩ := tail_norm (v := v) m1 m2 f0 f1 frb hvT (by omega) (by omega)
    exact ⟨N, hN, fun sg s hsg hs => ⟨_, rfl, hN2 sg s hsg hs⟩⟩

end Verif
