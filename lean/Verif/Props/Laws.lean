import Verif.Proofs.Exact
import Verif.Props.Div

/-!
# Algebraic laws (C32-C35)
-/

namespace Verif.Props

open Verif Spec BigUInt

/-! ## C32: commutativity -/

theorem inf_or_nan {N : ℕ} (h : ¬ IsFin N) : IsInf N ∨ IsNaN N := by
  rw [fin_iff] at h; rw [isInf_iff, isNaN_iff]; omega

/-- C32. Addition is commutative, bit for bit, for all operands. -/
theorem C32_add_comm (x y : F256) : F256.add x y = F256.add y x := by
  by_cases nx : IsNaN x.pat
  · rw [(C03_nan x y (Or.inl nx)).1, (C03_nan y x (Or.inr nx)).1]
  by_cases ny : IsNaN y.pat
  · rw [(C03_nan x y (Or.inr ny)).1, (C03_nan y x (Or.inl ny)).1]
  by_cases fx : IsFin x.pat
  · by_cases fy : IsFin y.pat
    · by_cases h0 : val x.pat + val y.pat = 0
      · rw [C03_exact_zero x y fx fy h0, C03_exact_zero y x fy fx (by rw [add_comm]; exact h0)]
        simp only [and_comm]
      · obtain ⟨z, h1, h2⟩ := C01_add x y fx fy
        obtain ⟨w, h3, h4⟩ := C01_add y x fy fx
        rw [add_comm] at h4
        rw [h1, h3, pat_inj (IsRNE.unique h2 h4 h0)]
    · have iy := (inf_or_nan fy).resolve_right ny
      rw [(C03_inf_finite y x iy fx).1, (C03_inf_finite y x iy fx).2]
  · have ix := (inf_or_nan fx).resolve_right nx
    by_cases fy : IsFin y.pat
    · rw [(C03_inf_finite x y ix fy).1, (C03_inf_finite x y ix fy).2]
    · have iy := (inf_or_nan fy).resolve_right ny
      by_cases hs : signBit x.pat = signBit y.pat
      · rw [C03_inf_same x y ix iy hs, C03_inf_same y x iy ix hs.symm]
        congr 1
        apply pat_inj
        rw [pat_split (pat_lt x), pat_split (pat_lt y), hs, (isInf_iff _).mp ix, (isInf_iff _).mp iy]
      · rw [C03_inf_opposite x y ix iy hs, C03_inf_opposite y x iy ix (Ne.symm hs)]

theorem wideningMul_comm (x y : U256) : UInt.wideningMul x y = UInt.wideningMul y x := by
  have h1 := wideningMul256 x y
  have h2 := wideningMul256 y x
  have a1 := nat256_lt (UInt.wideningMul x y).1
  have a2 := nat256_lt (UInt.wideningMul y x).1
  rw [Nat.mul_comm (nat256 y)] at h2
  apply Prod.ext
  · exact nat256_inj (by omega)
  · exact nat256_inj (by omega)

theorem mulAbsFinite_comm (a b : U256) : mulAbsFinite a b = mulAbsFinite b a := by
  unfold mulAbsFinite
  dsimp only
  have h1 : mulSignifs (leftAdjSignif a).1 (leftAdjSignif b).1 =
      mulSignifs (leftAdjSignif b).1 (leftAdjSignif a).1 := by
    unfold mulSignifs
    rw [wideningMul_comm]
  rw [h1, Nat.add_comm (leftAdjSignif a).2, add_comm ((expBits a : ℤ) - (normBit a : ℤ))]

/-- C32. Multiplication is commutative, bit for bit, for all operands. -/
theorem C32_mul_comm (x y : F256) : F256.mul x y = F256.mul y x := by
  by_cases h : IsZero x.pat ∨ IsZero y.pat ∨ ¬ IsFin x.pat ∨ ¬ IsFin y.pat
  · have h' : IsZero y.pat ∨ IsZero x.pat ∨ ¬ IsFin y.pat ∨ ¬ IsFin x.pat := by
      rcases h with h | h | h | h <;> simp only [h, true_or, or_true, not_false_eq_true]
    rw [mul_special h, mul_special h', BitVec.xor_comm]
    simp only [and_comm (a := IsFin x.pat), or_comm (a := IsZero x.pat), or_comm (a := IsInf x.pat),
      or_comm (a := IsNaN x.pat)]
  · simp only [not_or, not_not] at h
    have hs := anySpecial2_false (x := x) (y := y) ⟨h.2.2.1, h.1⟩ ⟨h.2.2.2, h.2.1⟩
    have hs' := anySpecial2_false (x := y) (y := x) ⟨h.2.2.2, h.2.1⟩ ⟨h.2.2.1, h.1⟩
    unfold F256.mul
    simp only [hs, hs', Bool.false_eq_true, if_false]
    rw [mulAbsFinite_comm, BitVec.xor_comm]

/-! ## C33: identities -/

/-- A finite result with known non-zero value is determined. -/
theorem eq_of_rne {x z : F256} {q : ℝ} (h : IsRNE q z.pat) (hx : IsFin x.pat)
    (hq : val x.pat = q) (h0 : q ≠ 0) : z = x := by
  subst hq
  exact pat_inj (IsRNE.unique h (isRNE_self (pat_lt x) hx) h0)

theorem val_ne_zero {x : F256} (hx : IsFin x.pat) (h0 : ¬ IsZero x.pat) : val x.pat ≠ 0 :=
  fun h => h0 ((val_eq_zero_iff hx).mp h)

theorem zero_cases {N : ℕ} (hN : N < 2 ^ 256) (h : IsZero N) : N = signBit N * 2 ^ 255 := by
  rw [isZero_iff] at h
  conv_lhs => rw [pat_split hN, h, add_zero]

/-- C33. `x + 0 = x` for finite x (for x = -0 the sum is +0, the same number). -/
theorem C33_add_zero (x : F256) (hx : IsFin x.pat) (h : x ≠ F256.NEG_ZERO) :
    F256.add x F256.ZERO = some x := by
  by_cases h0 : IsZero x.pat
  · have hx0 : x = F256.ZERO := by
      apply pat_inj
      rcases signBit_cases x.pat with hs | hs
      · have := zero_cases (pat_lt x) h0
        rw [hs] at this
        rw [this]; decide
      · exfalso
        apply h
        apply pat_inj
        have := zero_cases (pat_lt x) h0
        rw [hs] at this
        rw [this]; decide
    rw [hx0]; decide
  · exact (C03_zero_finite F256.ZERO x (by decide) hx h0).2

/-- C33. Subtracting or adding a negative zero changes nothing at all. -/
theorem C33_add_neg_zero (x : F256) (hx : IsFin x.pat) :
    F256.add x F256.NEG_ZERO = some x := by
  by_cases h0 : IsZero x.pat
  · have := zero_cases (pat_lt x) h0
    rcases signBit_cases x.pat with hs | hs
    · rw [hs] at this
      have hx0 : x = F256.ZERO := pat_inj (by rw [this]; decide)
      rw [hx0]; decide
    · rw [hs] at this
      have hx0 : x = F256.NEG_ZERO := pat_inj (by rw [this]; decide)
      rw [hx0]; decide
  · exact (C03_zero_finite F256.NEG_ZERO x (by decide) hx h0).2

/-- C33. `x - x` is +0 for every finite x. -/
theorem C33_sub_self (x : F256) (hx : IsFin x.pat) : F256.sub x x = some F256.ZERO := by
  rw [C02_sub_eq_add_neg, C03_exact_zero x x.negated hx ((isFin_negated x).mpr hx)
    (by rw [C18_neg_val]; ring), if_neg]
  rintro ⟨h1, h2⟩
  rw [h1] at h2
  exact absurd h2 (by decide)

/-- C33. `x * 1 = x`, bit for bit, for every finite x. -/
theorem C33_mul_one (x : F256) (hx : IsFin x.pat) :
    F256.mul x F256.ONE = x ∧ F256.mul F256.ONE x = x := by
  have h1 : F256.mul x F256.ONE = x := by
    by_cases h0 : IsZero x.pat
    · obtain ⟨z1, z2⟩ := C05_zero x F256.ONE hx (by decide) (Or.inl h0)
      apply pat_inj
      rw [zero_cases (pat_lt _) z1, z2, zero_cases (pat_lt x) h0]
      unfold xorSign
      rw [show signBit F256.ONE.pat = 0 by decide]
      rcases signBit_cases x.pat with h | h <;> rw [h] <;> decide
    · have h := (C04_mul_partial x F256.ONE hx (by decide) (by
        right
        intro k
        rw [val_ONE, mul_one, abs_val]
        rintro ⟨a, b⟩
        have a' : (k : ℝ) < mag x.pat := by linarith
        have b' : (mag x.pat : ℝ) < ((k + 1 : ℕ) : ℝ) := by push_cast; linarith
        have a'' : k < mag x.pat := by exact_mod_cast a'
        have b'' : mag x.pat < k + 1 := by exact_mod_cast b'
        omega)).1
      rw [val_ONE, mul_one] at h
      exact eq_of_rne h hx rfl (val_ne_zero hx h0)
  exact ⟨h1, by rw [C32_mul_comm]; exact h1⟩

/-- C33. `x / 1 = x`, bit for bit, for every finite x. -/
theorem C33_div_one (x : F256) (hx : IsFin x.pat) : F256.div x F256.ONE = some x := by
  obtain ⟨z, h1, h2, h3⟩ := C06_div x F256.ONE hx (by decide) (by decide)
  rw [h1]
  congr 1
  rw [val_ONE, div_one] at h2
  by_cases h0 : IsZero x.pat
  · have hz : IsZero z.pat := by
      rw [val_zero h0] at h2
      have := IsRNE.exact h2 (M := 0) (by norm_num) (by decide) (val_zero (by decide))
      exact (val_eq_zero_iff this.1).mp this.2
    apply pat_inj
    rw [zero_cases (pat_lt _) hz, h3, zero_cases (pat_lt x) h0]
    unfold xorSign
    rw [show signBit F256.ONE.pat = 0 by decide]
    rcases signBit_cases x.pat with h | h <;> rw [h] <;> decide
  · exact eq_of_rne h2 hx rfl (val_ne_zero hx h0)

/-- C33. `x / x = 1` for every finite non-zero x. -/
theorem C33_div_self (x : F256) (hx : IsFin x.pat) (h0 : ¬ IsZero x.pat) :
    F256.div x x = some F256.ONE := by
  obtain ⟨z, h1, h2, h3⟩ := C06_div x x hx hx h0
  rw [h1, div_self (val_ne_zero hx h0)] at *
  congr 1
  exact eq_of_rne h2 (by decide) val_ONE one_ne_zero

theorem isRNE_neg {q : ℝ} {z : F256} (h : IsRNE q z.pat) : IsRNE (-q) z.negated.pat := by
  have hc := C18_class z
  have hn : ∀ M, M < 2 ^ 256 → IsFin M → ∃ K, K < 2 ^ 256 ∧ IsFin K ∧ val K = - val M := by
    intro M hM fM
    obtain ⟨x, hx⟩ : ∃ x : F256, x.pat = M := by
      refine ⟨⟨⟨BitVec.ofNat 128 (M / 2 ^ 128), BitVec.ofNat 128 M⟩⟩, ?_⟩
      rw [pat_eq, nat256_mk, BitVec.toNat_ofNat, BitVec.toNat_ofNat]
      omega
    refine ⟨x.negated.pat, pat_lt _, (isFin_negated x).mpr (by rw [hx]; exact fM), ?_⟩
    rw [C18_neg_val, hx]
  refine ⟨pat_lt _, ?_, ?_, ?_, ?_, ?_, ?_⟩
  · intro hh
    rw [abs_neg] at hh
    have := h.inf hh
    unfold IsInf at this ⊢
    rw [hc.1, hc.2.1]; exact this
  · intro hh
    rw [abs_neg] at hh
    exact (isFin_negated z).mpr (h.fin hh)
  · intro hh M hM fM
    rw [abs_neg] at hh
    obtain ⟨K, k1, k2, k3⟩ := hn M hM fM
    have := h.nearest hh K k1 k2
    rw [C18_neg_val]
    have e1 : -val z.pat - -q = -(val z.pat - q) := by ring
    have e2 : val M - -q = -(val K - q) := by rw [k3]; ring
    rw [e1, e2, abs_neg, abs_neg]; exact this
  · intro hh M hM fM he hne
    rw [abs_neg] at hh
    obtain ⟨K, k1, k2, k3⟩ := hn M hM fM
    rw [C18_neg_val] at he hne
    have e1 : -val z.pat - -q = -(val z.pat - q) := by ring
    have e2 : val M - -q = -(val K - q) := by rw [k3]; ring
    rw [e1, e2, abs_neg, abs_neg] at he
    have := h.even hh K k1 k2 he (fun hk => hne (by rw [← hk, k3]; ring))
    rw [pat_negated]
    have := pat_lt z
    omega
  · intro hq
    have := h.neg (by linarith)
    have h1 := pat_lt z
    rw [pat_negated]
    unfold signBit at *
    omega
  · intro hq
    have := h.pos (by linarith)
    have h1 := pat_lt z
    rw [pat_negated]
    unfold signBit at *
    omega

/-- C33. `(-x) + (-y) = -(x + y)` for finite operands with a non-zero sum. -/
theorem C33_neg_add (x y : F256) (hx : IsFin x.pat) (hy : IsFin y.pat)
    (h0 : val x.pat + val y.pat ≠ 0) :
    F256.add x.negated y.negated = (F256.add x y).map F256.negated := by
  obtain ⟨z, h1, h2⟩ := C01_add x y hx hy
  obtain ⟨w, h3, h4⟩ := C01_add x.negated y.negated ((isFin_negated x).mpr hx)
    ((isFin_negated y).mpr hy)
  rw [h1, h3, Option.map_some]
  congr 1
  rw [C18_neg_val, C18_neg_val, ← neg_add] at h4
  exact pat_inj (IsRNE.unique h4 (isRNE_neg h2) (neg_ne_zero.mpr h0))

theorem absBits_negated (x : F256) : absBits x.negated = absBits x := by
  apply nat256_inj
  have := pat_lt x
  rw [nat_absBits, nat_absBits, pat_negated]
  omega

theorem xorSign_negated (x y : F256) : xorSign x.negated.pat y.pat = 1 - xorSign x.pat y.pat := by
  have h1 := pat_lt x
  have : signBit x.negated.pat = 1 - signBit x.pat := by
    rw [pat_negated]; unfold signBit; omega
  unfold xorSign
  rw [this]
  rcases signBit_cases x.pat with h | h <;> rcases signBit_cases y.pat with h' | h' <;> rw [h, h']

/-- C33. `(-x) * y = -(x * y)`, bit for bit, unless the result is NaN. -/
theorem C33_neg_mul (x y : F256) (h : ¬ IsNaN (F256.mul x y).pat) :
    F256.mul x.negated y = (F256.mul x y).negated := by
  have nx : ¬ IsNaN x.pat := fun hh => h (by rw [C05_nan x y (Or.inl hh)]; decide)
  have ny : ¬ IsNaN y.pat := fun hh => h (by rw [C05_nan x y (Or.inr hh)]; decide)
  have hc := C18_class x
  have nI : IsInf x.negated.pat ↔ IsInf x.pat := by unfold IsInf; rw [hc.1, hc.2.1]
  have nZ : IsZero x.negated.pat ↔ IsZero x.pat := by unfold IsZero; rw [hc.1, hc.2.1]
  have nN : IsNaN x.negated.pat ↔ IsNaN x.pat := by unfold IsNaN; rw [hc.1, hc.2.1]
  have hsg := toNat_xorSign x y
  have hsg' := toNat_xorSign x.negated y
  have hxs := xorSign_negated x y
  have hle := xorSign_le x.pat y.pat
  by_cases hs : IsZero x.pat ∨ IsZero y.pat ∨ ¬ IsFin x.pat ∨ ¬ IsFin y.pat
  · rw [mul_special hs] at h
    have hs' : IsZero x.negated.pat ∨ IsZero y.pat ∨ ¬ IsFin x.negated.pat ∨ ¬ IsFin y.pat := by
      rw [nZ, isFin_negated]; exact hs
    rw [mul_special hs, mul_special hs']
    simp only [nZ, nI, nN, isFin_negated]
    by_cases c1 : (IsZero x.pat ∨ IsZero y.pat) ∧ IsFin x.pat ∧ IsFin y.pat
    · rw [if_pos c1, if_pos c1]
      apply pat_inj
      rw [pat_negated, pat_signed_zero hsg, pat_signed_zero hsg', hxs]
      omega
    rw [if_neg c1] at h ⊢
    rw [if_neg c1]
    by_cases c2 : (IsZero x.pat ∨ IsZero y.pat) ∧ (IsInf x.pat ∨ IsInf y.pat)
    · rw [if_pos c2] at h
      exact absurd (by decide) h
    rw [if_neg c2, if_neg c2, if_neg (fun h => h.elim nx ny), if_neg (fun h => h.elim nx ny)]
    apply pat_inj
    have hI := INF_lt
    rw [pat_negated, pat_signed_inf hsg, pat_signed_inf hsg', hxs]
    omega
  · simp only [not_or, not_not] at hs
    have s1 := anySpecial2_false (x := x) (y := y) ⟨hs.2.2.1, hs.1⟩ ⟨hs.2.2.2, hs.2.1⟩
    obtain ⟨zx, zy, fx, fy⟩ := hs
    unfold F256.mul
    simp only [absBits_negated, s1, Bool.false_eq_true, if_false]
    rw [fin_iff, ← nat_absBits] at fx fy
    rw [isZero_iff, ← nat_absBits] at zx zy
    obtain ⟨N, v', h1, h2, -⟩ := mulAbsFinite_spec zx fx zy fy rfl
    apply pat_inj
    rw [pat_negated, h2 _ _ hsg hle, h2 _ _ hsg' (xorSign_le _ _), hxs]
    have := h1.lt_pow
    omega

/-- C33. `(-x) / y = -(x / y)` for finite x and finite non-zero y. -/
theorem C33_neg_div (x y : F256) (hx : IsFin x.pat) (hy : IsFin y.pat) (h0 : ¬ IsZero y.pat) :
    F256.div x.negated y = (F256.div x y).map F256.negated := by
  obtain ⟨z, h1, h2, h3⟩ := C06_div x y hx hy h0
  obtain ⟨w, h4, h5, h6⟩ := C06_div x.negated y ((isFin_negated x).mpr hx) hy h0
  rw [h1, h4, Option.map_some]
  congr 1
  rw [C18_neg_val, neg_div] at h5
  by_cases hq : val x.pat / val y.pat = 0
  · have hz : ∀ {u : F256}, IsRNE 0 u.pat → u.pat = signBit u.pat * 2 ^ 255 := by
      intro u hu
      have := IsRNE.exact hu (M := 0) (by norm_num) (by decide) (val_zero (by decide))
      exact zero_cases (pat_lt _) ((val_eq_zero_iff this.1).mp this.2)
    rw [hq] at h2
    rw [hq, neg_zero] at h5
    apply pat_inj
    rw [hz h5, h6, xorSign_negated, pat_negated, hz h2, h3]
    have := xorSign_le x.pat y.pat
    omega
  · exact pat_inj (IsRNE.unique h5 (isRNE_neg h2) (neg_ne_zero.mpr hq))

/-! ## C34: monotonicity -/

/-- C34. Addition is monotone in the first (hence by C32 in either) operand. -/
theorem C34_add_mono (x y z : F256) (hx : IsFin x.pat) (hy : IsFin y.pat) (hz : IsFin z.pat)
    (h : val x.pat ≤ val y.pat) :
    ∃ a b, F256.add x z = some a ∧ F256.add y z = some b ∧ extVal a.pat ≤ extVal b.pat := by
  obtain ⟨a, h1, h2⟩ := C01_add x z hx hz
  obtain ⟨b, h3, h4⟩ := C01_add y z hy hz
  exact ⟨a, b, h1, h3, IsRNE.mono h2 h4 (by linarith)⟩

/-- C34. Subtraction is monotone in the first and antitone in the second operand. -/
theorem C34_sub_mono (x y z : F256) (hx : IsFin x.pat) (hy : IsFin y.pat) (hz : IsFin z.pat)
    (h : val x.pat ≤ val y.pat) :
    (∃ a b, F256.sub x z = some a ∧ F256.sub y z = some b ∧ extVal a.pat ≤ extVal b.pat) ∧
    (∃ a b, F256.sub z x = some a ∧ F256.sub z y = some b ∧ extVal b.pat ≤ extVal a.pat) := by
  obtain ⟨a, h1, h2⟩ := C02_sub x z hx hz
  obtain ⟨b, h3, h4⟩ := C02_sub y z hy hz
  obtain ⟨c, h5, h6⟩ := C02_sub z x hz hx
  obtain ⟨d, h7, h8⟩ := C02_sub z y hz hy
  exact ⟨⟨a, b, h1, h3, IsRNE.mono h2 h4 (by linarith)⟩, c, d, h5, h7, IsRNE.mono h8 h6 (by linarith)⟩

/-- C34. Division by a positive number is monotone. -/
theorem C34_div_mono (x y z : F256) (hx : IsFin x.pat) (hy : IsFin y.pat) (hz : IsFin z.pat)
    (hz0 : 0 < val z.pat) (h : val x.pat ≤ val y.pat) :
    ∃ a b, F256.div x z = some a ∧ F256.div y z = some b ∧ extVal a.pat ≤ extVal b.pat := by
  have h0 : ¬ IsZero z.pat := fun hh => by rw [val_zero hh] at hz0; exact lt_irrefl _ hz0
  obtain ⟨a, h1, h2, -⟩ := C06_div x z hx hz h0
  obtain ⟨b, h3, h4, -⟩ := C06_div y z hy hz h0
  exact ⟨a, b, h1, h3, IsRNE.mono h2 h4 (div_le_div_of_nonneg_right h hz0.le)⟩

/-- Two different finite magnitudes are at least a factor of `1 - 2^-237` apart. -/
theorem mag_gap {N M : ℕ} (hN : IsFin N) (hM : IsFin M) (h : mag N < mag M) :
    2 ^ 237 * mag N ≤ (2 ^ 237 - 1) * mag M := by
  obtain ⟨tx, mx, -, bx, -, -, ex, -⟩ := fin_asm hN
  obtain ⟨ty, my, cy, by', -, -, ey, -⟩ := fin_asm hM
  rcases Nat.lt_or_ge tx ty with ht | ht
  · have h1 : mag N ≤ (2 ^ 237 - 1) * 2 ^ tx := by
      rw [ex]; exact Nat.mul_le_mul_right _ (by omega)
    have h2 : 2 ^ 237 * 2 ^ tx ≤ mag M := by
      rw [ey]
      have h6 : 2 ^ 236 ≤ my := by omega
      calc 2 ^ 237 * 2 ^ tx = 2 ^ 236 * 2 ^ (tx + 1) := by rw [pow_succ 2 tx]; ring
        _ ≤ my * 2 ^ ty := Nat.mul_le_mul h6 (Nat.pow_le_pow_right (by norm_num) ht)
    calc 2 ^ 237 * mag N ≤ 2 ^ 237 * ((2 ^ 237 - 1) * 2 ^ tx) := Nat.mul_le_mul_left _ h1
      _ = (2 ^ 237 - 1) * (2 ^ 237 * 2 ^ tx) := by ring
      _ ≤ _ := Nat.mul_le_mul_left _ h2
  · obtain ⟨k, hk⟩ : ∃ k, mag N = k * 2 ^ ty := by
      refine ⟨mx * 2 ^ (tx - ty), ?_⟩
      rw [ex, mul_assoc, ← pow_add]
      congr 2; omega
    rw [hk, ey] at h ⊢
    have h3 : k < my := Nat.lt_of_mul_lt_mul_right h
    have h4 : 2 ^ 237 * k ≤ (2 ^ 237 - 1) * my := by omega
    rw [← mul_assoc, ← mul_assoc]
    exact Nat.mul_le_mul_right _ h4

theorem val_gap {N M : ℕ} (hN : IsFin N) (hM : IsFin M) (h : |val N| < |val M|) :
    |val N| ≤ |val M| - |val M| / 2 ^ 237 := by
  have hK : (0 : ℝ) < 2 ^ 262378 := pow_pos (by norm_num) _
  have h1 : mag N < mag M := by
    have := mul_lt_mul_of_pos_right h hK
    rw [abs_val, abs_val] at this
    exact_mod_cast this
  have h2 := mag_gap hN hM h1
  have h3 : ((2 ^ 237 * mag N : ℕ) : ℝ) ≤ (((2 ^ 237 - 1) * mag M : ℕ) : ℝ) := by exact_mod_cast h2
  rw [Nat.cast_mul, Nat.cast_mul, ← abs_val, ← abs_val, Nat.cast_sub Nat.one_le_two_pow, Nat.cast_pow,
    Nat.cast_ofNat, Nat.cast_one, ← mul_assoc, ← mul_assoc] at h3
  have h4 := le_of_mul_le_mul_right h3 hK
  have h5 : (0 : ℝ) < 2 ^ 237 := by positivity
  rw [← sub_nonneg] at h4 ⊢
  have : |val M| - |val M| / 2 ^ 237 - |val N| =
      ((2 ^ 237 - 1) * |val M| - 2 ^ 237 * |val N|) / 2 ^ 237 := by
    field_simp
  rw [this]
  exact div_nonneg h4 h5.le

/-- Every product of finite numbers is the correctly rounded value of a number relatively close to
the exact product. -/
theorem mul_near (x y : F256) (hx : IsFin x.pat) (hy : IsFin y.pat) :
    ∃ q', IsRNE q' (F256.mul x y).pat ∧ |q'| ≤ |val x.pat * val y.pat| ∧
      |val x.pat * val y.pat| ≤ |q'| + |val x.pat * val y.pat| / 2 ^ 238 ∧
      (0 ≤ val x.pat * val y.pat → 0 ≤ q') ∧ (val x.pat * val y.pat ≤ 0 → q' ≤ 0) := by
  have hK : (0 : ℝ) < 2 ^ 262378 := pow_pos (by norm_num) _
  by_cases h0 : IsZero x.pat ∨ IsZero y.pat
  · obtain ⟨h1, -⟩ := C05_zero x y hx hy h0
    have : val x.pat * val y.pat = 0 := by
      rcases h0 with h | h
      · rw [val_zero h, zero_mul]
      · rw [val_zero h, mul_zero]
    refine ⟨0, isRNE_zero (pat_lt _) h1, ?_⟩
    rw [this, abs_zero]
    norm_num
  rw [not_or] at h0
  obtain ⟨A, v', hr, hp, hv⟩ := mul_finNonzero ⟨hx, h0.1⟩ ⟨hy, h0.2⟩
  have hq0 : val x.pat * val y.pat ≠ 0 := mul_ne_zero (val_ne_zero hx h0.1) (val_ne_zero hy h0.2)
  have hs := sign_mul_val x.pat y.pat
  rw [hp]
  generalize val x.pat * val y.pat = q at *
  generalize xorSign x.pat y.pat = s at *
  obtain ⟨e1, e2⟩ : v' ≤ |q| * 2 ^ 262378 ∧ |q| * 2 ^ 262378 ≤ v' + |q| * 2 ^ 262378 / 2 ^ 238 := by
    by_cases hne : v' = |q| * 2 ^ 262378
    · rw [← hne]
      have : 0 ≤ v' := by rw [hne]; exact mul_nonneg (abs_nonneg _) hK.le
      exact ⟨le_rfl, by linarith [div_nonneg this (by positivity : (0 : ℝ) ≤ 2 ^ 238)]⟩
    · obtain ⟨-, g2, -, -, g5⟩ := hv hne
      exact ⟨g2.le, g5⟩
  have hv0 : 0 < v' := by
    have : 0 < |q| * 2 ^ 262378 := mul_pos (abs_pos.mpr hq0) hK
    generalize |q| * 2 ^ 262378 = w at *
    have : w / 2 ^ 238 ≤ w / 2 := div_le_div_of_nonneg_left this.le (by norm_num) (by norm_num)
    linarith
  have hab : |v' / 2 ^ 262378| = v' / 2 ^ 262378 := abs_of_pos (div_pos hv0 hK)
  have f1 : v' / 2 ^ 262378 ≤ |q| := by rwa [div_le_iff₀ hK]
  have f2 : |q| ≤ v' / 2 ^ 262378 + |q| / 2 ^ 238 := by
    have := div_le_div_of_nonneg_right e2 hK.le
    rw [mul_div_cancel_right₀ _ hK.ne'] at this
    refine this.trans_eq ?_
    generalize (2 : ℝ) ^ 262378 = K at *
    field_simp
  have hp' : 0 < v' / 2 ^ 262378 := div_pos hv0 hK
  have hr' : ∀ r : ℝ, |r| = v' / 2 ^ 262378 → RoundsTo (|r| * 2 ^ 262378) A := by
    intro r h
    rw [h, div_mul_cancel₀ _ hK.ne']; exact hr
  generalize v' / 2 ^ 262378 = u at *
  rcases lt_or_gt_of_ne hq0 with hq | hq
  · refine ⟨-u, RoundsTo.isRNE (hr' _ (by rw [abs_neg]; exact hab)) ?_ ?_ ?_, ?_, ?_, ?_, ?_⟩
    · have := hs.1; have := hs.2; grind
    · have := hs.1; have := hs.2; grind
    · have := hs.1; have := hs.2; grind
    · rw [abs_neg, hab]; exact f1
    · rw [abs_neg, hab]; exact f2
    · intro h; linarith
    · intro h; linarith
  · refine ⟨u, RoundsTo.isRNE (hr' _ hab) ?_ ?_ ?_, ?_, ?_, ?_, ?_⟩
    · have := hs.1; have := hs.2; grind
    · have := hs.1; have := hs.2; grind
    · have := hs.1; have := hs.2; grind
    · rw [hab]; exact f1
    · rw [hab]; exact f2
    · intro h; linarith
    · intro h; linarith

/-- C34. Multiplication by a non-negative number is monotone, for all finite operands (even where
the product is not correctly rounded, see C04). -/
theorem C34_mul_mono (x y z : F256) (hx : IsFin x.pat) (hy : IsFin y.pat) (hz : IsFin z.pat)
    (hz0 : 0 ≤ val z.pat) (h : val x.pat ≤ val y.pat) :
    extVal (F256.mul x z).pat ≤ extVal (F256.mul y z).pat := by
  obtain ⟨q, q1, q2, q3, q4, q5⟩ := mul_near x z hx hz
  obtain ⟨r, r1, r2, r3, r4, r5⟩ := mul_near y z hy hz
  have hle : val x.pat * val z.pat ≤ val y.pat * val z.pat := mul_le_mul_of_nonneg_right h hz0
  by_cases hs : val x.pat * val z.pat ≤ 0 ∧ 0 ≤ val y.pat * val z.pat
  · exact IsRNE.mono q1 r1 (le_trans (q5 hs.1) (r4 hs.2))
  have hz1 : 0 < val z.pat := by
    rcases hz0.lt_or_eq with h | h
    · exact h
    · rw [← h, mul_zero, mul_zero] at hs; exact absurd ⟨le_rfl, le_rfl⟩ hs
  have zabs : |val z.pat| = val z.pat := abs_of_pos hz1
  rcases h.lt_or_eq with hlt | heq
  · apply IsRNE.mono q1 r1
    have two : ∀ w : ℝ, 0 ≤ w → w / 2 ^ 238 ≤ w / 2 ^ 237 := fun w hw =>
      div_le_div_of_nonneg_left hw (by positivity) (by norm_num)
    rcases le_or_gt (val x.pat * val z.pat) 0 with hq | hq
    · -- both negative
      have hr : val y.pat * val z.pat < 0 := by
        by_contra hc; exact hs ⟨hq, not_lt.mp hc⟩
      have hy0 : val y.pat < 0 := by nlinarith
      have hx0 : val x.pat < 0 := by linarith
      have hg := val_gap hy hx (by rw [abs_of_neg hy0, abs_of_neg hx0]; linarith)
      have hg' : |val y.pat * val z.pat| ≤
          |val x.pat * val z.pat| - |val x.pat * val z.pat| / 2 ^ 237 := by
        rw [abs_mul, abs_mul, zabs]
        have := mul_le_mul_of_nonneg_right hg hz1.le
        linarith
      have t := two _ (abs_nonneg (val x.pat * val z.pat))
      have a1 := abs_of_nonpos (q5 (by linarith))
      have a2 := abs_of_nonpos (r5 hr.le)
      linarith
    · have hx0 : 0 < val x.pat := by nlinarith
      have hy0 : 0 < val y.pat := by linarith
      have hg := val_gap hx hy (by rw [abs_of_pos hy0, abs_of_pos hx0]; linarith)
      have hg' : |val x.pat * val z.pat| ≤
          |val y.pat * val z.pat| - |val y.pat * val z.pat| / 2 ^ 237 := by
        rw [abs_mul, abs_mul, zabs]
        have := mul_le_mul_of_nonneg_right hg hz1.le
        linarith
      have t := two _ (abs_nonneg (val y.pat * val z.pat))
      have a1 := abs_of_nonneg (q4 hq.le)
      have a2 := abs_of_nonneg (r4 (by linarith))
      linarith
  · have hne : val x.pat ≠ 0 := by
      intro h0
      rw [← heq, h0, zero_mul] at hs; exact hs ⟨le_rfl, le_rfl⟩
    rcases eq_of_val (pat_lt _) (pat_lt _) hx hy heq with he | he
    · rw [pat_inj he]
    · exact absurd (val_zero he.1) hne

/-! ## C35: Sterbenz -/

theorem mag_of_pos {N : ℕ} (h : 0 < val N) : val N * 2 ^ 262378 = mag N := by
  rw [← abs_val, abs_of_pos h]

/-- C35. If y/2 ≤ x ≤ 2y then `x - y` is exact. -/
theorem C35_sterbenz (x y : F256) (hx : IsFin x.pat) (hy : IsFin y.pat) (px : 0 < val x.pat)
    (py : 0 < val y.pat) (h1 : val y.pat / 2 ≤ val x.pat) (h2 : val x.pat ≤ 2 * val y.pat) :
    ∃ z, F256.sub x y = some z ∧ IsFin z.pat ∧ val z.pat = val x.pat - val y.pat := by
  have hK : (0 : ℝ) < 2 ^ 262378 := pow_pos (by norm_num) _
  obtain ⟨z, hz, hr⟩ := C02_sub x y hx hy
  obtain ⟨tx, mx, -, bx, -, cx, ex, -⟩ := fin_asm hx
  obtain ⟨ty, my, -, by', -, cy, ey, -⟩ := fin_asm hy
  have mgx := mag_of_pos px
  have mgy := mag_of_pos py
  have g1 : mag y.pat ≤ 2 * mag x.pat := by
    have : (mag y.pat : ℝ) ≤ 2 * mag x.pat := by
      rw [← mgx, ← mgy, ← mul_assoc]; exact mul_le_mul_of_nonneg_right (by linarith) hK.le
    exact_mod_cast this
  have g2 : mag x.pat ≤ 2 * mag y.pat := by
    have : (mag x.pat : ℝ) ≤ 2 * mag y.pat := by
      rw [← mgx, ← mgy, ← mul_assoc]; exact mul_le_mul_of_nonneg_right (by linarith) hK.le
    exact_mod_cast this
  -- the difference as an integer multiple of the smaller quantum
  have key : ∃ k t s : ℕ, k < 2 ^ 237 ∧ t ≤ 524285 ∧ s ≤ 1 ∧
      (val x.pat - val y.pat) * 2 ^ 262378 = (-1) ^ s * ((k * 2 ^ t : ℕ) : ℝ) := by
    rw [sub_mul, mgx, mgy]
    obtain ⟨d, s, hs, hd, hd1, hd2⟩ : ∃ d s : ℕ, s ≤ 1 ∧
        ((mag x.pat : ℝ) - mag y.pat = (-1) ^ s * (d : ℝ)) ∧ d ≤ mag x.pat ∧ d ≤ mag y.pat ∧
          (mag x.pat = mag y.pat + d ∨ mag y.pat = mag x.pat + d) := by
      rcases Nat.le_total (mag y.pat) (mag x.pat) with h | h
      · refine ⟨mag x.pat - mag y.pat, 0, by norm_num, ?_, by omega, by omega, by omega⟩
        rw [Nat.cast_sub h]; ring
      · refine ⟨mag y.pat - mag x.pat, 1, by norm_num, ?_, by omega, by omega, by omega⟩
        rw [Nat.cast_sub h]; ring
    rw [hd]
    obtain ⟨hd2, hd3⟩ := hd2
    generalize mag x.pat = X at *
    generalize mag y.pat = Y at *
    have fin : ∀ {m t : ℕ}, m < 2 ^ 237 → t ≤ 524285 → d ≤ m * 2 ^ t → 2 ^ t ∣ d →
        ∃ k t s' : ℕ, k < 2 ^ 237 ∧ t ≤ 524285 ∧ s' ≤ 1 ∧
          (-1 : ℝ) ^ s * (d : ℝ) = (-1) ^ s' * ((k * 2 ^ t : ℕ) : ℝ) := by
      intro m t hm ht hle hdvd
      obtain ⟨k, hk⟩ := hdvd
      refine ⟨k, t, s, ?_, ht, hs, by rw [hk, Nat.mul_comm]⟩
      rw [hk, Nat.mul_comm m] at hle
      exact lt_of_le_of_lt (Nat.le_of_mul_le_mul_left hle (Nat.two_pow_pos t)) hm
    have dvd : ∀ {t : ℕ}, 2 ^ t ∣ X → 2 ^ t ∣ Y → 2 ^ t ∣ d := by
      intro t hX hY
      rcases hd3 with h | h
      · rw [h] at hX; exact (Nat.dvd_add_right hY).mp hX
      · rw [h] at hY; exact (Nat.dvd_add_right hX).mp hY
    rcases Nat.le_total tx ty with h | h
    · refine fin bx cx (by rw [← ex]; exact hd1) (dvd ?_ ?_)
      · rw [ex]; exact Nat.dvd_mul_left _ _
      · rw [ey]; exact Dvd.dvd.mul_left (Nat.pow_dvd_pow 2 h) _
    · refine fin by' cy (by rw [← ey]; exact hd2) (dvd ?_ ?_)
      · rw [ex]; exact Dvd.dvd.mul_left (Nat.pow_dvd_pow 2 h) _
      · rw [ey]; exact Nat.dvd_mul_left _ _
  obtain ⟨k, t, s, hk, ht, hs, he⟩ := key
  obtain ⟨M, m1, m2, -, m4⟩ := exists_val hk ht s hs
  have hM : val M = val x.pat - val y.pat := by
    rw [m4, ← he, mul_div_cancel_right₀ _ hK.ne']
  obtain ⟨r1, r2⟩ := IsRNE.exact hr m1 m2 hM
  exact ⟨z, hz, r1, r2⟩

example : F256.sub THREE F256.TWO = some F256.ONE := by decide
example : F256.mul F256.NEG_ZERO F256.ONE = F256.NEG_ZERO ∧ F256.div THREE THREE = some F256.ONE ∧
    F256.sub F256.MAX F256.MAX = some F256.ZERO := by decide
example : IsFin F256.MAX.pat ∧ ¬ IsNaN (F256.mul F256.MAX F256.MAX).pat ∧
    F256.add F256.NEG_ZERO F256.ZERO = some F256.ZERO := by decide
example : (0 : ℝ) < val F256.ONE.pat ∧
    val F256.ONE.pat / 2 ≤ val F256.ONE.pat ∧ val F256.ONE.pat ≤ 2 * val F256.ONE.pat := by
  rw [val_ONE]
  exact ⟨one_pos, by norm_num, by norm_num⟩

end Verif.Props
