import Verif.Proofs.Integral2
import Verif.Props.Laws

/-!
# C20–C24: integral values
-/

namespace Verif.Props

open Verif Verif.Spec

/-- Rounding a real number towards zero. -/
noncomputable def truncReal (v : ℝ) : ℤ := if 0 ≤ v then ⌊v⌋ else ⌈v⌉

theorem nonneg_of_sign {N : ℕ} (h : signBit N = 0) : val N = |val N| := by
  have := val_sign N
  rw [h, pow_zero, one_mul] at this
  exact this

theorem neg_of_sign {N : ℕ} (h : signBit N = 1) : val N = -|val N| := by
  have := val_sign N
  rw [h, pow_one, neg_one_mul] at this
  exact this

theorem floor_sign (N : ℕ) : ((⌊val N⌋ : ℤ) : ℝ) = (-1) ^ signBit N *
    ((if decide (signBit N = 1) = true then ⌈|val N|⌉₊ else ⌊|val N|⌋₊ : ℕ) : ℝ) := by
  have h0 := abs_nonneg (val N)
  rcases signBit_cases N with h | h
  · rw [h, if_neg (by decide), pow_zero, one_mul, natCast_floor_eq_intCast_floor h0,
      ← nonneg_of_sign h]
  · rw [h, if_pos (by decide), pow_one, neg_one_mul, natCast_ceil_eq_intCast_ceil h0]
    conv_lhs => rw [neg_of_sign h]
    rw [Int.floor_neg, Int.cast_neg]

theorem ceil_sign (N : ℕ) : ((⌈val N⌉ : ℤ) : ℝ) = (-1) ^ signBit N *
    ((if decide (signBit N = 0) = true then ⌈|val N|⌉₊ else ⌊|val N|⌋₊ : ℕ) : ℝ) := by
  have h0 := abs_nonneg (val N)
  rcases signBit_cases N with h | h
  · rw [h, if_pos (by decide), pow_zero, one_mul, natCast_ceil_eq_intCast_ceil h0,
      ← nonneg_of_sign h]
  · rw [h, if_neg (by decide), pow_one, neg_one_mul, natCast_floor_eq_intCast_floor h0]
    conv_lhs => rw [neg_of_sign h]
    rw [Int.ceil_neg, Int.cast_neg]

theorem trunc_sign (N : ℕ) : ((truncReal (val N) : ℤ) : ℝ) = (-1) ^ signBit N *
    ((⌊|val N|⌋₊ : ℕ) : ℝ) := by
  have h0 := abs_nonneg (val N)
  rw [natCast_floor_eq_intCast_floor h0, truncReal]
  rcases signBit_cases N with h | h
  · have e := nonneg_of_sign h
    rw [h, pow_zero, one_mul, if_pos (by rw [e]; exact h0), ← e]
  · have e := neg_of_sign h
    rw [h, pow_one, neg_one_mul]
    by_cases hz : val N = 0
    · rw [hz]; simp
    · have : 0 < |val N| := abs_pos.mpr hz
      rw [if_neg (by rw [e]; linarith)]
      conv_lhs => rw [e]
      rw [Int.ceil_neg, Int.cast_neg]

/-- C20. `floor` of a finite number is exactly the real floor. -/
theorem C20_floor (x : F256) (hx : IsFin x.pat) : ∃ z, F256.floor x = some z ∧ IsFin z.pat ∧
    val z.pat = (⌊val x.pat⌋ : ℤ) := by
  obtain ⟨z, h1, h2, -, h3⟩ := nearestIntegral_spec x (fun s => decide (s = 1)) hx
  exact ⟨z, h1, h2, by rw [h3, floor_sign]⟩

/-- C20. `ceil` of a finite number is exactly the real ceiling. -/
theorem C20_ceil (x : F256) (hx : IsFin x.pat) : ∃ z, F256.ceil x = some z ∧ IsFin z.pat ∧
    val z.pat = (⌈val x.pat⌉ : ℤ) := by
  obtain ⟨z, h1, h2, -, h3⟩ := nearestIntegral_spec x (fun s => decide (s = 0)) hx
  exact ⟨z, h1, h2, by rw [h3, ceil_sign]⟩

/-- C20. `trunc` of a finite number is exactly the number rounded towards zero. -/
theorem C20_trunc (x : F256) (hx : IsFin x.pat) : ∃ z, F256.trunc x = some z ∧ IsFin z.pat ∧
    val z.pat = (truncReal (val x.pat) : ℤ) := by
  obtain ⟨z, h1, h2, -, h3⟩ := nearestIntegral_spec x (fun _ => false) hx
  refine ⟨z, h1, h2, ?_⟩
  rw [h3, trunc_sign]
  simp

/-- C20. The three functions return a value, without panic, for every input. -/
theorem C20_total (x : F256) : (F256.floor x).isSome ∧ (F256.ceil x).isSome ∧
    (F256.trunc x).isSome := by
  by_cases hx : IsFin x.pat
  · obtain ⟨z1, h1, -⟩ := C20_floor x hx
    obtain ⟨z2, h2, -⟩ := C20_ceil x hx
    obtain ⟨z3, h3, -⟩ := C20_trunc x hx
    rw [h1, h2, h3]; exact ⟨rfl, rfl, rfl⟩
  · have : isSpecialBits (absBits x) = true := by
      rw [special_abs]; rw [fin_iff] at hx; exact Or.inr (not_lt.mp hx)
    have h : ∀ adj, F256.nearestIntegral x adj = some x := by
      intro adj; unfold F256.nearestIntegral; dsimp only; rw [if_pos this]
    unfold F256.floor F256.ceil F256.trunc
    rw [h, h, h]; exact ⟨rfl, rfl, rfl⟩

/-- The integer nearest to `v`, ties away from zero. -/
def NearestAway (v : ℝ) (k : ℤ) : Prop := |v - k| ≤ 1 / 2 ∧ (|v - k| = 1 / 2 → |v| < |(k : ℝ)|)

/-- The integer nearest to `v`, ties to even. -/
def NearestEvenInt (v : ℝ) (k : ℤ) : Prop := |v - k| ≤ 1 / 2 ∧ (|v - k| = 1 / 2 → Even k)

theorem abs_sub_sign {N : ℕ} {k : ℤ} {j : ℕ} (hk : (k : ℝ) = (-1) ^ signBit N * (j : ℝ)) :
    |val N - k| = abs (|val N| - j) ∧ |(k : ℝ)| = j := by
  have hj : (0 : ℝ) ≤ j := Nat.cast_nonneg j
  rcases signBit_cases N with h | h
  · rw [hk, h, pow_zero, one_mul, ← nonneg_of_sign h]
    exact ⟨rfl, abs_of_nonneg hj⟩
  · rw [hk, h, pow_one, neg_one_mul, abs_neg]
    refine ⟨?_, abs_of_nonneg hj⟩
    conv_lhs => rw [neg_of_sign h]
    rw [← abs_neg]; congr 1; ring

theorem exists_int (s j : ℕ) : ∃ k : ℤ, (k : ℝ) = (-1) ^ s * (j : ℝ) ∧ (Even k ↔ j % 2 = 0) := by
  refine ⟨(-1) ^ s * j, by push_cast; ring, ?_⟩
  rcases neg_one_pow_eq_or ℤ s with h | h <;> rw [h]
  · rw [one_mul, Int.even_coe_nat, Nat.even_iff]
  · rw [neg_one_mul, even_neg, Int.even_coe_nat, Nat.even_iff]

/-- C21. `round` of a finite number is the nearest integer, ties away from zero, exactly. -/
theorem C21_round (x : F256) (hx : IsFin x.pat) : IsFin (F256.round x).pat ∧
    ∃ k : ℤ, val (F256.round x).pat = k ∧ NearestAway (val x.pat) k := by
  obtain ⟨j, h1, -, h2, h3, h4⟩ := round_spec x hx
  obtain ⟨k, hk, -⟩ := exists_int (signBit x.pat) j
  obtain ⟨a1, a2⟩ := abs_sub_sign hk
  refine ⟨h1, k, by rw [h2, hk], ?_⟩
  rw [NearestAway, a1, a2]
  exact ⟨h3, h4⟩

/-- The exception of C22 in terms of bit patterns. -/
theorem near_half_iff {N : ℕ} (h : IsFin N) :
    (1 / 2 < |val N| ∧ |val N| < 1 / 2 + 2 ^ (-109 : ℤ)) ↔
    (PH < N % 2 ^ 255 ∧ N % 2 ^ 255 < PH + 2 ^ 128) := by
  rw [abs_gt_half_iff h]
  refine and_congr_right fun _ => ?_
  have hI : PH + 2 ^ 128 < INF := by decide
  have hm := mag_asm (t := 262141) (M := 2 ^ 236 + 2 ^ 128) (Or.inr (by norm_num)) (by norm_num)
    (by decide)
  rw [show 262141 * 2 ^ 236 + (2 ^ 236 + 2 ^ 128) = PH + 2 ^ 128 by decide] at hm
  rw [← mag_lt_iff ((fin_iff N).mp h) hI, hm, mag_abs, abs_val_eq,
    div_lt_iff₀ (pow_pos (by norm_num) _)]
  have e : (1 / 2 + (2 : ℝ) ^ (-109 : ℤ)) * 2 ^ 262378 =
      (((2 ^ 236 + 2 ^ 128) * 2 ^ 262141 : ℕ) : ℝ) := by
    have e0 : ∀ K : ℝ, (1 / 2 + (2 : ℝ) ^ (-109 : ℤ)) * (2 ^ 237 * K) =
        ((2 ^ 236 + 2 ^ 128 : ℕ) : ℝ) * K := by
      intro K
      have c : (1 / 2 + (2 : ℝ) ^ (-109 : ℤ)) * 2 ^ 237 = ((2 ^ 236 + 2 ^ 128 : ℕ) : ℝ) := by
        norm_num
      rw [← mul_assoc, c]
    have e1 : (2 : ℝ) ^ 262378 = 2 ^ 237 * 2 ^ 262141 := by rw [← pow_add]
    have e2 : ((2 ^ 262141 : ℕ) : ℝ) = 2 ^ 262141 := by rw [Nat.cast_pow, Nat.cast_ofNat]
    rw [e1, e0, ← e2, ← Nat.cast_mul]
  rw [e, Nat.cast_lt]

/-- C22 (partial: without the numbers strictly between 1/2 and 1/2 + 2^-109 in magnitude).
`round_tie_even` of a finite number is the nearest integer, ties to even, exactly.
The full property has no hypothesis `hn`; `C22_near_half` shows that it is false then. -/
theorem C22_roundTieEven_partial (x : F256) (hx : IsFin x.pat)
    (hn : ¬ (1 / 2 < |val x.pat| ∧ |val x.pat| < 1 / 2 + 2 ^ (-109 : ℤ))) :
    IsFin (F256.roundTieEven x).pat ∧
    ∃ k : ℤ, val (F256.roundTieEven x).pat = k ∧ NearestEvenInt (val x.pat) k := by
  rw [near_half_iff hx] at hn
  obtain ⟨j, h1, -, h2, h3, h4⟩ := roundTieEven_spec x hx hn
  obtain ⟨k, hk, he⟩ := exists_int (signBit x.pat) j
  obtain ⟨a1, a2⟩ := abs_sub_sign hk
  refine ⟨h1, k, by rw [h2, hk], ?_⟩
  rw [NearestEvenInt, a1]
  exact ⟨h3, fun h => he.mpr (h4 h)⟩

theorem tie_near_half (x : F256) (hx : IsFin x.pat)
    (hn : PH < x.pat % 2 ^ 255 ∧ x.pat % 2 ^ 255 < PH + 2 ^ 128) :
    F256.roundTieEven x = F256.ZERO := by
  unfold F256.roundTieEven
  dsimp only
  have hA := nat_absBits x
  have hP : PH + 2 ^ 128 < PI := by decide
  rw [if_neg (fun hc => by have := (not_special_fin hx).mp hc; omega),
    if_neg (fun hc => by
      have := (no_fract_iff (absBits x)).mp hc
      omega),
    if_pos ((le_half_iff _).mpr (by rw [hA]; exact hn.2))]

/-- C22, the defect: for every number strictly between 1/2 and 1/2 + 2^-109 in magnitude the
result is 0, which is not the nearest integer. -/
theorem C22_near_half (x : F256) (hx : IsFin x.pat)
    (hn : 1 / 2 < |val x.pat| ∧ |val x.pat| < 1 / 2 + 2 ^ (-109 : ℤ)) :
    F256.roundTieEven x = F256.ZERO ∧ ¬ ∃ k : ℤ, val (F256.roundTieEven x).pat = k ∧
      NearestEvenInt (val x.pat) k := by
  have h := tie_near_half x hx ((near_half_iff hx).mp hn)
  refine ⟨h, ?_⟩
  rw [h]
  rintro ⟨k, h1, h2, -⟩
  rw [← h1, val_zero (N := F256.ZERO.pat) (by decide), sub_zero] at h2
  linarith [hn.1]

/-- The real part of C23: what remains after truncation is representable. -/
theorem fract_representable (x : F256) (hx : IsFin x.pat) : ∃ M, M < 2 ^ 256 ∧ IsFin M ∧
    val M = val x.pat - (-1) ^ signBit x.pat * ((⌊|val x.pat|⌋₊ : ℕ) : ℝ) := by
  obtain ⟨t, M, -, hM, -, ht, hm, -⟩ := fin_asm hx
  have hs1 : signBit x.pat ≤ 1 := by unfold signBit; omega
  have hp : (0 : ℝ) < 2 ^ 262378 := pow_pos (by norm_num) _
  have hw : |val x.pat| = (M : ℝ) * 2 ^ t / 2 ^ 262378 := by
    rw [abs_val_eq, hm, Nat.cast_mul, Nat.cast_pow, Nat.cast_ofNat]
  have hv := val_sign x.pat
  have hfl := Nat.floor_le (abs_nonneg (val x.pat))
  by_cases h : 262378 ≤ t
  · refine ⟨0, by norm_num, by decide, ?_⟩
    obtain ⟨u, hu⟩ := Nat.exists_eq_add_of_le h
    have hw' : |val x.pat| = ((M * 2 ^ u : ℕ) : ℝ) := by
      rw [hw, hu, pow_add, Nat.cast_mul, Nat.cast_pow, Nat.cast_ofNat]
      field_simp
    rw [hw', Nat.floor_natCast, ← hw', ← hv, sub_self, val_zero (by decide)]
  · obtain ⟨n, hn⟩ := Nat.exists_eq_add_of_le (not_le.mp h).le
    have hw' : |val x.pat| = (M : ℝ) / 2 ^ n := by
      rw [hw, hn, pow_add]
      field_simp
    have hj : ⌊|val x.pat|⌋₊ = M / 2 ^ n := by rw [hw', floor_nat_div]
    obtain ⟨N, n1, n2, n3, n4⟩ := exists_val (k := M % 2 ^ n) (t := t)
      (lt_of_le_of_lt (Nat.mod_le _ _) hM) ht (signBit x.pat) hs1
    refine ⟨N, n1, n2, ?_⟩
    rw [n4, hj]
    conv_rhs => rw [hv, hw', real_div]
    rw [Nat.cast_mul, Nat.cast_pow, Nat.cast_ofNat, hn, pow_add]
    have : (0 : ℝ) < 2 ^ t := pow_pos (by norm_num) _
    have h2 : (0 : ℝ) < 2 ^ n := pow_pos (by norm_num) _
    field_simp
    ring

/-- C23. `trunc` and `fract` split a finite number exactly: the parts sum up to the number, the
fraction is below 1 in magnitude and has the sign of the number or is zero; `split` returns the
same parts. -/
theorem C23_split (x : F256) (hx : IsFin x.pat) : ∃ i f, F256.trunc x = some i ∧
    F256.fract x = some f ∧ F256.split x = some (i, f) ∧ IsFin i.pat ∧ IsFin f.pat ∧
    val i.pat = truncReal (val x.pat) ∧
    val i.pat + val f.pat = val x.pat ∧ |val f.pat| < 1 ∧
    (val f.pat ≠ 0 → signBit f.pat = signBit x.pat) := by
  obtain ⟨i, h1, h2, h3⟩ := C20_trunc x hx
  obtain ⟨f, g1, g2⟩ := C02_sub x i hx h2
  obtain ⟨M, m1, m2, m3⟩ := fract_representable x hx
  rw [← trunc_sign, ← h3] at m3
  obtain ⟨f1, f2⟩ := IsRNE.exact g2 m1 m2 m3
  have hfv : val f.pat = (-1) ^ signBit x.pat * (|val x.pat| - ((⌊|val x.pat|⌋₊ : ℕ) : ℝ)) := by
    rw [f2, h3, trunc_sign, mul_sub, ← val_sign]
  have b1 := Nat.floor_le (abs_nonneg (val x.pat))
  have b2 := Nat.lt_floor_add_one |val x.pat|
  generalize ((⌊|val x.pat|⌋₊ : ℕ) : ℝ) = q at *
  refine ⟨i, f, h1, ?_, ?_, h2, f1, h3, by rw [f2]; ring, ?_, ?_⟩
  · unfold F256.fract; rw [h1]; exact g1
  · unfold F256.split; rw [h1]
    show (F256.sub x i).bind _ = _
    rw [g1]; rfl
  · rw [hfv, abs_mul, abs_pow, abs_neg, abs_one, one_pow, one_mul, abs_of_nonneg (by linarith)]
    linarith
  · intro hne
    rcases signBit_cases x.pat with h | h
    · rw [h] at hfv ⊢
      rw [pow_zero, one_mul] at hfv
      refine val_pos_sign (lt_of_le_of_ne (by rw [hfv]; linarith) (Ne.symm hne))
    · rw [h] at hfv ⊢
      rw [pow_one, neg_one_mul] at hfv
      refine val_neg_sign (lt_of_le_of_ne (by rw [hfv]; linarith) hne)

/-! ## C24 -/

theorem integral_special (x : F256) (h : ¬ IsFin x.pat) : F256.trunc x = some x ∧
    F256.floor x = some x ∧ F256.ceil x = some x ∧ F256.round x = x ∧ F256.roundTieEven x = x := by
  have hs : isSpecialBits (absBits x) = true := by
    rw [special_abs]; rw [fin_iff] at h; exact Or.inr (not_lt.mp h)
  have h : ∀ adj, F256.nearestIntegral x adj = some x := by
    intro adj; unfold F256.nearestIntegral; dsimp only; rw [if_pos hs]
  refine ⟨h _, h _, h _, ?_, ?_⟩
  · unfold F256.round; dsimp only; rw [if_pos hs]
  · unfold F256.roundTieEven; dsimp only; rw [if_pos hs]

/-- C24. NaNs and infinities are returned unchanged, bit for bit. -/
theorem C24_special (x : F256) (h : IsNaN x.pat ∨ IsInf x.pat) : F256.trunc x = some x ∧
    F256.floor x = some x ∧ F256.ceil x = some x ∧ F256.round x = x ∧ F256.roundTieEven x = x := by
  apply integral_special
  rcases h with h | h <;> exact fun hf => hf h.1

/-- C24. Finite integers are returned unchanged, bit for bit (this includes the sign of zero). -/
theorem C24_integers (x : F256) (hx : IsFin x.pat) (k : ℤ) (hk : val x.pat = k) :
    F256.trunc x = some x ∧ F256.floor x = some x ∧ F256.ceil x = some x ∧ F256.round x = x ∧
    F256.roundTieEven x = x := by
  by_cases h0 : IsZero x.pat
  · have hs : isSpecialBits (absBits x) = true := by
      rw [not_special_fin hx]; exact (isZero_iff _).mp h0
    have h : ∀ adj, F256.nearestIntegral x adj = some x := by
      intro adj; unfold F256.nearestIntegral; dsimp only; rw [if_pos hs]
    refine ⟨h _, h _, h _, ?_, ?_⟩
    · unfold F256.round; dsimp only; rw [if_pos hs]
    · unfold F256.roundTieEven; dsimp only; rw [if_pos hs]
  have same : ∀ z : F256, IsFin z.pat → val z.pat = k → z = x := by
    intro z fz hz
    rcases eq_of_val (pat_lt z) (pat_lt x) fz hx (by rw [hz, hk]) with h | h
    · exact pat_inj h
    · exact absurd h.2 h0
  have near : ∀ l : ℤ, |val x.pat - l| ≤ 1 / 2 → l = k := by
    intro l hl
    rw [hk] at hl
    have : |((k - l : ℤ) : ℝ)| < 1 := by
      rw [Int.cast_sub]; exact lt_of_le_of_lt hl (by norm_num)
    have h2 : |k - l| < 1 := by exact_mod_cast this
    have := Int.abs_lt_one_iff.mp h2
    omega
  refine ⟨?_, ?_, ?_, ?_, ?_⟩
  · obtain ⟨z, h1, h2, h3⟩ := C20_trunc x hx
    rw [h1, same z h2]
    rw [h3, hk, truncReal, Int.floor_intCast, Int.ceil_intCast, ite_self]
  · obtain ⟨z, h1, h2, h3⟩ := C20_floor x hx
    rw [h1, same z h2]
    rw [h3, hk, Int.floor_intCast]
  · obtain ⟨z, h1, h2, h3⟩ := C20_ceil x hx
    rw [h1, same z h2]
    rw [h3, hk, Int.ceil_intCast]
  · obtain ⟨h1, l, h2, h3⟩ := C21_round x hx
    exact same _ h1 (by rw [h2, near l h3.1])
  · obtain ⟨h1, l, h2, h3⟩ := C22_roundTieEven_partial x hx (by
      rw [hk]
      rintro ⟨a, b⟩
      have b' : |(k : ℝ)| < 1 := lt_trans b (by norm_num)
      have h2 : |k| < 1 := by exact_mod_cast b'
      rw [Int.abs_lt_one_iff.mp h2, Int.cast_zero, abs_zero] at a
      norm_num at a)
    exact same _ h1 (by rw [h2, near l h3.1])

/-- C24. Applying any of the five functions a second time changes nothing, whatever the input. -/
theorem C24_idempotent (x : F256) :
    (F256.trunc x).bind F256.trunc = F256.trunc x ∧
    (F256.floor x).bind F256.floor = F256.floor x ∧
    (F256.ceil x).bind F256.ceil = F256.ceil x ∧
    F256.round (F256.round x) = F256.round x ∧
    F256.roundTieEven (F256.roundTieEven x) = F256.roundTieEven x := by
  by_cases hx : IsFin x.pat
  · obtain ⟨z1, a1, a2, a3⟩ := C20_trunc x hx
    obtain ⟨z2, b1, b2, b3⟩ := C20_floor x hx
    obtain ⟨z3, c1, c2, c3⟩ := C20_ceil x hx
    obtain ⟨d1, l, d2, -⟩ := C21_round x hx
    have e : ∃ l : ℤ, IsFin (F256.roundTieEven x).pat ∧ val (F256.roundTieEven x).pat = l := by
      by_cases hn : 1 / 2 < |val x.pat| ∧ |val x.pat| < 1 / 2 + 2 ^ (-109 : ℤ)
      · rw [(C22_near_half x hx hn).1]
        exact ⟨0, by decide, by rw [val_zero (by decide), Int.cast_zero]⟩
      · obtain ⟨h1, l, h2, -⟩ := C22_roundTieEven_partial x hx hn
        exact ⟨l, h1, h2⟩
    obtain ⟨m, e1, e2⟩ := e
    rw [a1, b1, c1, Option.bind_some, Option.bind_some, Option.bind_some]
    exact ⟨(C24_integers z1 a2 _ a3).1, (C24_integers z2 b2 _ b3).2.1,
      (C24_integers z3 c2 _ c3).2.2.1, (C24_integers _ d1 _ d2).2.2.2.1,
      (C24_integers _ e1 _ e2).2.2.2.2⟩
  · obtain ⟨h1, h2, h3, h4, h5⟩ := integral_special x hx
    rw [h1, h2, h3, h4, h5, Option.bind_some, Option.bind_some, Option.bind_some]
    exact ⟨h1, h2, h3, h4, h5⟩

/-! ## Concrete cases -/

/-- -5/2 -/
def mFiveHalves : F256 := ⟨U256.new (0xc0000400000000000000000000000000 : BitVec 128) 0⟩

example : IsFin mFiveHalves.pat := by decide
example : F256.floor mFiveHalves = some ⟨U256.new 0xc0000800000000000000000000000000 0⟩ := by
  decide +kernel
example : F256.ceil mFiveHalves = some ⟨U256.new 0xc0000000000000000000000000000000 0⟩ := by
  decide +kernel
example : F256.trunc mFiveHalves = some ⟨U256.new 0xc0000000000000000000000000000000 0⟩ := by
  decide +kernel
example : F256.round mFiveHalves = ⟨U256.new 0xc0000800000000000000000000000000 0⟩ := by
  decide +kernel
example : F256.roundTieEven mFiveHalves = ⟨U256.new 0xc0000000000000000000000000000000 0⟩ := by
  decide +kernel
/-- fract (-5/2) = -1/2 -/
example : F256.fract mFiveHalves = some ⟨U256.new 0xbfffe000000000000000000000000000 0⟩ := by
  decide +kernel
/-- 1/2 + 2^-237 meets the hypotheses of `C22_near_half`. -/
example : IsFin (F256.pat ⟨U256.new F256.ONE_HALF.bits.hi 1⟩) ∧
    (1 / 2 < |val (F256.pat ⟨U256.new F256.ONE_HALF.bits.hi 1⟩)| ∧
      |val (F256.pat ⟨U256.new F256.ONE_HALF.bits.hi 1⟩)| < 1 / 2 + 2 ^ (-109 : ℤ)) :=
  ⟨by decide, (near_half_iff (by decide)).mpr (by decide)⟩
/-- -5/2 meets the hypotheses of `C22_roundTieEven_partial`. -/
example : ¬ (1 / 2 < |val mFiveHalves.pat| ∧ |val mFiveHalves.pat| < 1 / 2 + 2 ^ (-109 : ℤ)) := by
  rw [near_half_iff (by decide)]; decide
/-- 1 is an integer in the sense of `C24_integers`. -/
example : ∃ k : ℤ, val F256.ONE.pat = k := by
  obtain ⟨-, -, h⟩ := val_P1 (s := 0) (by norm_num)
  refine ⟨1, ?_⟩
  rw [show F256.ONE.pat = 0 * 2 ^ 255 + P1 by decide, h]
  norm_num

end Verif.Props
