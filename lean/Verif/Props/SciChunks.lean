import Verif.Proofs.SciChunks
import Verif.Props.Scientific

/-!
# C68: scientific formatting with a precision, numbers below 1 and from `2^512` on
-/

namespace Verif.Props

open Verif Verif.Spec

/-- `x` is not half-way between two neighbours with `p + 1` significant digits. -/
def NoSciTie (x : ℝ) (p : ℕ) : Prop :=
  ∀ (e : ℤ) (Z : ℕ), (10 : ℝ) ^ e ≤ x → x < (10 : ℝ) ^ (e + 1) → x * (10 : ℝ) ^ ((p : ℤ) - e) ≠ Z + 1 / 2

/-- Cut behind each of the first chunks of 19 digits, the number below 1 is not too close above the cut. -/
def FractClear (x : ℝ) : Prop :=
  1 / 2 ^ 83 ≤ x ∨ ∀ j : ℕ, 1 ≤ x * 10 ^ (19 * j) → x * 10 ^ (19 * j) < 10 ^ 114 → 1 / 2 ^ 35 ≤ Int.fract (x * 10 ^ (19 * j))

/-- Cut behind each of the first chunks of 19 digits, the large number is not too close below the next cut. -/
def IntClear (x : ℝ) : Prop := ∀ j : ℕ, x / 10 ^ (19 * j) < 10 ^ 114 → Int.fract (x / 10 ^ (19 * j)) ≤ 1 - 1 / 2 ^ 36

theorem sci_finish {x : ℝ} {p : ℕ} {t : List (BitVec 8)} {R : Rounding} {e : ℤ} {D : ℕ} (h : SciParts x p t R e D)
    (hT : NoSciTie x p) {mark : BitVec 8} (hm : mark = 101#8 ∨ mark = 69#8) (neg : Bool) :
    ∃ (s : List (BitVec 8)) (E : ℤ) (L : DecLit),
      (if R = .up ∨ (R = .toEven ∧ endsOdd t) then (roundUpScientific t).map fun (s, carry) => (s, e + carry) else some (t, e)) =
        some (s, E) ∧ L.Proper ∧ L.text = codes ((if neg then [45#8] else []) ++ (s ++ mark :: intText E)) ∧ L.neg = neg ∧
      (∃ c, L.ip = [c] ∧ c ≠ 48) ∧ L.fp.length = p ∧ (L.dot = true ↔ 0 < p) ∧
      (∃ sg ds, L.exp = some (mark.toNat, sg, ds) ∧ (sg = [] ∨ sg = [45]) ∧ (ds.head? = some 48 → ds.length = 1)) ∧
      ∃ (k : ℤ) (Z : ℕ), (10 : ℝ) ^ k ≤ x ∧ x < (10 : ℝ) ^ (k + 1) ∧ L.absVal = Z * 10 ^ (k - p) ∧
        SciNear Z (x * (10 : ℝ) ^ ((p : ℤ) - k)) := by
  obtain ⟨c, b, ht, hF, hc, hb⟩ := h.text
  have hest := estOk_exact p h.lower h.upper
  have hnt := hT e D h.lower h.upper
  have strict : ∀ {S : ℕ}, |(S : ℝ) - x * (10 : ℝ) ^ ((p : ℤ) - e)| < 1 / 2 → SciNear S (x * (10 : ℝ) ^ ((p : ℤ) - e)) :=
    fun h => ⟨h.le, fun h' => absurd h' h.ne⟩
  by_cases hR : R = .up
  · obtain ⟨u1, u2⟩ := h.up hR
    have hS := strict (S := D + 1) (by
      have := lt_of_le_of_ne u1 (Ne.symm hnt)
      push_cast
      rw [abs_lt]
      constructor <;> linarith)
    obtain ⟨v1, v2, v3⟩ := sci_value hest hS
    obtain ⟨c', b', D', cr, g1, g2, g3, g4, g5⟩ := roundUpScientific_spec hF hc hb
    obtain ⟨k, Z, z1, z2, z3, z4⟩ := v3 D' (e + cr) (by
      rcases g5 with ⟨a1, a2, a3⟩ | ⟨a1, a2, a3⟩
      · exact Or.inl ⟨a1, a2, by rw [a3, add_zero]⟩
      · exact Or.inr ⟨a1, a2, by rw [a3]⟩)
    obtain ⟨L, l1, l2, l3, l4, l5, l6, l7, l8⟩ := sci_lit neg (e + cr) g2 g3 g4 hm
    refine ⟨_, _, L, ?_, l1, l2, l3, l4, l5, l6, l7, k, Z, z1, z2, by rw [l8, z3], z4⟩
    rw [if_pos (Or.inl hR), ht, g1]
    rfl
  · have hne : R ≠ .toEven := fun hh => hnt (h.toEven hh)
    have hd : R = .down := by cases R <;> simp_all
    obtain ⟨u1, u2⟩ := h.down hd
    have hS := strict (S := D) (by rw [abs_lt]; constructor <;> linarith)
    obtain ⟨v1, v2, v3⟩ := sci_value hest hS
    obtain ⟨k, Z, z1, z2, z3, z4⟩ := v3 D e (Or.inl ⟨hF.lt, rfl, rfl⟩)
    obtain ⟨L, l1, l2, l3, l4, l5, l6, l7, l8⟩ := sci_lit neg e hF hc hb hm
    refine ⟨_, _, L, ?_, l1, l2, l3, l4, l5, l6, l7, k, Z, z1, z2, by rw [l8, z3], z4⟩
    rw [if_neg (by rintro (h1 | h1); exacts [hR h1, hne h1.1]), ht]

/-- The first chunks of a number that is small -/
theorem clear35 {m n Z : ℕ} (hn : 35 ≤ n) (hZ : m * 10 ^ (19 * Z) < 2 ^ n)
    (h : ∀ j : ℕ, 1 ≤ (m : ℝ) / 2 ^ n * 10 ^ (19 * j) → (m : ℝ) / 2 ^ n * 10 ^ (19 * j) < 10 ^ 114 →
      1 / 2 ^ 35 ≤ Int.fract ((m : ℝ) / 2 ^ n * 10 ^ (19 * j))) :
    ∀ c, c ≤ Z + 6 → 2 ^ n ≤ m * 10 ^ (19 * c) → 2 ^ (n - 35) ≤ m * 10 ^ (19 * c) % 2 ^ n := by
  intro c hc hge
  have hx : (m : ℝ) / 2 ^ n * 10 ^ (19 * c) = ((m * 10 ^ (19 * c) : ℕ) : ℝ) / ((2 ^ n : ℕ) : ℝ) := by
    push_cast; ring
  have := h c (by
      rw [hx, le_div_iff₀ (by positivity), one_mul]; exact_mod_cast hge) (by
      rw [hx, div_lt_iff₀ (by positivity)]
      have : m * 10 ^ (19 * c) < 10 ^ 114 * 2 ^ n := by
        calc m * 10 ^ (19 * c) ≤ m * 10 ^ (19 * (Z + 6)) := Nat.mul_le_mul_left _ (Nat.pow_le_pow_right (by norm_num) (by omega))
          _ = m * 10 ^ (19 * Z) * 10 ^ 114 := by rw [show 19 * (Z + 6) = 19 * Z + 114 by ring, pow_add]; ring
          _ < 2 ^ n * 10 ^ 114 := Nat.mul_lt_mul_of_pos_right hZ (by positivity)
          _ = _ := by ring
      exact_mod_cast this)
  rw [hx, Int.fract_div_natCast_eq_div_natCast_mod, div_le_div_iff₀ (by positivity) (by positivity), one_mul] at this
  have h2 : 2 ^ n ≤ m * 10 ^ (19 * c) % 2 ^ n * 2 ^ 35 := by exact_mod_cast this
  have : 2 ^ n = 2 ^ (n - 35) * 2 ^ 35 := by rw [← pow_add, Nat.sub_add_cancel hn]
  rw [this] at h2
  have := Nat.le_of_mul_le_mul_right h2 (by norm_num)
  rwa [← pow_add, Nat.sub_add_cancel hn] at this

/-- The first chunks of a number below one -/
theorem clear_of_fract {m n Z : ℕ} (h1 : m < 2 ^ 237) (hn : 237 ≤ n)
    (hZ : m * 10 ^ (19 * Z) < 2 ^ n) (h : FractClear ((m : ℝ) / 2 ^ n)) : Clear m n (Z + 6) := by
  have hn0 : (0 : ℝ) < 2 ^ n := by positivity
  rcases h with h | h
  · left
    by_contra hc
    push Not at hc
    rw [div_le_div_iff₀ (by positivity) hn0, one_mul] at h
    have h2 : 2 ^ n ≤ m * 2 ^ 83 := by exact_mod_cast h
    have h3 : m * 2 ^ 83 < 2 ^ 320 := by
      calc m * 2 ^ 83 < 2 ^ 237 * 2 ^ 83 := Nat.mul_lt_mul_of_pos_right h1 (by norm_num)
        _ = 2 ^ 320 := (pow_add 2 237 83).symm
    have := (Nat.pow_lt_pow_iff_right (by norm_num : 1 < 2)).mp (lt_of_le_of_lt h2 h3)
    omega
  · right
    intro c hc hge
    exact le_trans (Nat.pow_le_pow_right (by norm_num) (by omega)) (clear35 (by omega) hZ h c hc hge)

theorem clear_of_int {m n F : ℕ} (hF : 5 ≤ F) (hm : m * 2 ^ n < 10 ^ (19 * (F + 1))) (h : IntClear ((m : ℝ) * 2 ^ n)) :
    ClearInt m n F 5 := by
  intro c hc
  have hx : (m : ℝ) * 2 ^ n / 10 ^ (19 * (F - c)) = ((m * 2 ^ n : ℕ) : ℝ) / ((10 ^ (19 * (F - c)) : ℕ) : ℝ) := by push_cast; rfl
  have := h (F - c) (by
    rw [hx, div_lt_iff₀ (by positivity)]
    have : m * 2 ^ n < 10 ^ 114 * 10 ^ (19 * (F - c)) := by
      refine lt_of_lt_of_le hm ?_
      rw [← pow_add]
      exact Nat.pow_le_pow_right (by norm_num) (by omega)
    exact_mod_cast this)
  have hP : (0 : ℝ) < ((10 ^ (19 * (F - c)) : ℕ) : ℝ) := by positivity
  rw [hx, Int.fract_div_natCast_eq_div_natCast_mod, div_le_iff₀ hP] at this
  have h2 : ((m * 2 ^ n % 10 ^ (19 * (F - c)) : ℕ) : ℝ) * 2 ^ 36 + ((10 ^ (19 * (F - c)) : ℕ) : ℝ) ≤ ((10 ^ (19 * (F - c)) : ℕ) : ℝ) * 2 ^ 36 := by
    generalize ((10 ^ (19 * (F - c)) : ℕ) : ℝ) = P at *
    generalize ((m * 2 ^ n % 10 ^ (19 * (F - c)) : ℕ) : ℝ) = Q at *
    linarith
  exact_mod_cast h2

/-- Numbers outside of `[1, 2^512)` with a quantum that is not below `2^-262142` -/
theorem outer_range {N : ℕ} (hf : IsFin N) (h : (-262142 ≤ quantumExp N ∧ |val N| < 1) ∨ 2 ^ 512 ≤ |val N|) :
    2 ^ 236 ≤ significandOf N ∧ significandOf N < 2 ^ 237 ∧
      (|val N| < 1 → -262142 ≤ quantumExp N ∧ quantumExp N ≤ -237) ∧ (2 ^ 512 ≤ |val N| → 276 ≤ quantumExp N ∧ quantumExp N ≤ 261907) := by
  rw [abs_val'] at h ⊢
  have hfr : fracField N < 2 ^ 236 := by unfold fracField; exact Nat.mod_lt _ (by norm_num)
  have hs2 : significandOf N < 2 ^ 237 := by unfold significandOf; split <;> omega
  have hq : (0 : ℝ) < 2 ^ quantumExp N := by positivity
  have hs2r : (significandOf N : ℝ) < 2 ^ (237 : ℤ) := by
    rw [show (237 : ℤ) = ((237 : ℕ) : ℤ) by norm_num, zpow_natCast]; exact_mod_cast hs2
  have hup : ∀ j : ℤ, (2 : ℝ) ^ j ≤ significandOf N * 2 ^ quantumExp N → j < 237 + quantumExp N := by
    intro j hj
    have h3 : (2 : ℝ) ^ j < 2 ^ (237 : ℤ) * 2 ^ quantumExp N := lt_of_le_of_lt hj (mul_lt_mul_of_pos_right hs2r hq)
    rw [← zpow_add₀ (by norm_num)] at h3
    exact (zpow_lt_zpow_iff_right₀ (by norm_num : (1 : ℝ) < 2)).mp h3
  have h512 : (2 : ℝ) ^ 512 = 2 ^ (512 : ℤ) := by rw [show (512 : ℤ) = ((512 : ℕ) : ℤ) by norm_num, zpow_natCast]
  rw [h512] at h ⊢
  have hlow : -262142 ≤ quantumExp N := by
    rcases h with h | h
    · exact h.1
    · have := hup _ h; omega
  have hs1 : 2 ^ 236 ≤ significandOf N := by
    unfold significandOf
    unfold quantumExp at hlow
    split <;> rename_i he
    · rw [if_pos he] at hlow; omega
    · omega
  refine ⟨hs1, hs2, fun h1 => ⟨hlow, ?_⟩, fun h1 => ⟨by have := hup _ h1; omega, ?_⟩⟩
  · have hs1r : (2 : ℝ) ^ (236 : ℤ) ≤ significandOf N := by
      rw [show (236 : ℤ) = ((236 : ℕ) : ℤ) by norm_num, zpow_natCast]; exact_mod_cast hs1
    have h3 : (2 : ℝ) ^ (236 : ℤ) * 2 ^ quantumExp N < 2 ^ (0 : ℤ) := by
      refine lt_of_le_of_lt (mul_le_mul_of_nonneg_right hs1r hq.le) ?_
      rw [zpow_zero]
      exact h1
    rw [← zpow_add₀ (by norm_num)] at h3
    have := (zpow_lt_zpow_iff_right₀ (by norm_num : (1 : ℝ) < 2)).mp h3
    omega
  · unfold IsFin at hf
    have : expField N < 2 ^ 19 := by unfold expField; exact Nat.mod_lt _ (by norm_num)
    unfold quantumExp
    split <;> omega

/-- Numbers with a quantum below `2^-262142`: their significand is shifted to 238 bits. -/
theorem subnormal_parts {m : U256} {q : ℤ} {p : ℕ} (h0 : 0 < nat256 m) (h1 : nat256 m < 2 ^ 237)
    (hq : -262378 ≤ q) (hq' : q < -262142) (hp : p ≤ 75) (hC : FractClear ((nat256 m : ℝ) * 2 ^ q)) :
    ∃ t R e D, fract2Scientific (UInt.shl m (237 - BigUInt.msb m)) (q - ((237 - BigUInt.msb m : ℕ) : ℤ)) p = some (t, R, e) ∧
      SciParts ((nat256 m : ℝ) * 2 ^ q) p t R e D := by
  rw [msb256 (by omega)]
  have l1 := Nat.log2_self_le (n := nat256 m) (by omega)
  have l2 := Nat.lt_log2_self (n := nat256 m)
  have l3 : (nat256 m).log2 ≤ 236 := by
    by_contra hc
    have : 2 ^ 237 ≤ 2 ^ (nat256 m).log2 := Nat.pow_le_pow_right (by norm_num) (by omega)
    omega
  obtain ⟨a, ha⟩ : ∃ a, a = 237 - (nat256 m).log2 := ⟨_, rfl⟩
  obtain ⟨n, hn⟩ : ∃ n : ℕ, q - (a : ℤ) = -(n : ℤ) := ⟨((a : ℤ) - q).toNat, by omega⟩
  have up : nat256 m * 2 ^ a < 2 ^ 238 := by
    calc nat256 m * 2 ^ a < 2 ^ ((nat256 m).log2 + 1) * 2 ^ a := Nat.mul_lt_mul_of_pos_right l2 (by positivity)
      _ = 2 ^ 238 := by rw [← pow_add]; congr 1; omega
  have lo : 2 ^ 237 ≤ nat256 m * 2 ^ a := by
    calc 2 ^ 237 = 2 ^ (nat256 m).log2 * 2 ^ a := by rw [← pow_add]; congr 1; omega
      _ ≤ _ := Nat.mul_le_mul_right _ l1
  have hs : nat256 (UInt.shl m a) = nat256 m * 2 ^ a := by
    rw [nat_shl256 _ (by omega), Nat.mod_eq_of_lt (by omega)]
  rw [← ha, hn]
  have hv : (nat256 m : ℝ) * 2 ^ q = (nat256 (UInt.shl m a) : ℝ) / 2 ^ n := by
    rw [hs, div_eq_mul_inv, ← zpow_natCast, ← zpow_neg, ← hn, Nat.cast_mul, Nat.cast_pow, Nat.cast_ofNat, mul_assoc, ← zpow_natCast,
      ← zpow_add₀ (by norm_num)]
    congr 2
    omega
  rw [hv] at hC ⊢
  rw [← hs] at up lo
  have hZ := zero_chunks238 up (n := n) (by omega) (by omega)
  refine fract2Scientific_subnormal lo up (by omega) (by omega) hp (clear35 (by omega) hZ ?_)
  rcases hC with h | h
  · exfalso
    rw [div_le_div_iff₀ (by positivity) (by positivity), one_mul] at h
    have h2 : 2 ^ n ≤ nat256 (UInt.shl m a) * 2 ^ 83 := by exact_mod_cast h
    have h3 : nat256 (UInt.shl m a) * 2 ^ 83 < 2 ^ 321 := by
      calc nat256 (UInt.shl m a) * 2 ^ 83 < 2 ^ 238 * 2 ^ 83 := Nat.mul_lt_mul_of_pos_right up (by norm_num)
        _ = 2 ^ 321 := (pow_add 2 238 83).symm
    have := (Nat.pow_lt_pow_iff_right (by norm_num : 1 < 2)).mp (lt_of_le_of_lt h2 h3)
    omega
  · exact h

/-- C68 (partly): below 1 and from `2^512` on, `{:.pe}` and `{:.pE}` with a precision up to the limit of 75 is the number with
`p + 1` significant digits nearest to it, provided that it is not half-way between two such numbers and that the table of
powers is exact enough for its digits (`FractClear`, `IntClear`). No estimate of the exponent is used here.

Missing: ties (the property is false for them, see `C68_counterexample`), and numbers for which the table is not exact enough
(false, see `C68_counterexample_table`). -/
theorem C68_chunks_partial (est : U256 → ℤ → ℤ) (f : F256) (hf : IsFin f.pat)
    (hx : (0 < |val f.pat| ∧ |val f.pat| < 1 ∧ FractClear |val f.pat|) ∨ (2 ^ 512 ≤ |val f.pat| ∧ IntClear |val f.pat|))
    {p : ℕ} (hp : p ≤ 75) (hT : NoSciTie |val f.pat| p) {mark : BitVec 8} (hm : mark = 101#8 ∨ mark = 69#8) :
    ∃ s L, f.scientificPrecWith est mark p {} = some s ∧ L.Proper ∧ L.text = codes s ∧ (L.neg = true ↔ signBit f.pat = 1) ∧
      SciOf (val f.pat) p mark.toNat L := by
  have hav := C18_abs_val f
  have haa : |val f.abs.pat| = |val f.pat| := by rw [hav, abs_abs]
  have hfa : IsFin f.abs.pat := by
    have h2 := (C18_abs f).2
    unfold IsFin expField at hf ⊢
    omega
  have hpos : 0 < |val f.pat| := by
    rcases hx with h | h
    · exact h.1
    · exact lt_of_lt_of_le (by positivity) h.1
  have hsig : ∀ N, 0 < |val N| → significandOf N ≠ 0 := by
    intro N h h0
    rw [abs_val', h0, Nat.cast_zero, zero_mul] at h
    exact lt_irrefl _ h
  have hz : ¬IsZero f.abs.pat := by
    rintro ⟨z1, z2⟩
    refine hsig f.abs.pat (by rw [haa]; exact hpos) ?_
    unfold significandOf
    rw [if_pos z1, z2]
  have hsp : f.isSpecial = false := by
    rw [Bool.eq_false_iff, Ne, isSpecial_iff]
    have m0 := hsig f.pat hpos
    have hlt := pat_lt f
    unfold significandOf at m0
    unfold IsFin at hf
    unfold expField fracField at *
    unfold INF
    split at m0 <;> omega
  have hq : f.abs.quantumExponent = quantumExp f.abs.pat := by
    rw [quantumExponent_eq hz]
    unfold quantumExp
    split <;> omega
  have hs := integralSignificand_eq f.abs
  have habs : |val f.pat| = (nat256 f.abs.integralSignificand : ℝ) * 2 ^ quantumExp f.abs.pat := by
    rw [← haa, abs_val', hs]
  have hparts : ∃ t R e D, f.abs.scientificParts est p = some (t, R, e) ∧ SciParts |val f.pat| p t R e D := by
    unfold F256.scientificParts
    dsimp only
    rw [hq]
    by_cases hlow : quantumExp f.abs.pat < -262142
    · have hx1 : FractClear |val f.pat| := by
        rcases hx with h | h
        · exact h.2.2
        · exfalso
          obtain ⟨-, -, -, r⟩ := outer_range hfa (by rw [haa]; exact Or.inr h.1)
          rw [haa] at r
          have := r h.1
          omega
      have hqlo : -262378 ≤ quantumExp f.abs.pat := by
        unfold quantumExp
        split <;> omega
      have hm1 : nat256 f.abs.integralSignificand < 2 ^ 237 := by
        rw [hs]
        have hfr : fracField f.abs.pat < 2 ^ 236 := by unfold fracField; exact Nat.mod_lt _ (by norm_num)
        unfold significandOf
        split <;> omega
      have hm0 : 0 < nat256 f.abs.integralSignificand := by
        rw [hs]
        exact Nat.pos_of_ne_zero (hsig _ (by rw [haa]; exact hpos))
      rw [habs] at hx1 ⊢
      rw [if_neg (by omega), if_neg (by omega), if_neg (by unfold EMIN; omega), if_neg (by omega), if_pos (by unfold EMIN; omega)]
      exact subnormal_parts hm0 hm1 hqlo hlow hp hx1
    obtain ⟨m0, m1, r1, r2⟩ := outer_range hfa (by
      rw [haa]
      rcases hx with h | h
      · exact Or.inl ⟨by omega, h.2.1⟩
      · exact Or.inr h.1)
    rw [haa] at r1 r2
    rw [← hs] at m0 m1
    clear hs hq
    generalize f.abs.integralSignificand = m at *
    generalize quantumExp f.abs.pat = q at *
    rcases hx with ⟨x1, x2, x3⟩ | ⟨x1, x2⟩
    · obtain ⟨q0, q1⟩ := r1 x2
      obtain ⟨n, rfl⟩ : ∃ n : ℕ, q = -(n : ℤ) := ⟨(-q).toNat, by omega⟩
      rw [if_neg (by omega), if_neg (by omega), if_pos (by unfold EMIN; omega)]
      rw [zpow_neg, zpow_natCast, ← div_eq_mul_inv] at habs
      rw [habs] at x3 ⊢
      refine fract2Scientific_spec m0 m1 (by omega) (by omega) hp (clear_of_fract m1 (by omega) ?_ x3)
      exact zero_chunks m1 (by omega) (by omega)
    · obtain ⟨q0, q1⟩ := r2 x1
      obtain ⟨n, rfl⟩ : ∃ n : ℕ, q = (n : ℤ) := ⟨q.toNat, by omega⟩
      rw [if_neg (by omega), if_neg (by omega), if_neg (by unfold EMIN; omega), if_pos (by unfold EMAX; omega)]
      rw [zpow_natCast] at habs
      rw [habs] at x2 ⊢
      have fc := first_chunk m1 (n := n) (by omega) (by omega)
      obtain ⟨t, R, e, D, g1, g2, g3⟩ := largeInt2Scientific_spec m0 m1 (n := n) (by omega) (by omega) hp (clear_of_int (by omega) fc.2 x2)
      refine ⟨t, R, e, D, ?_, g2⟩
      rw [Int.toNat_natCast, g1, Option.bind_eq_bind, Option.bind_some]
      have : p - Nat.min p e.toNat = 0 := by
        show p - min p e.toNat = 0
        omega
      dsimp only
      rw [this, List.replicate_zero, List.append_nil]
      rfl
  obtain ⟨t, R, e, D, t1, t2⟩ := hparts
  obtain ⟨s, E, L, g1, l1, l2, l3, l4, l5, l6, l7, k, Z, z1, z2, z3, z4⟩ := sci_finish t2 hT hm (decide (signBit f.pat = 1))
  refine ⟨_, L, ?_, l1, l2, by rw [l3, decide_eq_true_iff], l4, l5, l6, l7, k, Z, z1, z2, z3, z4.1, z4.2⟩
  unfold F256.scientificPrecWith F256.formatScientificExact F256.bin2DecScientific
  rw [hsp, if_neg (by simp), if_pos hp, t1, Option.bind_eq_bind, Option.bind_eq_bind, Option.bind_some]
  dsimp only
  have hres : (if R = Rounding.up ∨ R = Rounding.toEven ∧ endsOdd t = true then
        (Option.map (fun x => (x.1, e + x.2)) (roundUpScientific t)).bind fun y => pure (y.1 ++ mark :: intText y.2)
      else (some (t, e)).bind fun y => pure (y.1 ++ mark :: intText y.2)) = some (s ++ mark :: intText E) := by
    by_cases hc : R = Rounding.up ∨ R = Rounding.toEven ∧ endsOdd t = true
    · rw [if_pos hc] at g1 ⊢
      change (Option.map (fun x => (x.1, e + x.2)) (roundUpScientific t)) = _ at g1
      rw [g1]
      rfl
    · rw [if_neg hc] at g1 ⊢
      rw [g1]
      rfl
  simp only [Option.bind_eq_bind]
  rw [hres]
  change some (padIntegral f.isSignPositive (s ++ mark :: intText E) {}) = _
  rw [padIntegral_plain (signPos f)]
  unfold signText
  by_cases hsb : signBit f.pat = 1
  · rw [if_pos hsb, if_pos (decide_eq_true hsb)]
  · rw [if_neg hsb, decide_eq_false hsb]
    rfl

set_option exponentiation.threshold 300000

/-- `0.375` -/
def threeEighths : F256 := ⟨U256.new 0x3fffd800000000000000000000000000#128 0#128⟩

example : IsFin threeEighths.pat ∧ 0 < |val threeEighths.pat| ∧ |val threeEighths.pat| < 1 ∧ FractClear |val threeEighths.pat| ∧
    NoSciTie |val threeEighths.pat| 0 ∧ threeEighths.scientificPrecWith (fun _ _ => 0) 101#8 0 {} = some [52#8, 101#8, 45#8, 49#8] := by
  have hv : |val threeEighths.pat| = 3 / 8 := by
    rw [abs_val', show significandOf threeEighths.pat = 3 * 2 ^ 235 by decide +kernel, show quantumExp threeEighths.pat = -238 by decide +kernel]
    norm_num
  rw [hv]
  refine ⟨by decide +kernel, by norm_num, by norm_num, Or.inl (by norm_num), ?_, by decide +kernel⟩
  · intro e Z e1 e2 h
    have he : e = -1 := by
      have a1 : (10 : ℝ) ^ e < 10 ^ (0 : ℤ) := lt_of_le_of_lt e1 (by norm_num)
      have a2 : (10 : ℝ) ^ (-1 : ℤ) < 10 ^ (e + 1) := lt_of_le_of_lt (by norm_num) e2
      rw [zpow_lt_zpow_iff_right₀ (by norm_num)] at a1 a2
      omega
    subst he
    norm_num at h
    have h2 : (Z : ℝ) * 4 = 13 := by linarith
    have h3 : Z * 4 = 13 := by exact_mod_cast h2
    omega

/-- The smallest positive number, `2^-262378` -/
def leastPositive : F256 := ⟨U256.new 0#128 1#128⟩

theorem natPow_div (a b : ℕ) : (1 : ℝ) / 2 ^ a * 10 ^ b = ((10 ^ b : ℕ) : ℝ) / ((2 ^ a : ℕ) : ℝ) := by
  rw [Nat.cast_pow, Nat.cast_pow, Nat.cast_ofNat, Nat.cast_ofNat, one_div, mul_comm, div_eq_mul_inv]

theorem fractClear_of {n lo : ℕ} (h0 : 10 ^ (19 * lo) < 2 ^ n) (h1 : 10 ^ 114 * 2 ^ n ≤ 10 ^ (19 * (lo + 7)))
    (h : ∀ i < 6, 2 ^ n ≤ 10 ^ (19 * (lo + 1 + i)) % 2 ^ n * 2 ^ 35) : FractClear (1 / 2 ^ n) := by
  refine Or.inr fun j a1 a2 => ?_
  rw [natPow_div] at a1 a2 ⊢
  rw [le_div_iff₀ (by positivity), one_mul, Nat.cast_le] at a1
  rw [div_lt_iff₀ (by positivity)] at a2
  have a3 : 10 ^ (19 * j) < 10 ^ 114 * 2 ^ n := by exact_mod_cast a2
  have j1 := (Nat.pow_lt_pow_iff_right (by norm_num : 1 < 10)).mp (lt_of_lt_of_le h0 a1)
  have j2 := (Nat.pow_lt_pow_iff_right (by norm_num : 1 < 10)).mp (lt_of_lt_of_le a3 h1)
  have := h (j - (lo + 1)) (by omega)
  rw [show lo + 1 + (j - (lo + 1)) = j by omega] at this
  rw [Int.fract_div_natCast_eq_div_natCast_mod, div_le_div_iff₀ (by positivity) (by positivity), one_mul]
  exact_mod_cast this

theorem noSciTie_of {n E p : ℕ} (h0 : 2 ^ n ≤ 10 ^ E) (h1 : 10 ^ E < 10 * 2 ^ n) (h : ¬2 ^ n ∣ 2 * 10 ^ (p + E)) :
    NoSciTie (1 / 2 ^ n) p := by
  intro e Z e1 e2 hz
  have hn : (0 : ℝ) < 2 ^ n := by positivity
  have hE : (0 : ℝ) < 10 ^ E := by positivity
  have b0 : (1 : ℝ) / 10 ^ E ≤ 1 / 2 ^ n := one_div_le_one_div_of_le hn (by exact_mod_cast h0)
  have b1 : (1 : ℝ) / 2 ^ n < 10 / 10 ^ E := by
    rw [div_lt_div_iff₀ hn hE, one_mul]; exact_mod_cast h1
  have he : e = -(E : ℤ) := by
    have a1 : (10 : ℝ) ^ e < 10 ^ (1 - (E : ℤ)) := by
      refine lt_of_le_of_lt e1 (b1.trans_eq ?_)
      rw [zpow_sub₀ (by norm_num), zpow_one, zpow_natCast]
    have a2 : (10 : ℝ) ^ (-(E : ℤ)) < 10 ^ (e + 1) := by
      refine lt_of_le_of_lt (le_of_eq ?_) (lt_of_le_of_lt b0 e2)
      rw [zpow_neg, zpow_natCast, one_div]
    rw [zpow_lt_zpow_iff_right₀ (by norm_num)] at a1 a2
    omega
  subst he
  rw [show (p : ℤ) - -(E : ℤ) = ((p + E : ℕ) : ℤ) by push_cast; ring, zpow_natCast, natPow_div, div_eq_iff (by positivity)] at hz
  apply h
  refine ⟨2 * Z + 1, ?_⟩
  have : (2 * (10 ^ (p + E) : ℕ) : ℝ) = ((2 ^ n : ℕ) : ℝ) * (2 * Z + 1) := by rw [hz]; ring
  exact_mod_cast this

example : IsFin leastPositive.pat ∧ 0 < |val leastPositive.pat| ∧ |val leastPositive.pat| < 1 ∧ FractClear |val leastPositive.pat| ∧
    NoSciTie |val leastPositive.pat| 3 ∧ leastPositive.scientificPrecWith (fun _ _ => 0) 101#8 3 {} =
      some [50#8, 46#8, 50#8, 52#8, 56#8, 101#8, 45#8, 55#8, 56#8, 57#8, 56#8, 52#8] := by
  have hv : |val leastPositive.pat| = 1 / 2 ^ 262378 := by
    rw [abs_val', show significandOf leastPositive.pat = 1 by decide +kernel,
      show quantumExp leastPositive.pat = -((262378 : ℕ) : ℤ) by decide +kernel, zpow_neg, zpow_natCast, Nat.cast_one, one_mul, one_div]
  rw [hv]
  refine ⟨by decide +kernel, by positivity, ?_, fractClear_of (lo := 4157) (by decide +kernel) (by decide +kernel) (by decide +kernel),
    noSciTie_of (E := 78984) (by decide +kernel) (by decide +kernel) (by decide +kernel), by decide +kernel⟩
  rw [div_lt_one (by positivity)]
  exact one_lt_pow₀ (by norm_num) (by norm_num)

/-- `2^512` -/
def twoP512 : F256 := ⟨U256.new 0x401ff000000000000000000000000000#128 0#128⟩

example : IsFin twoP512.pat ∧ 2 ^ 512 ≤ |val twoP512.pat| ∧ IntClear |val twoP512.pat| ∧ NoSciTie |val twoP512.pat| 3 ∧
    twoP512.scientificPrecWith (fun _ _ => 0) 101#8 3 {} = some [49#8, 46#8, 51#8, 52#8, 49#8, 101#8, 49#8, 53#8, 52#8] := by
  have hv : |val twoP512.pat| = 2 ^ 512 := by
    rw [abs_val', show significandOf twoP512.pat = 2 ^ 236 by decide +kernel, show quantumExp twoP512.pat = 276 by decide +kernel]
    norm_num
  rw [hv]
  refine ⟨by decide +kernel, le_rfl, ?_, ?_, by decide +kernel⟩
  · intro j hj
    rcases Nat.lt_or_ge j 9 with h | h
    · have h3 : 3 ≤ j := by
        by_contra hc
        have : (10 : ℝ) ^ (19 * j) ≤ 10 ^ 38 := pow_le_pow_right₀ (by norm_num) (by omega)
        rw [div_lt_iff₀ (by positivity)] at hj
        have : (2 : ℝ) ^ 512 < 10 ^ 114 * 10 ^ 38 := lt_of_lt_of_le hj (mul_le_mul_of_nonneg_left this (by positivity))
        norm_num at this
      have e : (2 : ℝ) ^ 512 / 10 ^ (19 * j) = ((2 ^ 512 : ℕ) : ℝ) / ((10 ^ (19 * j) : ℕ) : ℝ) := by
        rw [Nat.cast_pow, Nat.cast_pow, Nat.cast_ofNat, Nat.cast_ofNat]
      rw [e, Int.fract_div_natCast_eq_div_natCast_mod]
      interval_cases j <;> norm_num
    · have hle : (2 : ℝ) ^ 512 / 10 ^ (19 * j) ≤ 1 / 2 := by
        rw [div_le_iff₀ (by positivity)]
        have : (10 : ℝ) ^ 171 ≤ 10 ^ (19 * j) := pow_le_pow_right₀ (by norm_num) (by omega)
        refine le_trans ?_ (mul_le_mul_of_nonneg_left this (by norm_num))
        norm_num
      rw [Int.fract_eq_self.mpr ⟨by positivity, by linarith⟩]
      refine hle.trans (by norm_num)
  · intro e Z e1 e2 h
    have he : e = 154 := by
      have a1 : (10 : ℝ) ^ e < 10 ^ (155 : ℤ) := lt_of_le_of_lt e1 (by norm_num)
      have a2 : (10 : ℝ) ^ (154 : ℤ) < 10 ^ (e + 1) := lt_of_le_of_lt (by norm_num) e2
      rw [zpow_lt_zpow_iff_right₀ (by norm_num)] at a1 a2
      omega
    subst he
    have h2 : (2 : ℝ) ^ 512 * 2 = (2 * Z + 1) * 10 ^ 151 := by
      have : ((3 : ℕ) : ℤ) - 154 = -(151 : ℕ) := by norm_num
      rw [this, zpow_neg, zpow_natCast, ← div_eq_mul_inv, div_eq_iff (by positivity)] at h
      rw [h]
      ring
    have h3 : 2 ^ 512 * 2 = (2 * Z + 1) * 10 ^ 151 := by exact_mod_cast h2
    have h5 : 5 ∣ 2 ^ 512 * 2 := by
      rw [h3]
      exact Dvd.dvd.mul_left (dvd_pow (by norm_num) (by norm_num)) _
    revert h5
    decide +kernel

/-- The largest number below `10^156` -/
def below156 : F256 := ⟨U256.new 0x402052a5568b9f52f4165bb28b4e8f7e#128 0x4c30730c1055c45cbc260ce2e79ad793#128⟩

/-- The digits behind the point printed for it -/
def below156Frac : List ℕ := List.replicate 42 48 ++ List.replicate 29 57 ++ [50, 51, 49, 50]

/-- `1.000…` with the exponent 156 -/
def below156Lit : DecLit := ⟨[], [49], true, below156Frac, some (101, [], [49, 53, 54])⟩

/-- The property is false for large numbers, whatever the estimate: the largest number below `10^156` with the precision 75
is printed as `1.`, followed by 42 zeroes and then by the digits of `9.99…`, which is larger than the number by
`10^-42` times its value. The table of powers is not exact enough to tell the first chunks of digits from `10000|0…0|0…0`. -/
theorem C68_counterexample_table : IsFin below156.pat ∧ below156Lit.Proper ∧
    (∀ est, ∃ s, below156.scientificPrecWith est 101#8 75 {} = some s ∧ below156Lit.text = codes s) ∧
    |val below156.pat| < 10 ^ 156 ∧ 10 ^ 156 * (1 + 1 / 10 ^ 43) < below156Lit.absVal ∧ ¬SciOf (val below156.pat) 75 101 below156Lit := by
  have hv : |val below156.pat| = 128688939736700722953473804336792224215209489530865570679660193177589651 * 2 ^ 282 := by
    rw [abs_val', show significandOf below156.pat = 128688939736700722953473804336792224215209489530865570679660193177589651 by decide +kernel, show quantumExp below156.pat = 282 by decide +kernel]
    norm_num
  have hL : below156Lit.absVal = 1000000000000000000000000000000000000000000999999999999999999999999999992312 * 10 ^ 81 := by
    unfold DecLit.absVal
    rw [show strVal (below156Lit.ip ++ below156Lit.fp) = 1000000000000000000000000000000000000000000999999999999999999999999999992312 by decide +kernel, show below156Lit.expo = 156 by decide +kernel,
      show below156Lit.fp.length = 75 by decide +kernel]
    norm_num
  refine ⟨by decide +kernel, ?_, fun est => ⟨[49#8, 46#8] ++ List.replicate 42 48#8 ++ List.replicate 29 57#8 ++
    [50#8, 51#8, 49#8, 50#8, 101#8, 49#8, 53#8, 54#8], ?_, by decide⟩, ?_, ?_, ?_⟩
  · exact ⟨⟨Or.inl rfl, by unfold Digits; decide, by unfold Digits; decide, by decide,
      fun c sg ds h => by cases h; exact ⟨Or.inl rfl, Or.inl rfl, by unfold Digits; decide⟩⟩, Or.inl (by decide), fun c sg ds h => by
        cases h; decide⟩
  · rw [scientificPrecWith_congr (est' := fun _ _ => est below156.abs.integralSignificand below156.abs.quantumExponent) rfl]
    generalize est below156.abs.integralSignificand below156.abs.quantumExponent = e
    have h1 : ¬((-236 : ℤ) ≤ 282 ∧ (282 : ℤ) ≤ -1) := by decide
    have h2 : ¬((0 : ℤ) ≤ 282 ∧ (282 : ℤ) ≤ 275) := by decide
    have hp : F256.scientificParts (fun _ _ => e) below156.abs 75 = F256.scientificParts (fun _ _ => 0) below156.abs 75 := by
      unfold F256.scientificParts
      dsimp only
      rw [show below156.abs.quantumExponent = 282 by decide +kernel, if_neg h1, if_neg h2, if_neg h1, if_neg h2]
    unfold F256.scientificPrecWith F256.formatScientificExact F256.bin2DecScientific
    rw [hp]
    decide +kernel
  · rw [hv]; norm_num
  · rw [hL]; norm_num
  · rintro ⟨-, -, -, -, e, Z, e1, e2, e3, e4, -⟩
    rw [hv] at e1 e2 e4
    have he : e = 155 := by
      have a1 : (10 : ℝ) ^ e < 10 ^ (156 : ℤ) := lt_of_le_of_lt e1 (by norm_num)
      have a2 : (10 : ℝ) ^ (155 : ℤ) < 10 ^ (e + 1) := lt_of_le_of_lt (by norm_num) e2
      rw [zpow_lt_zpow_iff_right₀ (by norm_num)] at a1 a2
      omega
    subst he
    rw [hL, show (155 : ℤ) - ((75 : ℕ) : ℤ) = (80 : ℕ) by norm_num, zpow_natCast] at e3
    have hZ : (Z : ℝ) = 1000000000000000000000000000000000000000000999999999999999999999999999992312 * 10 := by
      have h0 : (0 : ℝ) < 10 ^ 80 := by positivity
      apply mul_right_cancel₀ h0.ne'
      rw [← e3]
      ring
    rw [hZ, show ((75 : ℕ) : ℤ) - 155 = -(80 : ℕ) by norm_num, zpow_neg, zpow_natCast] at e4
    have := (abs_le.mp e4).2
    norm_num at this

end Verif.Props
