import Verif.Proofs.ToFixedText
import Verif.Props.Integral
import Verif.Props.Basic

/-!
# Proofs about formatting with a precision, part 3: the value
-/

namespace Verif

open BigUInt LawfulBigUInt Spec

/-- The digits of the fraction `y` are computed correctly up to `p` digits. The table of powers used is exact for fractions
of at least `2^-83`. For smaller ones the fraction which remains behind the first `19 * c` digits must not be too small. -/
def FixedClear (y : ℝ) (p : ℕ) : Prop :=
  1 / 2 ^ 83 ≤ y ∨ ∀ c : ℕ, c ≤ p / 19 + 1 → 1 ≤ y * 10 ^ (19 * c) → 1 / 2 ^ 36 ≤ Int.fract (y * 10 ^ (19 * c))

/-- `B` with rounding `r` is a correct description of `x`. -/
structure Digits10 (x : ℝ) (B : ℕ) (r : Rounding) : Prop where
  le : (B : ℝ) ≤ x
  lt : x < B + 1
  up : r = .up ↔ 1 < 2 * (x - B)
  tie : r = .toEven ↔ 2 * (x - B) = 1

theorem digits10_of_div {M n B R : ℕ} {r : Rounding} (h : RoundingOf r R (2 ^ n)) (hB : B = M / 2 ^ n) (hR : R = M % 2 ^ n) :
    Digits10 ((M : ℝ) / 2 ^ n) B r := by
  have hp : (0 : ℝ) < 2 ^ n := by positivity
  have hdm : M = 2 ^ n * B + R := by rw [hB, hR]; exact (Nat.div_add_mod _ _).symm
  have hlt : R < 2 ^ n := by rw [hR]; exact Nat.mod_lt _ (Nat.two_pow_pos n)
  have hltR : (R : ℝ) < 2 ^ n := by exact_mod_cast hlt
  have e : (M : ℝ) / 2 ^ n = B + R / 2 ^ n := by
    rw [hdm]; push_cast; field_simp
  have h0 : (0 : ℝ) ≤ R / 2 ^ n := by positivity
  have h1 : (R : ℝ) / 2 ^ n < 1 := (div_lt_one hp).mpr hltR
  rw [e]
  refine ⟨by linarith, by linarith, ?_, ?_⟩
  · rw [h.1, add_sub_cancel_left, mul_div_assoc', lt_div_iff₀ hp, one_mul]
    exact_mod_cast Iff.rfl
  · rw [h.2, add_sub_cancel_left, mul_div_assoc', div_eq_iff hp.ne', one_mul]
    exact_mod_cast Iff.rfl

theorem clear_of_fixed {m n p : ℕ} (hm : m < 2 ^ 237) (h : FixedClear ((m : ℝ) / 2 ^ n) p) : Clear m n (p / 19 + 1) := by
  have hp : (0 : ℝ) < 2 ^ n := by positivity
  rcases h with h | h
  · left
    by_contra hc
    have h1 : (m : ℝ) < 2 ^ 237 := by exact_mod_cast hm
    rw [le_div_iff₀ hp] at h
    have h2 : (2 : ℝ) ^ 320 ≤ 2 ^ n := pow_le_pow_right₀ (by norm_num) (by omega)
    have h3 : (1 : ℝ) / 2 ^ 83 * 2 ^ 320 = 2 ^ 237 := by
      rw [show (320 : ℕ) = 83 + 237 by norm_num, pow_add]; field_simp
    have h4 : (1 : ℝ) / 2 ^ 83 * 2 ^ 320 ≤ 1 / 2 ^ 83 * 2 ^ n := mul_le_mul_of_nonneg_left h2 (by positivity)
    rw [h3] at h4
    exact absurd (lt_of_lt_of_le h1 h4) (not_lt.mpr h)
  · rcases Nat.lt_or_ge n 320 with hn | hn
    · exact Or.inl hn
    right
    intro c hc hge
    have e : (m : ℝ) / 2 ^ n * 10 ^ (19 * c) = ((m * 10 ^ (19 * c) : ℕ) : ℝ) / 2 ^ n := by push_cast; ring
    have h1 : (1 : ℝ) ≤ (m : ℝ) / 2 ^ n * 10 ^ (19 * c) := by
      rw [e, le_div_iff₀ hp, one_mul]
      exact_mod_cast hge
    have h2 := h c hc h1
    rw [e] at h2
    generalize m * 10 ^ (19 * c) = M at *
    have hdm : M = 2 ^ n * (M / 2 ^ n) + M % 2 ^ n := (Nat.div_add_mod _ _).symm
    have hlt : M % 2 ^ n < 2 ^ n := Nat.mod_lt _ (Nat.two_pow_pos n)
    have hltR : ((M % 2 ^ n : ℕ) : ℝ) < 2 ^ n := by exact_mod_cast hlt
    generalize M % 2 ^ n = R at *
    generalize M / 2 ^ n = Q at *
    have e2 : (M : ℝ) / 2 ^ n = ((Q : ℤ) : ℝ) + R / 2 ^ n := by
      rw [hdm]; push_cast; field_simp
    have hf : Int.fract ((M : ℝ) / 2 ^ n) = R / 2 ^ n := by
      rw [e2, Int.fract_intCast_add, Int.fract_eq_self]
      exact ⟨by positivity, (div_lt_one hp).mpr hltR⟩
    rw [hf, le_div_iff₀ hp] at h2
    have e3 : (1 : ℝ) / 2 ^ 36 * 2 ^ n = 2 ^ (n - 36) := by
      rw [show n = 36 + (n - 36) by omega, pow_add, Nat.add_sub_cancel_left]; field_simp
    rw [e3] at h2
    exact_mod_cast h2

theorem tiny_pow : (2 : ℝ) ^ 237 * 2 ^ (-600 : ℤ) * 10 ^ 75 < 1 / 2 := by
  rw [zpow_neg, show ((2 : ℝ) ^ (600 : ℤ)) = 2 ^ 237 * 2 ^ 113 * 2 ^ 250 by
    rw [← pow_add, ← pow_add]; exact zpow_natCast 2 600]
  have h : (10 : ℝ) ^ 75 < 2 ^ 250 := by norm_num
  rw [mul_inv, mul_inv]
  have h237 : (0 : ℝ) < 2 ^ 237 := by positivity
  have h250 : (0 : ℝ) < 2 ^ 250 := by positivity
  have e : (2 : ℝ) ^ 237 * ((2 ^ 237)⁻¹ * (2 ^ 113)⁻¹ * (2 ^ 250)⁻¹) * 10 ^ 75 = (2 ^ 113)⁻¹ * (10 ^ 75 / 2 ^ 250) := by
    field_simp
  rw [e]
  have h1 : (10 : ℝ) ^ 75 / 2 ^ 250 < 1 := (div_lt_one h250).mpr h
  have h2 : ((2 : ℝ) ^ 113)⁻¹ ≤ 1 / 2 := by norm_num
  have h3 : (0 : ℝ) < (2 ^ 113)⁻¹ := by positivity
  nlinarith

theorem fract_digits {fp : F256} (hf : IsFin fp.pat) (h0 : 0 < |val fp.pat|) (h1 : |val fp.pat| < 1) {p : ℕ} (hp : p ≤ 75)
    (hC : FixedClear |val fp.pat| p) :
    ∃ s r B, binFract2DecStr (F256.fractArgs fp).1 (F256.fractArgs fp).2 p = some (s, r) ∧ FixedText s p B ∧
      Digits10 (|val fp.pat| * 10 ^ p) B r := by
  have hnz : ¬IsZero fp.pat := by
    intro h
    rw [abs_val', significandOf, if_pos h.1, h.2] at h0
    simp at h0
  have hqe := quantumExponent_eq hnz
  have hF : fracField fp.pat < 2 ^ 236 := Nat.mod_lt _ (by norm_num)
  have hS : significandOf fp.pat < 2 ^ 237 := by unfold significandOf; split <;> omega
  have hsig := integralSignificand_eq fp
  have hqe2 : quantumExp fp.pat = fp.quantumExponent := by
    rw [hqe]
    unfold quantumExp
    split <;> omega
  rw [abs_val', hqe2] at h0 h1 hC ⊢
  have hSR : (significandOf fp.pat : ℝ) < 2 ^ 237 := by exact_mod_cast hS
  have hSp : (0 : ℝ) ≤ significandOf fp.pat := Nat.cast_nonneg _
  unfold F256.fractArgs
  have hEMIN : EMIN = -262142 := rfl
  by_cases hE : fp.quantumExponent < EMIN
  · rw [if_pos hE]
    dsimp only
    have hz : ∀ (x : U256) (e : ℤ), e < -262142 → binFract2DecStr x e p = some (List.replicate p 48#8, .down) := by
      intro x e he
      unfold binFract2DecStr pow10DivPow2Params
      dsimp only
      rw [if_pos]
      · rfl
      · unfold segmentZeroChunks CHUNK_SIZE
        omega
    have hsmall : (significandOf fp.pat : ℝ) * 2 ^ fp.quantumExponent * 10 ^ p < 1 / 2 := by
      have a1 : (2 : ℝ) ^ fp.quantumExponent ≤ 2 ^ (-600 : ℤ) := zpow_le_zpow_right₀ (by norm_num) (by omega)
      have a2 : (10 : ℝ) ^ p ≤ 10 ^ 75 := pow_le_pow_right₀ (by norm_num) hp
      refine lt_of_le_of_lt ?_ tiny_pow
      exact mul_le_mul (mul_le_mul hSR.le a1 (by positivity) (by positivity)) a2 (by positivity) (by positivity)
    have hpos : (0 : ℝ) ≤ (significandOf fp.pat : ℝ) * 2 ^ fp.quantumExponent * 10 ^ p := by positivity
    refine ⟨_, _, 0, hz _ _ (by omega), fixedText_zeroes p, ?_⟩
    refine ⟨by rw [Nat.cast_zero]; exact hpos, by rw [Nat.cast_zero]; linarith, ?_, ?_⟩
    · constructor
      · intro h; cases h
      · intro h; rw [Nat.cast_zero] at h; linarith
    · constructor
      · intro h; cases h
      · intro h; rw [Nat.cast_zero] at h; linarith
  · rw [if_neg hE]
    have hEn : expField fp.pat ≠ 0 := by
      intro h; rw [h] at hqe; omega
    have hSl : 2 ^ 236 ≤ significandOf fp.pat := by rw [significandOf, if_neg hEn]; omega
    have hSlR : (2 : ℝ) ^ 236 ≤ significandOf fp.pat := by exact_mod_cast hSl
    have hq : fp.quantumExponent < -236 := by
      by_contra hc
      have a1 : (2 : ℝ) ^ (-236 : ℤ) ≤ 2 ^ fp.quantumExponent := zpow_le_zpow_right₀ (by norm_num) (by omega)
      have a2 := mul_le_mul hSlR a1 (by positivity) hSp
      have a3 : (2 : ℝ) ^ 236 * 2 ^ (-236 : ℤ) = 1 := by norm_num
      rw [a3] at a2
      exact absurd h1 (not_lt.mpr a2)
    dsimp only
    generalize fp.quantumExponent = q at *
    obtain ⟨n, rfl⟩ : ∃ n : ℕ, q = -(n : ℤ) := ⟨(-q).toNat, by omega⟩
    have ey : (significandOf fp.pat : ℝ) * 2 ^ (-(n : ℤ)) = significandOf fp.pat / 2 ^ n := by
      rw [zpow_neg, zpow_natCast]; rfl
    rw [ey] at hC ⊢
    have hcl := clear_of_fixed hS hC
    rw [← hsig] at hcl hS hSl ⊢
    obtain ⟨s, r, e1, e2, e3⟩ := binFract_spec hS (by omega) (by omega) hp hcl
    refine ⟨s, r, _, e1, e2, ?_⟩
    have := digits10_of_div e3 rfl rfl
    convert this using 1
    push_cast
    ring

/-- The text before rounding: integer part, point, fraction -/
def rawText (int s : List (BitVec 8)) (p : ℕ) : List (BitVec 8) := 48#8 :: int ++ (if p > 0 then [46#8] else []) ++ s

theorem fixed_code (g : F256) (p : ℕ) : F256.bin2DecFixedPoint g p =
    (if g.quantumExponent ≥ -((UInt.trailingZeros g.integralSignificand : ℕ) : ℤ) then
      (F256.display g).bind fun int => some (rawText int (List.replicate p 48#8) p, Rounding.down)
    else if g.quantumExponent < -236 then
      (binFract2DecStr (F256.fractArgs g).1 (F256.fractArgs g).2 p).bind fun x => some (rawText [48#8] x.1 p, x.2)
    else (F256.split g).bind fun y => (F256.display y.1).bind fun int =>
      (binFract2DecStr (F256.fractArgs y.2).1 (F256.fractArgs y.2).2 p).bind fun x => some (rawText int x.1 p, x.2)).bind fun z =>
    if z.2 = .up ∨ (z.2 = .toEven ∧ endsOdd z.1) then roundUpFixedPoint z.1 else some z.1 := by
  unfold F256.bin2DecFixedPoint rawText
  generalize F256.fractArgs = fa
  generalize F256.ZERO = zero
  generalize binFract2DecStr = bf
  generalize roundUpFixedPoint = ru
  generalize endsOdd = eo
  generalize F256.display = disp
  generalize g.quantumExponent = qe
  generalize UInt.trailingZeros g.integralSignificand = tz
  generalize F256.split g = sp
  by_cases h1 : qe ≥ -(tz : ℤ)
  · rw [if_pos h1]
    simp only [if_pos h1, Option.bind_eq_bind, Option.bind_some]
    cases disp g with
    | none => rfl
    | some int => simp only [Option.bind_some, Bool.false_eq_true, if_false, if_true, Option.pure_def]
  · rw [if_neg h1]
    simp only [if_neg h1, Option.bind_eq_bind]
    by_cases h2 : qe < -236
    · rw [if_pos h2, if_pos h2, Option.bind_some]
      dsimp only
      rw [if_pos rfl, Option.bind_some, if_neg (by decide), Option.bind_assoc]
      rfl
    · rw [if_neg h2, if_neg h2]
      cases sp with
      | none => rfl
      | some y =>
        rw [Option.map_some, Option.bind_some, show ((some y).bind fun y : F256 × F256 => (disp y.1).bind fun int =>
          (bf (fa y.2).1 (fa y.2).2 p).bind fun x => some ((48#8 :: int ++ if p > 0 then [46#8] else []) ++ x.1, x.2)) =
          (disp y.1).bind fun int =>
          (bf (fa y.2).1 (fa y.2).2 p).bind fun x => some ((48#8 :: int ++ if p > 0 then [46#8] else []) ++ x.1, x.2) from rfl]
        dsimp only
        rw [if_neg (by decide)]
        cases disp y.1 with
        | none => rfl
        | some int =>
          rw [Option.bind_some, if_neg (by decide), Option.bind_some, Option.bind_assoc]
          rfl

/-- The integer part -/
theorem int_text {i : F256} (hf : IsFin i.pat) {Z : ℕ} (h0 : 0 < Z) (hZ : Z < 2 ^ 237) (hv : val i.pat = Z) :
    ∃ s k, F256.display i = some s ∧ 0 < k ∧ FixedText s k Z ∧ 10 ^ (k - 1) ≤ Z := by
  have hpos : (0 : ℝ) < Z := by exact_mod_cast h0
  obtain ⟨d, h1, h2, h3, h4, -⟩ := int_exact hf h0 hZ (by rw [hv, abs_of_pos hpos])
  have hsp : i.isSpecial = false := by
    rw [Bool.eq_false_iff, Ne, isSpecial_iff]
    have hne : i.pat ≠ 0 ∧ i.pat ≠ 2 ^ 255 := by
      rw [← hv] at hpos
      constructor <;> intro h <;> rw [h] at hpos <;> simp [val, significandOf, fracField, expField] at hpos
    have := pat_lt i
    unfold IsFin expField at hf
    unfold INF
    omega
  have hsg : (d.sign == 1) = false := by
    rw [h2, sign_beq, decide_eq_false_iff_not]
    intro hs
    rw [val_ite, hs, decide_eq_true rfl, if_pos rfl] at hv
    have := abs_nonneg (val i.pat)
    linarith
  have hw : 0 < nat256 d.signif10 := by
    rcases Nat.eq_zero_or_pos (nat256 d.signif10) with h | h
    · rw [h, Nat.zero_mul] at h4; omega
    · exact h
  obtain ⟨s, k, g1, g2, g3, g4⟩ := display_int hsg h3 hw
  rw [h4] at g3 g4
  refine ⟨s, k, ?_, g2, g3, g4⟩
  unfold F256.display F256.formatShortest
  rw [hsp, if_neg (by simp), h1]
  exact g1

theorem digits10_add {x : ℝ} {B : ℕ} {r : Rounding} (h : Digits10 x B r) (A : ℕ) : Digits10 (A + x) (A + B) r := by
  have e : (A : ℝ) + x - ((A + B : ℕ) : ℝ) = x - B := by push_cast; ring
  obtain ⟨h1, h2, h3, h4⟩ := h
  refine ⟨by push_cast; linarith, by push_cast; linarith, by rw [e]; exact h3, by rw [e]; exact h4⟩

theorem fixed_digits {g : F256} (hf : IsFin g.pat) (h0 : 0 < val g.pat) {p : ℕ} (hp : p ≤ 75)
    (hint : (∃ z : ℤ, val g.pat = z) → val g.pat < 2 ^ 237) (hC : FixedClear (Int.fract (val g.pat)) p) :
    ∃ int s r k A B, F256.bin2DecFixedPoint g p = (if r = .up ∨ (r = .toEven ∧ endsOdd (rawText int s p)) then
        roundUpFixedPoint (rawText int s p) else some (rawText int s p)) ∧
      FixedText int k A ∧ 0 < k ∧ (k = 1 ∨ 10 ^ (k - 1) ≤ A) ∧ FixedText s p B ∧
      Digits10 (val g.pat * 10 ^ p) (A * 10 ^ p + B) r := by
  have habs : |val g.pat| = val g.pat := abs_of_pos h0
  have hnz : ¬IsZero g.pat := by
    intro h
    rw [← habs, abs_val', significandOf, if_pos h.1, h.2] at h0
    simp at h0
  have hqe := quantumExponent_eq hnz
  have hF : fracField g.pat < 2 ^ 236 := Nat.mod_lt _ (by norm_num)
  have hS : significandOf g.pat < 2 ^ 237 := by unfold significandOf; split <;> omega
  have hsig := integralSignificand_eq g
  have hqe2 : quantumExp g.pat = g.quantumExponent := by
    rw [hqe]
    unfold quantumExp
    split <;> omega
  have hval : val g.pat = significandOf g.pat * (2 : ℝ) ^ g.quantumExponent := by rw [← habs, abs_val', hqe2]
  have hSR : (significandOf g.pat : ℝ) < 2 ^ 237 := by exact_mod_cast hS
  have hS0 : significandOf g.pat ≠ 0 := by
    intro h
    rw [hval, h] at h0
    simp at h0
  have htz : UInt.trailingZeros g.integralSignificand = U128.ctz 256 (significandOf g.pat) := by
    rw [← hsig]; exact trailingZeros256 g.integralSignificand
  obtain ⟨o, o1, o2, -⟩ := ctz_spec 256 (significandOf g.pat) hS0 (hS.trans (by norm_num))
  rw [fixed_code, htz]
  generalize U128.ctz 256 (significandOf g.pat) = tz at *
  by_cases c1 : g.quantumExponent ≥ -(tz : ℤ)
  · -- an integer
    rw [if_pos c1]
    obtain ⟨d, hd⟩ : ∃ d : ℕ, g.quantumExponent = (d : ℤ) - tz := ⟨(g.quantumExponent + tz).toNat, by omega⟩
    have hZ : val g.pat = ((o * 2 ^ d : ℕ) : ℝ) := by
      rw [hval, o1, hd, zpow_sub₀ (by norm_num), zpow_natCast, zpow_natCast]
      push_cast
      field_simp
    have hb := hint ⟨(o * 2 ^ d : ℕ), by rw [hZ]; norm_cast⟩
    rw [hZ] at h0 hb
    have h0' : 0 < o * 2 ^ d := by exact_mod_cast h0
    have hb' : o * 2 ^ d < 2 ^ 237 := by exact_mod_cast hb
    obtain ⟨s, k, g1, g2, g3, g4⟩ := int_text hf h0' hb' hZ
    refine ⟨s, _, .down, k, o * 2 ^ d, 0, by rw [g1]; rfl, g3, g2, Or.inr g4, fixedText_zeroes p, ?_⟩
    rw [hZ, Nat.add_zero]
    have e : ((o * 2 ^ d : ℕ) : ℝ) * 10 ^ p - ((o * 2 ^ d * 10 ^ p : ℕ) : ℝ) = 0 := by push_cast; ring
    refine ⟨by push_cast; exact le_refl _, by push_cast; linarith, ?_, ?_⟩
    · rw [e]; constructor
      · intro h; cases h
      · intro h; norm_num at h
    · rw [e]; constructor
      · intro h; cases h
      · intro h; norm_num at h
  · rw [if_neg c1]
    -- not an integer
    have hni : ∀ z : ℤ, val g.pat ≠ z := by
      intro z hz
      obtain ⟨b, hb⟩ : ∃ b : ℕ, g.quantumExponent = -((tz + (b + 1) : ℕ) : ℤ) := ⟨(-g.quantumExponent - tz - 1).toNat, by omega⟩
      rw [hval, hb, zpow_neg, zpow_natCast, ← div_eq_mul_inv, div_eq_iff (by positivity), o1] at hz
      have hz' : ((o * 2 ^ tz : ℕ) : ℤ) = z * 2 ^ (tz + (b + 1)) := by exact_mod_cast hz
      rw [pow_add, pow_succ] at hz'
      push_cast at hz'
      have h2 : (2 : ℤ) ^ tz ≠ 0 := by positivity
      have : (o : ℤ) = z * 2 ^ b * 2 := by
        apply mul_right_cancel₀ h2
        rw [hz']; ring
      generalize z * 2 ^ b = y at this
      omega
    by_cases c2 : g.quantumExponent < -236
    · rw [if_pos c2]
      have hlt : val g.pat < 1 := by
        have a1 : (2 : ℝ) ^ g.quantumExponent ≤ 2 ^ (-237 : ℤ) := zpow_le_zpow_right₀ (by norm_num) (by omega)
        have a2 : (significandOf g.pat : ℝ) * 2 ^ g.quantumExponent ≤ significandOf g.pat * 2 ^ (-237 : ℤ) :=
          mul_le_mul_of_nonneg_left a1 (Nat.cast_nonneg _)
        have a3 : (significandOf g.pat : ℝ) * 2 ^ (-237 : ℤ) < 2 ^ 237 * 2 ^ (-237 : ℤ) :=
          mul_lt_mul_of_pos_right hSR (by positivity)
        have a4 : (2 : ℝ) ^ 237 * 2 ^ (-237 : ℤ) = 1 := by norm_num
        rw [hval]
        exact lt_of_le_of_lt a2 (lt_of_lt_of_eq a3 a4)
      rw [Int.fract_eq_self.mpr ⟨h0.le, hlt⟩] at hC
      rw [← habs] at h0 hlt hC
      obtain ⟨s, r, B, e1, e2, e3⟩ := fract_digits hf h0 hlt hp hC
      rw [habs] at e3
      refine ⟨[48#8], s, r, 1, 0, B, by rw [e1]; rfl, fixedText_zeroes 1, one_pos, Or.inl rfl, e2, ?_⟩
      rw [Nat.zero_mul, Nat.zero_add]
      exact e3
    · rw [if_neg c2]
      obtain ⟨i, f, -, -, s1, s2, s3, s4, s5, s6, s7⟩ := Props.C23_split g hf
      have hEn : expField g.pat ≠ 0 := by
        intro h; rw [h] at hqe; omega
      have hSl : 2 ^ 236 ≤ significandOf g.pat := by rw [significandOf, if_neg hEn]; omega
      have hSlR : (2 : ℝ) ^ 236 ≤ significandOf g.pat := by exact_mod_cast hSl
      have hge : 1 ≤ val g.pat := by
        have a1 : (2 : ℝ) ^ (-236 : ℤ) ≤ 2 ^ g.quantumExponent := zpow_le_zpow_right₀ (by norm_num) (by omega)
        have a2 := mul_le_mul hSlR a1 (by positivity) (Nat.cast_nonneg _)
        have a3 : (2 : ℝ) ^ 236 * 2 ^ (-236 : ℤ) = 1 := by norm_num
        rw [a3] at a2
        rw [hval]
        exact a2
      have hlt : val g.pat < 2 ^ 237 := by
        have a1 : (2 : ℝ) ^ g.quantumExponent ≤ 2 ^ (0 : ℤ) := zpow_le_zpow_right₀ (by norm_num) (by omega)
        have a2 : (significandOf g.pat : ℝ) * 2 ^ g.quantumExponent ≤ significandOf g.pat * 2 ^ (0 : ℤ) :=
          mul_le_mul_of_nonneg_left a1 (Nat.cast_nonneg _)
        rw [zpow_zero, mul_one] at a2
        rw [hval]
        exact lt_of_le_of_lt a2 hSR
      have htr : val i.pat = ((⌊val g.pat⌋₊ : ℕ) : ℝ) := by
        rw [s4, Props.truncReal, if_pos h0.le, ← Int.natCast_floor_eq_floor h0.le]
        norm_cast
      have hfl1 : 1 ≤ ⌊val g.pat⌋₊ := Nat.le_floor (by rw [Nat.cast_one]; exact hge)
      have hfl2 : ⌊val g.pat⌋₊ < 2 ^ 237 := (Nat.floor_lt h0.le).mpr (by rw [Nat.cast_pow, Nat.cast_ofNat]; exact hlt)
      have hfr : val f.pat = Int.fract (val g.pat) := by
        rw [← Int.self_sub_floor, ← Int.natCast_floor_eq_floor h0.le, Int.cast_natCast, ← htr]
        linarith
      have hf0 : 0 < val f.pat := by
        rw [hfr]
        refine lt_of_le_of_ne (Int.fract_nonneg _) (fun h => ?_)
        have := Int.self_sub_floor (val g.pat)
        rw [← h] at this
        exact hni ⌊val g.pat⌋ (by linarith)
      obtain ⟨int, k, g1, g2, g3, g4⟩ := int_text s2 hfl1 hfl2 htr
      have hfa : |val f.pat| = val f.pat := abs_of_pos hf0
      rw [← hfr, ← hfa] at hC
      obtain ⟨s, r, B, e1, e2, e3⟩ := fract_digits s3 (by rw [hfa]; exact hf0) s6 hp hC
      rw [hfa] at e3
      refine ⟨int, s, r, k, ⌊val g.pat⌋₊, B, ?_, g3, g2, Or.inr g4, e2, ?_⟩
      · rw [s1, Option.bind_some]
        dsimp only
        rw [g1, Option.bind_some, e1]
        rfl
      · have := digits10_add e3 (⌊val g.pat⌋₊ * 10 ^ p)
        have e : val g.pat * 10 ^ p = ((⌊val g.pat⌋₊ * 10 ^ p : ℕ) : ℝ) + val f.pat * 10 ^ p := by
          rw [htr] at s5
          push_cast
          rw [← add_mul, s5]
        rw [e]
        exact this

/-- Rounding half to even -/
theorem digits10_round {x : ℝ} {N : ℕ} {r : Rounding} (h : Digits10 x N r) :
    |((N + (if r = .up ∨ (r = .toEven ∧ N % 2 = 1) then 1 else 0) : ℕ) : ℝ) - x| ≤ 1 / 2 ∧
    (|((N + (if r = .up ∨ (r = .toEven ∧ N % 2 = 1) then 1 else 0) : ℕ) : ℝ) - x| = 1 / 2 →
      (N + (if r = .up ∨ (r = .toEven ∧ N % 2 = 1) then 1 else 0)) % 2 = 0) := by
  obtain ⟨h1, h2, h3, h4⟩ := h
  by_cases hu : r = .up
  · have := h3.mp hu
    rw [if_pos (Or.inl hu)]
    push_cast
    rw [abs_of_pos (by linarith)]
    exact ⟨by linarith, fun h => by linarith⟩
  · have h5 : ¬1 < 2 * (x - N) := fun h => hu (h3.mpr h)
    by_cases ht : r = .toEven
    · have h6 := h4.mp ht
      by_cases ho : N % 2 = 1
      · rw [if_pos (Or.inr ⟨ht, ho⟩)]
        push_cast
        rw [abs_of_pos (by linarith)]
        exact ⟨by linarith, fun _ => by omega⟩
      · rw [if_neg (by rintro (h | h); exacts [hu h, ho h.2])]
        push_cast
        rw [add_zero, abs_of_nonpos (by linarith)]
        exact ⟨by linarith, fun _ => by omega⟩
    · have h6 : 2 * (x - N) ≠ 1 := fun h => ht (h4.mpr h)
      rw [if_neg (by rintro (h | h); exacts [hu h, ht h.1])]
      push_cast
      rw [add_zero, abs_of_nonpos (by linarith)]
      refine ⟨by linarith, fun h => absurd (by linarith) h6⟩

end Verif
