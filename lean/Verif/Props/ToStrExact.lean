import Verif.Proofs.ToStrExact
import Verif.Props.ToStr

/-!
# C44 for integers, and C61: numbers read from short literals are printed with the value of the literal
-/

namespace Verif.Props

open Verif Verif.Spec

/-- The two ways of printing with the shortest digits: `{}`, and `{:e}` or `{:E}` -/
def Prints (f : F256) (s : List (BitVec 8)) : Prop :=
  f.display = some s ∨ f.scientific 101#8 = some s ∨ f.scientific 69#8 = some s

theorem prints_text {f : F256} {d : DecRepr} (h : DecRepr.shortestFromF256 f = some d) (hs : f.isSpecial = false) :
    (∃ s, f.display = some s) ∧ (∃ s, f.scientific 101#8 = some s) ∧ (∃ s, f.scientific 69#8 = some s) ∧
    ∀ s, Prints f s → ∃ L, IsText s L d := by
  have disp : ∃ s L, f.display = some s ∧ IsText s L d := by
    obtain ⟨s, L, h3, h4⟩ := display_text d
    refine ⟨s, L, ?_, h4⟩
    unfold F256.display F256.formatShortest
    rw [hs, if_neg (by simp), h]
    exact h3
  have sci : ∀ m : BitVec 8, m = 101#8 ∨ m = 69#8 → ∃ s L, f.scientific m = some s ∧ IsText s L d := by
    intro m hm
    obtain ⟨s, L, h3, h4⟩ := scientific_text d hm
    refine ⟨s, L, ?_, h4⟩
    unfold F256.scientific F256.formatScientificShortest
    rw [hs, if_neg (by simp), h]
    exact h3
  obtain ⟨s1, L1, a1, b1⟩ := disp
  obtain ⟨s2, L2, a2, b2⟩ := sci 101#8 (Or.inl rfl)
  obtain ⟨s3, L3, a3, b3⟩ := sci 69#8 (Or.inr rfl)
  refine ⟨⟨s1, a1⟩, ⟨s2, a2⟩, ⟨s3, a3⟩, fun s hp => ?_⟩
  rcases hp with h | h | h
  · rw [a1] at h; exact ⟨L1, Option.some.inj h ▸ b1⟩
  · rw [a2] at h; exact ⟨L2, Option.some.inj h ▸ b2⟩
  · rw [a3] at h; exact ⟨L3, Option.some.inj h ▸ b3⟩

/-- C44 for the integers below `2^237`, powers of two among them: the text has exactly the value of the number, and is read back. -/
theorem C44_int {f : F256} (hf : IsFin f.pat) {z : ℕ} (h0 : 0 < z) (hz : z < 2 ^ 237) (hv : |val f.pat| = z) :
    (∃ s, f.display = some s) ∧ (∃ s, f.scientific 101#8 = some s) ∧ (∃ s, f.scientific 69#8 = some s) ∧
    ∀ s, Prints f s → ∃ L : DecLit, L.Proper ∧ L.text = codes s ∧ value L = val f.pat ∧ F256.fromStr s = some (.ok f) := by
  obtain ⟨d, h1, -, -, -, h2⟩ := int_exact hf h0 hz hv
  have hsp : f.isSpecial = false := by
    rw [Bool.eq_false_iff, Ne, isSpecial_iff]
    have hne : f.pat ≠ 0 ∧ f.pat ≠ 2 ^ 255 := by
      have hz1 : (0 : ℝ) < z := by exact_mod_cast h0
      rw [← hv] at hz1
      constructor <;> intro h <;> rw [h] at hz1 <;> simp [val, significandOf, fracField, expField] at hz1
    have := pat_lt f
    unfold IsFin expField at hf
    unfold INF
    omega
  obtain ⟨p1, p2, p3, p4⟩ := prints_text h1 hsp
  refine ⟨p1, p2, p3, fun s hp => ?_⟩
  obtain ⟨L, hT⟩ := p4 s hp
  obtain ⟨k1, k2⟩ := h2 s L hT
  exact ⟨L, hT.proper, hT.text, k1, k2⟩

/-- C61: a literal with at most 71 significant digits, of magnitude at most `10^71` and a last digit at `10^-102` or above, is
read as a number whose text, in each format, has exactly the value of the literal, and is read as the same number again. -/
theorem C61_literal {s : List (BitVec 8)} {L : DecLit} (hL : L.Lenient) (hs : L.text = codes s)
    (hwrap : L.expo.natAbs + L.ip.length + L.fp.length < 2 ^ 31) {m : ℕ} {j : ℤ}
    (hv : L.absVal = m * 10 ^ j) (hm10 : m % 10 ≠ 0) (hm : m < 10 ^ 71) (hj : -102 ≤ j) (hu : L.absVal ≤ 10 ^ 71) :
    ∃ f, F256.fromStr s = some (.ok f) ∧
      (∃ s', f.display = some s') ∧ (∃ s', f.scientific 101#8 = some s') ∧ (∃ s', f.scientific 69#8 = some s') ∧
      ∀ s', Prints f s' → ∃ L' : DecLit, L'.Proper ∧ L'.text = codes s' ∧ value L' = value L ∧ F256.fromStr s' = some (.ok f) := by
  obtain ⟨sg, t, a, b, x, neg, xs, rfl, hB, hsg, hal, hbl, he, hv'⟩ := lit_body hL hs hwrap
  have h0 : 0 < L.absVal := by
    rw [hv]
    exact mul_pos (Nat.cast_pos.mpr (by omega)) (zpow_pos (by norm_num) _)
  have hj' : j ≤ 71 := by
    have h1 : (1 : ℝ) ≤ m := by exact_mod_cast (by omega : 1 ≤ m)
    have h2 : (10 : ℝ) ^ j ≤ m * 10 ^ j := le_mul_of_one_le_left (zpow_pos (by norm_num) _).le h1
    have h3 : (10 : ℝ) ^ j ≤ 10 ^ (71 : ℤ) := by
      rw [show (10 : ℝ) ^ (71 : ℤ) = 10 ^ 71 by norm_num]
      linarith
    exact (zpow_le_zpow_iff_right₀ (by norm_num : (1 : ℝ) < 10)).mp h3
  have hm' : m < 2 ^ 237 := hm.trans (by norm_num)
  have hdec : L.absVal * 2 ^ 262378 = decU m j := by rw [hv]; rfl
  obtain ⟨f, N, h1, h2, h3⟩ := fromStr_small hB hsg (absVal_pos (hv' ▸ h0)) (by rw [he, hal, hbl]; exact hwrap)
    (hv'.symm.trans hv) hm10 (hm'.trans (by norm_num)) (by omega) (Or.inr ⟨hm', by omega⟩)
  rw [← hdec] at h3
  have hI : IsRNE (value L) f.pat := by rw [h2]; exact value_isRNE h0 h3
  obtain ⟨d, g1, g2, g3⟩ := literal_exact (s := if L.neg then 1 else 0) h2 (by split_ifs <;> omega) h3 hv hm10 hm hj hu
  have hval : (if (if L.neg = true then 1 else 0) = 1 then -L.absVal else L.absVal) = value L := by
    unfold value
    cases L.neg <;> simp
  rw [hval] at g3
  obtain ⟨p1, p2, p3, p4⟩ := prints_text g1 g2
  refine ⟨f, h1, p1, p2, p3, fun s' hp => ?_⟩
  obtain ⟨L', hT⟩ := p4 s' hp
  obtain ⟨k1, k2⟩ := g3 s' L' hT
  exact ⟨L', hT.proper, hT.text, k1, k2 hI⟩

/-- The integer 12 -/
def twelve : F256 := ⟨U256.new 0x40002800000000000000000000000000#128 0#128⟩

example : IsFin twelve.pat ∧ |val twelve.pat| = (12 : ℕ) ∧ twelve.display = some [49#8, 50#8] := by
  refine ⟨by decide +kernel, ?_, by decide +kernel⟩
  rw [abs_val', show significandOf twelve.pat = 3 * 2 ^ 235 by decide +kernel, show quantumExp twelve.pat = -233 by decide +kernel]
  norm_num

/-- The hypotheses of C61 are met by `12.50`. -/
def lit1250 : DecLit := ⟨[], [49, 50], true, [53, 48], none⟩

example : lit1250.Lenient ∧ lit1250.text = codes [49#8, 50#8, 46#8, 53#8, 48#8] ∧
    lit1250.expo.natAbs + lit1250.ip.length + lit1250.fp.length < 2 ^ 31 ∧ lit1250.absVal = (125 : ℕ) * 10 ^ (-1 : ℤ) ∧
    lit1250.absVal ≤ 10 ^ 71 := by
  have hv : lit1250.absVal = (125 : ℕ) * 10 ^ (-1 : ℤ) := by
    unfold DecLit.absVal DecLit.expo lit1250
    dsimp only
    rw [show strVal ([49, 50] ++ [53, 48]) = 1250 by decide]
    norm_num
  refine ⟨⟨⟨Or.inl rfl, by unfold Digits; decide, by unfold Digits; decide, (fun h => by cases h), (fun _ _ _ h => by cases h)⟩,
    Or.inl (by simp [lit1250]), (fun _ _ _ h => by cases h)⟩, by decide, by decide, hv, ?_⟩
  rw [hv]
  norm_num

end Verif.Props
