import Verif.Proofs.ScientificText
import Verif.Props.Format
import Verif.Props.ToFixed
import Mathlib.Analysis.SpecialFunctions.Log.Base
import Mathlib.Analysis.SpecialFunctions.Pow.Real

/-!
# C68: scientific formatting with a precision
-/

namespace Verif.Props

open Verif Verif.Spec

/-- The literal `L` is the number `x ≠ 0` rounded to `p + 1` significant digits, half to even, in scientific notation with
the exponent letter `mark`: one digit in front of the point, which is not zero, `p` digits behind it, no point without digits
behind it, an exponent without `+` and without superfluous zeroes; and no number with `p + 1` digits is nearer (`10^e` is
the unit of the leading digit of `x`). -/
structure SciOf (x : ℝ) (p : ℕ) (mark : ℕ) (L : DecLit) : Prop where
  lead : ∃ c, L.ip = [c] ∧ c ≠ 48
  frac : L.fp.length = p
  dot : L.dot = true ↔ 0 < p
  exp : ∃ sg ds, L.exp = some (mark, sg, ds) ∧ (sg = [] ∨ sg = [45]) ∧ (ds.head? = some 48 → ds.length = 1)
  near : ∃ (e : ℤ) (Z : ℕ), (10 : ℝ) ^ e ≤ |x| ∧ |x| < (10 : ℝ) ^ (e + 1) ∧ L.absVal = Z * 10 ^ (e - p) ∧
    |Z - |x| * (10 : ℝ) ^ ((p : ℤ) - e)| ≤ 1 / 2 ∧ (|Z - |x| * (10 : ℝ) ^ ((p : ℤ) - e)| = 1 / 2 → Z % 2 = 0)

theorem sci_lit {c mark : BitVec 8} {b : List (BitVec 8)} {p D : ℕ} (neg : Bool) (E : ℤ) (h : FixedText (c :: b) (p + 1) D)
    (hc : c ≠ 48#8) (hb : b.length = p) (hm : mark = 101#8 ∨ mark = 69#8) :
    ∃ L : DecLit, L.Proper ∧
      L.text = codes ((if neg then [45#8] else []) ++ (c :: (if p > 0 then 46#8 :: b else []) ++ mark :: intText E)) ∧
      L.neg = neg ∧ (∃ c, L.ip = [c] ∧ c ≠ 48) ∧ L.fp.length = p ∧ (L.dot = true ↔ 0 < p) ∧
      (∃ sg ds, L.exp = some (mark.toNat, sg, ds) ∧ (sg = [] ∨ sg = [45]) ∧ (ds.head? = some 48 → ds.length = 1)) ∧
      L.absVal = D * 10 ^ (E - p) := by
  have hEt := natText_spec E.natAbs
  have hEc := natText_canon E.natAbs
  have hmc : mark.toNat = 101 ∨ mark.toNat = 69 := by
    rcases hm with rfl | rfl
    · exact Or.inl rfl
    · exact Or.inr rfl
  have hx : codes (mark :: intText E) = DecLit.expText (some (mark.toNat, if E < 0 then [45] else [], codes (natText E.natAbs))) := by
    rw [codes_cons]
    unfold DecLit.expText intText
    dsimp only
    by_cases h0 : E < 0
    · rw [if_pos h0, if_pos h0]; rfl
    · rw [if_neg h0, if_neg h0]; rfl
  generalize natText E.natAbs = ds at *
  have hexpo : (mkLit neg [c] b (some (mark.toNat, if E < 0 then [45] else [], codes ds))).expo = E := by
    unfold mkLit DecLit.expo
    dsimp only
    rw [Verif.strVal_codes, hEt.val]
    by_cases h0 : E < 0
    · rw [if_pos h0, if_pos rfl]; omega
    · rw [if_neg h0, if_neg (by simp)]; omega
  have hbe : (if b = [] then [] else 46#8 :: b) = (if p > 0 then 46#8 :: b else []) := by
    rcases Nat.eq_zero_or_pos p with hp | hp
    · have : b = [] := List.length_eq_zero_iff.mp (by omega)
      rw [if_pos this, if_neg (by omega)]
    · have : b ≠ [] := by rintro rfl; simp at hb; omega
      rw [if_neg this, if_pos hp]
  refine ⟨mkLit neg [c] b (some (mark.toNat, if E < 0 then [45] else [], codes ds)), ?_, ?_, mkLit_neg _ _ _ _, ⟨c.toNat, rfl, ?_⟩,
    ?_, ?_, ⟨_, _, rfl, ?_, ?_⟩, ?_⟩
  · refine mkLit_proper (by simp) ?_ ?_ ?_
    · exact fun x hx => h.digit x (by rw [List.mem_singleton] at hx; subst hx; simp)
    · exact fun x hx => h.digit x (by simp [hx])
    · intro c sg ds' he
      rw [Option.some_inj, Prod.mk.injEq, Prod.mk.injEq] at he
      obtain ⟨rfl, rfl, rfl⟩ := he
      refine ⟨hmc, ?_, digits_codes.mpr hEt.digit, fun h => hEt.ne (codes_nil_iff.mp h)⟩
      unfold IsSign
      split <;> simp
  · rw [mkLit_text _ [c] b _ _ hx, hbe]
    rfl
  · intro hh
    exact hc (BitVec.toNat_inj.mp hh)
  · rw [show (mkLit neg [c] b (some (mark.toNat, if E < 0 then [45] else [], codes ds))).fp = codes b from rfl, codes_length, hb]
  · rw [show (mkLit neg [c] b (some (mark.toNat, if E < 0 then [45] else [], codes ds))).dot = !b.isEmpty from rfl, ← hb]
    cases b <;> simp
  · by_cases h0 : E < 0
    · rw [if_pos h0]; exact Or.inr rfl
    · rw [if_neg h0]; exact Or.inl rfl
  · intro hh
    rw [codes_length]
    apply hEc
    cases ds with
    | nil => cases hh
    | cons d ds =>
      rw [codes_cons] at hh
      have h' : d.toNat = 48 := Option.some.inj hh
      show some d = some 48#8
      rw [Option.some.injEq, ← BitVec.toNat_inj, h']
      rfl
  · rw [DecLit.absVal, hexpo, show (mkLit neg [c] b (some (mark.toNat, if E < 0 then [45] else [], codes ds))).ip = codes [c] from rfl,
      show (mkLit neg [c] b (some (mark.toNat, if E < 0 then [45] else [], codes ds))).fp = codes b from rfl,
      ← codes_append, Verif.strVal_codes, codes_length, hb, show [c] ++ b = c :: b from rfl, h.val]

/-- Numbers from 1 to `2^512`: significand and exponent -/
theorem mid_range {N : ℕ} (h1 : 1 ≤ |val N|) (h2 : |val N| < 2 ^ 512) :
    2 ^ 236 ≤ significandOf N ∧ significandOf N < 2 ^ 237 ∧ -236 ≤ quantumExp N ∧ quantumExp N ≤ 275 := by
  rw [abs_val'] at h1 h2
  have hfr : fracField N < 2 ^ 236 := by unfold fracField; exact Nat.mod_lt _ (by norm_num)
  have hs2 : significandOf N < 2 ^ 237 := by unfold significandOf; split <;> omega
  have hq : (0 : ℝ) < 2 ^ quantumExp N := by positivity
  have hs2r : (significandOf N : ℝ) < 2 ^ (237 : ℤ) := by
    rw [show (237 : ℤ) = ((237 : ℕ) : ℤ) by norm_num, zpow_natCast]; exact_mod_cast hs2
  have hlow : -236 ≤ quantumExp N := by
    have h3 : (1 : ℝ) < 2 ^ (237 : ℤ) * 2 ^ quantumExp N := lt_of_le_of_lt h1 (mul_lt_mul_of_pos_right hs2r hq)
    rw [← zpow_add₀ (by norm_num), ← zpow_zero (2 : ℝ)] at h3
    have := (zpow_lt_zpow_iff_right₀ (by norm_num : (1 : ℝ) < 2)).mp h3
    omega
  have hs1 : 2 ^ 236 ≤ significandOf N := by
    unfold significandOf
    unfold quantumExp at hlow
    split <;> rename_i he
    · rw [if_pos he] at hlow; omega
    · omega
  refine ⟨hs1, hs2, hlow, ?_⟩
  have hs1r : (2 : ℝ) ^ (236 : ℤ) ≤ significandOf N := by
    rw [show (236 : ℤ) = ((236 : ℕ) : ℤ) by norm_num, zpow_natCast]; exact_mod_cast hs1
  have h3 : (2 : ℝ) ^ (236 : ℤ) * 2 ^ quantumExp N < 2 ^ (512 : ℤ) := by
    refine lt_of_le_of_lt (mul_le_mul_of_nonneg_right hs1r hq.le) ?_
    rw [show (512 : ℤ) = ((512 : ℕ) : ℤ) by norm_num, zpow_natCast]
    exact h2
  rw [← zpow_add₀ (by norm_num)] at h3
  have := (zpow_lt_zpow_iff_right₀ (by norm_num : (1 : ℝ) < 2)).mp h3
  omega

/-- What the code computes for numbers from 1 to `2^512` -/
theorem sci_parts {est : U256 → ℤ → ℤ} {g : F256} (h1 : 1 ≤ |val g.pat|) (h2 : |val g.pat| < 2 ^ 512) {p : ℕ}
    (hp : p ≤ 75) (hest : ∀ m i, (num (n := 1) m : ℝ) * 2 ^ i = |val g.pat| → EstOk |val g.pat| p (est m i)) :
    ∃ (t : U512) (e : ℤ), g.scientificParts est p =
        some ((signifText (natText (u512Nat t)) p e).1, .down, (signifText (natText (u512Nat t)) p e).2) ∧
      EstOk |val g.pat| p e ∧ SciNear (u512Nat t) (|val g.pat| * (10 : ℝ) ^ ((p : ℤ) - e)) := by
  obtain ⟨m0, m1, q0, q1⟩ := mid_range h1 h2
  have hz : ¬IsZero g.pat := by
    rintro ⟨z1, z2⟩
    unfold significandOf at m0
    rw [if_pos z1, z2] at m0
    omega
  have hq : g.quantumExponent = quantumExp g.pat := by
    rw [quantumExponent_eq hz]
    unfold quantumExp
    split <;> omega
  have hs := integralSignificand_eq g
  have hn : num (n := 1) g.integralSignificand = significandOf g.pat := by rw [← nat_num]; exact hs
  have hE := hest g.integralSignificand (quantumExp g.pat) (by rw [hn, abs_val'])
  rw [abs_val'] at hE ⊢
  rw [← hs] at hE ⊢ m0 m1
  unfold F256.scientificParts
  dsimp only
  rw [hq]
  generalize g.integralSignificand = m at *
  generalize quantumExp g.pat = q at *
  by_cases hneg : q ≤ -1
  · obtain ⟨n, rfl⟩ : ∃ n : ℕ, q = -(n : ℤ) := ⟨(-q).toNat, by omega⟩
    rw [if_pos ⟨q0, hneg⟩]
    rw [zpow_neg, zpow_natCast, ← div_eq_mul_inv] at hE ⊢
    obtain ⟨t, t1, t2⟩ := smallFloat_spec (n := n) (by omega) (by omega) m0 m1 hp hE
    rw [t1]
    exact ⟨t, _, rfl, hE, t2⟩
  · obtain ⟨n, rfl⟩ : ∃ n : ℕ, q = (n : ℤ) := ⟨q.toNat, by omega⟩
    rw [if_neg (by omega), if_pos ⟨by omega, q1⟩]
    rw [zpow_natCast] at hE ⊢
    obtain ⟨t, t1, t2⟩ := smallInt_spec (E := n) (by omega) m0 m1 hp hE
    rw [t1]
    exact ⟨t, _, rfl, hE, t2⟩

/-- C68 (partly): `{:.pe}` and `{:.pE}` of a number from 1 to `2^512` with a precision up to the limit of 75 is the number with
`p + 1` significant digits nearest to it, ties to even, provided that the estimate of its exponent, which the code gets from
the logarithm of the platform, is right or near enough (`EstOk`).

Missing: numbers below 1 and from `2^512` on. Below 1 the property is false, see `C68_counterexample`. -/
theorem C68_sci_partial (est : U256 → ℤ → ℤ) (f : F256) (hf : IsFin f.pat) (h1 : 1 ≤ |val f.pat|) (h2 : |val f.pat| < 2 ^ 512)
    {p : ℕ} (hp : p ≤ 75) {mark : BitVec 8} (hm : mark = 101#8 ∨ mark = 69#8)
    (hest : ∀ m i, (num (n := 1) m : ℝ) * 2 ^ i = |val f.pat| → EstOk |val f.pat| p (est m i)) :
    ∃ s L, f.scientificPrecWith est mark p {} = some s ∧ L.Proper ∧ L.text = codes s ∧ (L.neg = true ↔ signBit f.pat = 1) ∧
      SciOf (val f.pat) p mark.toNat L := by
  have hav := C18_abs_val f
  have haa : |val f.abs.pat| = |val f.pat| := by rw [hav, abs_abs]
  have hsp : f.isSpecial = false := by
    rw [Bool.eq_false_iff, Ne, isSpecial_iff]
    obtain ⟨m0, -, -, -⟩ := mid_range h1 h2
    have hlt := pat_lt f
    unfold significandOf at m0
    unfold IsFin at hf
    unfold expField fracField at *
    unfold INF
    split at m0 <;> omega
  obtain ⟨t, e, t1, t2, t3⟩ := sci_parts (est := est) (by rw [haa]; exact h1) (by rw [haa]; exact h2) hp (by rw [haa]; exact hest)
  rw [haa] at t2 t3
  obtain ⟨v1, v2, v3⟩ := sci_value t2 t3
  obtain ⟨c, b, D, E, g1, g2, g3, g4, g5⟩ := signifText_spec e v1 v2
  obtain ⟨k, Z, z1, z2, z3, z4⟩ := v3 D E g5
  obtain ⟨L, l1, l2, l3, l4, l5, l6, l7, l8⟩ := sci_lit (decide (signBit f.pat = 1)) E g2 g3 g4 hm
  refine ⟨_, L, ?_, l1, l2, by rw [l3, decide_eq_true_iff], l4, l5, l6, l7, k, Z, z1, z2, by rw [l8, z3], z4.1, z4.2⟩
  unfold F256.scientificPrecWith F256.formatScientificExact F256.bin2DecScientific
  rw [hsp, if_neg (by simp), if_pos hp, t1, Option.bind_eq_bind, Option.bind_eq_bind, Option.bind_some]
  dsimp only
  rw [if_neg (by simp), g1]
  change some (padIntegral f.isSignPositive ((c :: if p > 0 then 46#8 :: b else []) ++ mark :: intText E) {}) = _
  rw [padIntegral_plain (signPos f)]
  unfold signText
  by_cases hsb : signBit f.pat = 1
  · rw [if_pos hsb, if_pos (decide_eq_true hsb)]
  · rw [if_neg hsb, decide_eq_false hsb]
    rfl

/-- An estimate is good enough for precisions up to 10 if it is the floor of a value which differs from the logarithm by
at most `10^-12` -/
theorem estOk_log {x ℓ : ℝ} (hx : 0 < x) (h : |ℓ - Real.logb 10 x| ≤ 1 / 10 ^ 12) {p : ℕ} (hp : p ≤ 10) : EstOk x p ⌊ℓ⌋ := by
  obtain ⟨d, hd⟩ : ∃ d : ℝ, d = 1 / 10 ^ 12 := ⟨_, rfl⟩
  rw [← hd] at h
  obtain ⟨a1, a2⟩ := abs_le.mp h
  have f1 := Int.floor_le ℓ
  have f2 := Int.lt_floor_add_one ℓ
  generalize ⌊ℓ⌋ = e at *
  have h10 : (1 : ℝ) < 10 := by norm_num
  have hxe : x = (10 : ℝ) ^ Real.logb 10 x := (Real.rpow_logb (by norm_num) (by norm_num) hx).symm
  -- `10^(-δ)` is nearly one
  have hδ : 1 - 3 / 10 ^ 12 ≤ (10 : ℝ) ^ (-d) := by
    rw [Real.rpow_def_of_pos (by norm_num)]
    have hl : Real.log 10 ≤ 3 := by
      rw [Real.log_le_iff_le_exp (by norm_num), show (3 : ℝ) = (6 : ℕ) * (1 / 2) by norm_num, Real.exp_nat_mul]
      have := Real.add_one_le_exp (1 / 2 : ℝ)
      calc (10 : ℝ) ≤ (1 / 2 + 1) ^ 6 := by norm_num
        _ ≤ _ := pow_le_pow_left₀ (by norm_num) this 6
    have := Real.add_one_le_exp (Real.log 10 * -d)
    rw [hd] at this ⊢
    refine le_trans ?_ this
    linarith
  have hδ' : (10 : ℝ) ^ d ≤ 1 + 4 / 10 ^ 12 := by
    have hm : (10 : ℝ) ^ d * (10 : ℝ) ^ (-d) = 1 := by
      rw [← Real.rpow_add (by norm_num), add_neg_cancel, Real.rpow_zero]
    have h0 : (0 : ℝ) < (10 : ℝ) ^ d := Real.rpow_pos_of_pos (by norm_num) _
    generalize (10 : ℝ) ^ d = u at *
    generalize (10 : ℝ) ^ (-d) = v at *
    by_contra hc
    push Not at hc
    have : (1 + 4 / 10 ^ 12) * (1 - 3 / 10 ^ 12) < u * v := by
      calc (1 + 4 / 10 ^ 12 : ℝ) * (1 - 3 / 10 ^ 12) < u * (1 - 3 / 10 ^ 12) := by
            exact mul_lt_mul_of_pos_right hc (by norm_num)
        _ ≤ u * v := mul_le_mul_of_nonneg_left hδ h0.le
    rw [hm] at this
    norm_num at this
  have hp10 : (1 : ℝ) / 10 ^ 10 ≤ (10 : ℝ) ^ (-(p : ℤ)) := by
    rw [zpow_neg, zpow_natCast, ← one_div]
    exact one_div_le_one_div_of_le (by positivity) (pow_le_pow_right₀ (by norm_num) hp)
  have he0 : (0 : ℝ) < 10 ^ e := by positivity
  constructor
  · have h1 : (10 : ℝ) ^ e * (10 : ℝ) ^ (-d) ≤ x := by
      rw [← Real.rpow_intCast, ← Real.rpow_add (by norm_num)]
      conv_rhs => rw [hxe]
      exact (Real.rpow_le_rpow_left_iff h10).mpr (by linarith)
    have h2 : (10 : ℝ) ^ (e - 1 - p) = 10 ^ e * (10 ^ (-(p : ℤ)) / 10) := by
      rw [show e - 1 - (p : ℤ) = e + (-(p : ℤ)) - 1 by ring, zpow_sub_one₀ (by norm_num), zpow_add₀ (by norm_num)]
      ring
    rw [h2]
    generalize (10 : ℝ) ^ e = w at *
    generalize (10 : ℝ) ^ (-(p : ℤ)) = r at *
    have := mul_le_mul_of_nonneg_left hδ he0.le
    have := mul_le_mul_of_nonneg_left hp10 he0.le
    linarith
  · have h1 : x < (10 : ℝ) ^ (e + 1) * (10 : ℝ) ^ d := by
      rw [← Real.rpow_intCast, ← Real.rpow_add (by norm_num)]
      conv_lhs => rw [hxe]
      refine (Real.rpow_lt_rpow_left_iff h10).mpr ?_
      push_cast
      linarith
    have h2 : (10 : ℝ) ^ (e + 1 - p) = 10 ^ (e + 1) * 10 ^ (-(p : ℤ)) := by
      rw [show e + 1 - (p : ℤ) = e + 1 + -(p : ℤ) by ring, zpow_add₀ (by norm_num)]
    rw [h2]
    have he1 : (0 : ℝ) < 10 ^ (e + 1) := by positivity
    generalize (10 : ℝ) ^ (e + 1) = w at *
    generalize (10 : ℝ) ^ (-(p : ℤ)) = r at *
    have := mul_le_mul_of_nonneg_left hδ' he1.le
    have := mul_le_mul_of_nonneg_left hp10 he1.le
    linarith

/-- C68 (partly): up to precision 10 it is enough that the platform computes the logarithm with an error below `10^-12`; a
double has an error of about `10^-13` for these numbers. -/
theorem C68_log_partial (ℓ : U256 → ℤ → ℝ) (f : F256) (hf : IsFin f.pat) (h1 : 1 ≤ |val f.pat|) (h2 : |val f.pat| < 2 ^ 512)
    {p : ℕ} (hp : p ≤ 10) {mark : BitVec 8} (hm : mark = 101#8 ∨ mark = 69#8)
    (hℓ : ∀ m i, (num (n := 1) m : ℝ) * 2 ^ i = |val f.pat| → |ℓ m i - Real.logb 10 (abs (val f.pat))| ≤ 1 / 10 ^ 12) :
    ∃ s L, f.scientificPrecWith (fun m i => ⌊ℓ m i⌋) mark p {} = some s ∧ L.Proper ∧ L.text = codes s ∧
      (L.neg = true ↔ signBit f.pat = 1) ∧ SciOf (val f.pat) p mark.toNat L :=
  C68_sci_partial _ f hf h1 h2 (by omega) hm fun m i h => estOk_log (by linarith) (hℓ m i h) hp

/-- C68: a precision above 75 is a panic, as documented, unless the number is zero, infinite or not a number. -/
theorem C68_limit (est : U256 → ℤ → ℤ) (f : F256) (mark : BitVec 8) {p : ℕ} (hp : 75 < p) :
    f.scientificPrecWith est mark p {} = none ↔ IsFin f.pat ∧ ¬IsZero f.pat := by
  have hlt := pat_lt f
  have hs := isSpecial_iff f
  have hfin : IsFin f.pat ↔ f.pat % 2 ^ 255 < INF := by
    unfold IsFin expField INF
    omega
  rw [hfin, isZero_iff]
  unfold F256.scientificPrecWith F256.formatScientificExact
  by_cases h : f.isSpecial = true
  · rw [if_pos h]
    have h' := hs.mp h
    constructor
    · intro hh
      split at hh
      · cases hh
      · split at hh <;> cases hh
    · intro hh
      omega
  · rw [if_neg h, if_neg (by omega)]
    have h' := hs.not.mp h
    constructor
    · intro _; omega
    · intro _; rfl

/-- C68: zero has `p` zeroes behind the point, at most 75, and exponent 0. -/
theorem C68_zero (est : U256 → ℤ → ℤ) (f : F256) (h : IsZero f.pat) (mark : BitVec 8) (p : ℕ) :
    f.scientificPrecWith est mark p {} = some ((if signBit f.pat = 1 then [45#8] else []) ++
      (48#8 :: (if p = 0 then [] else 46#8 :: List.replicate (Nat.min p 75) 48#8) ++ [mark, 48#8])) := by
  have hz : f.eqZero = true := by
    rw [eqZero_iff]
    unfold IsZero expField fracField at h
    omega
  have hs : f.isSpecial = true := by
    rw [isSpecial_iff]
    unfold IsZero expField fracField at h
    have := pat_lt f
    omega
  unfold F256.scientificPrecWith
  rw [if_pos hs, if_pos hz]
  dsimp only
  rw [padIntegral_plain (signPos f)]
  unfold signText
  have hmin : Nat.min p 75 > 0 ↔ p ≠ 0 := by
    show min p 75 > 0 ↔ _
    omega
  by_cases hp : p = 0
  · subst hp
    rw [if_pos rfl, if_neg (show ¬(Nat.min 0 75 > 0) by decide), if_neg (show ¬(false = true) by decide)]
  · rw [if_neg hp, if_pos (hmin.mpr hp), if_neg (show ¬(false = true) by decide)]

/-- Only the estimate for the significand and exponent of the number matters -/
theorem scientificPrecWith_congr {est est' : U256 → ℤ → ℤ} {f : F256}
    (h : est f.abs.integralSignificand f.abs.quantumExponent = est' f.abs.integralSignificand f.abs.quantumExponent)
    (mark : BitVec 8) (p : ℕ) (o : FormatOptions) : f.scientificPrecWith est mark p o = f.scientificPrecWith est' mark p o := by
  unfold F256.scientificPrecWith F256.formatScientificExact F256.bin2DecScientific F256.scientificParts
  dsimp only
  rw [h]

/-- `12.5` -/
def twelve5 : F256 := ⟨U256.new 0x40002900000000000000000000000000#128 0#128⟩

set_option exponentiation.threshold 2000
example : IsFin twelve5.pat ∧ 1 ≤ |val twelve5.pat| ∧ |val twelve5.pat| < 2 ^ 512 ∧ EstOk |val twelve5.pat| 1 1 ∧
    twelve5.scientificPrecWith (fun _ _ => 1) 101#8 1 {} = some [49#8, 46#8, 50#8, 101#8, 49#8] := by
  have hv : |val twelve5.pat| = 12.5 := by
    rw [abs_val', show significandOf twelve5.pat = 25 * 2 ^ 232 by decide +kernel,
      show quantumExp twelve5.pat = -233 by decide +kernel]
    norm_num
  rw [hv]
  refine ⟨by decide +kernel, by norm_num, by norm_num, ?_, by decide +kernel⟩
  unfold EstOk
  norm_num

/-- `0.25` -/
def quarter : F256 := ⟨U256.new 0x3fffd000000000000000000000000000#128 0#128⟩

/-- `3e-1` -/
def threeTenths : DecLit := ⟨[], [51], false, [], some (101, [45], [49])⟩

/-- The property is false below 1, whatever the estimate: `{:.0e}` of 0.25, half-way between 0.2 and 0.3, is `3e-1`, not
`2e-1`. The test for a tie uses the precision where it needs the number of digits behind the decimal point. -/
theorem C68_counterexample : IsFin quarter.pat ∧ val quarter.pat = 1 / 4 ∧ threeTenths.Proper ∧
    (∀ est, ∃ s, quarter.scientificPrecWith est 101#8 0 {} = some s ∧ threeTenths.text = codes s) ∧
    ¬SciOf (val quarter.pat) 0 101 threeTenths := by
  have hv : val quarter.pat = 1 / 4 := by
    rw [val, show signBit quarter.pat = 0 by decide +kernel, show significandOf quarter.pat = 2 ^ 236 by decide +kernel,
      show quantumExp quarter.pat = -238 by decide +kernel]
    norm_num
  refine ⟨by decide +kernel, hv, ?_, fun est => ⟨[51#8, 101#8, 45#8, 49#8], ?_, by decide⟩, ?_⟩
  · exact ⟨⟨Or.inl rfl, by unfold Digits; decide, by unfold Digits; decide, by decide,
      fun c sg ds h => by cases h; exact ⟨Or.inl rfl, Or.inr (Or.inr rfl), by unfold Digits; decide⟩⟩, Or.inl (by decide), fun c sg ds h => by
        cases h; decide⟩
  · rw [scientificPrecWith_congr (est' := fun _ _ => est quarter.abs.integralSignificand quarter.abs.quantumExponent) rfl]
    generalize est quarter.abs.integralSignificand quarter.abs.quantumExponent = e
    have h1 : ¬((-236 : ℤ) ≤ -238 ∧ (-238 : ℤ) ≤ -1) := by decide
    have h2 : ¬((0 : ℤ) ≤ -238 ∧ (-238 : ℤ) ≤ 275) := by decide
    have hp : F256.scientificParts (fun _ _ => e) quarter.abs 0 = F256.scientificParts (fun _ _ => 0) quarter.abs 0 := by
      unfold F256.scientificParts
      dsimp only
      rw [show quarter.abs.quantumExponent = -238 by decide +kernel, if_neg h1, if_neg h2, if_neg h1, if_neg h2]
    unfold F256.scientificPrecWith F256.formatScientificExact F256.bin2DecScientific
    rw [hp]
    decide +kernel
  · rintro ⟨-, -, -, -, e, Z, e1, e2, e3, -, e5⟩
    rw [hv, show |(1 / 4 : ℝ)| = 1 / 4 by rw [abs_of_pos]; norm_num] at *
    have he : e = -1 := by
      have a1 : (10 : ℝ) ^ e < 10 ^ (0 : ℤ) := lt_of_le_of_lt e1 (by norm_num)
      have a2 : (10 : ℝ) ^ (-1 : ℤ) < 10 ^ (e + 1) := lt_of_le_of_lt (by norm_num) e2
      rw [zpow_lt_zpow_iff_right₀ (by norm_num)] at a1 a2
      omega
    subst he
    have hL : threeTenths.absVal = 3 * 10 ^ (-1 : ℤ) := by
      unfold DecLit.absVal
      rw [show strVal (threeTenths.ip ++ threeTenths.fp) = 3 by decide, show threeTenths.expo = -1 by decide,
        show threeTenths.fp.length = 0 by decide]
      norm_num
    rw [hL] at e3
    have hZ : (Z : ℝ) = 3 := by
      norm_num at e3
      linarith
    have hZ' : Z = 3 := by exact_mod_cast hZ
    subst hZ'
    have := e5 (by norm_num)
    omega

/-- `10 - 2^-60` -/
def near10 : F256 := ⟨U256.new 0x400023ffffffffffffffe00000000000#128 0#128⟩

/-- `9.9999999999999999991e1`, printed for `near10` -/
def near10Text : List (BitVec 8) := [57#8, 46#8] ++ List.replicate 18 57#8 ++ [49#8, 101#8, 49#8]

/-- The same as literal -/
def near10Lit : DecLit := ⟨[], [57], true, List.replicate 18 57 ++ [49], some (101, [], [49])⟩

/-- The property is false if the estimate of the exponent is too large and the precision is large: for `10 - 2^-60` a double
cannot tell the logarithm from 1. If the platform computes 1 then `{:.20e}` prints a number which is nearly ten times too large
(and has one digit less than wanted). -/
theorem C68_counterexample_estimate (est : U256 → ℤ → ℤ)
    (hest : ∀ m i, (num (n := 1) m : ℝ) * 2 ^ i = 10 - 1 / 2 ^ 60 → est m i = 1) :
    IsFin near10.pat ∧ val near10.pat = 10 - 1 / 2 ^ 60 ∧
    near10.scientificPrecWith est 101#8 20 {} = some near10Text ∧ near10Lit.Proper ∧ near10Lit.text = codes near10Text ∧
    9 * val near10.pat < near10Lit.absVal ∧ ¬SciOf (val near10.pat) 20 101 near10Lit := by
  have hv : val near10.pat = 10 - 1 / 2 ^ 60 := by
    rw [val, show signBit near10.pat = 0 by decide +kernel, show significandOf near10.pat = 10 * 2 ^ 233 - 2 ^ 173 by decide +kernel,
      show quantumExp near10.pat = -233 by decide +kernel]
    norm_num
  have hL : near10Lit.absVal = 99999999999999999991 * 10 ^ (-18 : ℤ) := by
    unfold DecLit.absVal
    rw [show strVal (near10Lit.ip ++ near10Lit.fp) = 99999999999999999991 by decide +kernel, show near10Lit.expo = 1 by decide,
      show near10Lit.fp.length = 19 by decide]
    norm_num
  refine ⟨by decide +kernel, hv, ?_, ?_, by decide, ?_, ?_⟩
  · rw [scientificPrecWith_congr (est' := fun _ _ => 1)]
    · decide +kernel
    · refine hest _ _ ?_
      rw [show num (n := 1) near10.abs.integralSignificand = 10 * 2 ^ 233 - 2 ^ 173 by decide +kernel,
        show near10.abs.quantumExponent = -233 by decide +kernel]
      norm_num
  · exact ⟨⟨Or.inl rfl, by unfold Digits; decide, by unfold Digits; decide, by decide,
      fun c sg ds h => by cases h; exact ⟨Or.inl rfl, Or.inl rfl, by unfold Digits; decide⟩⟩, Or.inl (by decide), fun c sg ds h => by
        cases h; decide⟩
  · rw [hv, hL]
    norm_num
  · rintro ⟨-, h, -⟩
    revert h
    decide

/-! ## Padding -/

/-- C66 for `{:e}` and `{:E}` with precision: the options add padding and a sign to the text printed without them -/
theorem C66_exp_prec_partial (est : U256 → ℤ → ℤ) {f : F256} (h : ¬IsNaN f.pat) (m : BitVec 8) (p : ℕ) (o : FormatOptions) :
    PaddedOf f.pat o (f.scientificPrecWith est m p {}) (f.scientificPrecWith est m p o) := by
  unfold F256.scientificPrecWith
  by_cases hs : f.isSpecial = true
  · rw [if_pos hs, if_pos hs, isNan_false h]
    by_cases hz : f.eqZero = true
    · rw [if_pos hz, if_pos hz]
      exact integral_paddedOf f o _
    · rw [if_neg hz, if_neg hz, if_neg (by decide), if_neg (by decide)]
      exact integral_paddedOf f o _
  · rw [if_neg hs, if_neg hs]
    unfold F256.formatScientificExact
    by_cases hp : p ≤ 75
    · rw [if_pos hp, if_pos hp]
      cases F256.bin2DecScientific est (F256.abs f) m p with
      | none => exact Or.inl ⟨rfl, rfl⟩
      | some s => exact integral_paddedOf f o _
    · rw [if_neg hp, if_neg hp]
      exact Or.inl ⟨rfl, rfl⟩

end Verif.Props
