import Verif.Proofs.ToFixedReal
import Verif.Props.ToStr

/-!
# C45: formatting with a precision
-/

namespace Verif.Props

open Verif Verif.Spec

/-- The literal `L` is the number `x` rounded to `p` decimal places, half to even: `p` digits behind the point, no exponent,
no point without digits behind it, no superfluous zero in front, and no number with `p` decimal places is nearer. -/
structure FixedOf (x : ℝ) (p : ℕ) (L : DecLit) : Prop where
  exp : L.exp = none
  frac : L.fp.length = p
  dot : L.dot = true ↔ 0 < p
  int : L.ip ≠ [] ∧ (L.ip.head? = some 48 → L.ip.length = 1)
  near : ∃ Z : ℕ, L.absVal = Z / 10 ^ p ∧ |Z - |x| * 10 ^ p| ≤ 1 / 2 ∧ (|Z - |x| * 10 ^ p| = 1 / 2 → Z % 2 = 0)

theorem fixed_lit {a b : List (BitVec 8)} {k p A B : ℕ} (neg : Bool) (ha : FixedText a k A) (hb : FixedText b p B) (hc : Canon a) :
    (mkLit neg a b none).Proper ∧
    (mkLit neg a b none).text = codes ((if neg then [45#8] else []) ++ (a ++ ((if p > 0 then [46#8] else []) ++ b))) ∧
    (mkLit neg a b none).neg = neg ∧ (mkLit neg a b none).exp = none ∧ (mkLit neg a b none).fp.length = p ∧
    ((mkLit neg a b none).dot = true ↔ 0 < p) ∧
    ((mkLit neg a b none).ip ≠ [] ∧ ((mkLit neg a b none).ip.head? = some 48 → (mkLit neg a b none).ip.length = 1)) ∧
    (mkLit neg a b none).absVal = ((A * 10 ^ p + B : ℕ) : ℝ) / 10 ^ p := by
  refine ⟨mkLit_proper hc.1 ha.digit hb.digit (by simp), ?_, mkLit_neg _ _ _ _, rfl, by
    rw [show (mkLit neg a b none).fp = codes b from rfl, codes_length, hb.len], ?_, ⟨fun h => hc.1 (codes_nil_iff.mp h), ?_⟩, ?_⟩
  · rw [mkLit_text neg a b none [] rfl, List.append_nil]
    congr 3
    rcases Nat.eq_zero_or_pos p with rfl | hp
    · have : b = [] := List.length_eq_zero_iff.mp hb.len
      rw [if_pos this, if_neg (by omega), this]; rfl
    · have : b ≠ [] := by rintro rfl; have := hb.len; simp at this; omega
      rw [if_neg this, if_pos hp]; rfl
  · rw [show (mkLit neg a b none).dot = !b.isEmpty from rfl, ← hb.len]
    cases b <;> simp
  · intro h
    rw [show (mkLit neg a b none).ip = codes a from rfl] at h ⊢
    rw [codes_length]
    apply hc.2
    cases a with
    | nil => cases h
    | cons c a =>
      rw [codes_cons] at h
      have h' : c.toNat = 48 := Option.some.inj h
      show some c = some 48#8
      rw [Option.some.injEq, ← BitVec.toNat_inj, h']
      rfl
  · rw [DecLit.absVal, show (mkLit neg a b none).ip = codes a from rfl, show (mkLit neg a b none).fp = codes b from rfl,
      show (mkLit neg a b none).expo = 0 from rfl, ← codes_append, strVal_codes, codes_length, hb.len, digs_append, decVal_append,
      ha.val, hb.val, digs_length, hb.len, zero_sub, zpow_neg, zpow_natCast]
    rfl

/-- C45 (partly): every finite number which is not an integer of `2^237` or above is formatted with any precision up to the
limit of 75 as the nearest number with that many decimal places, ties to even, provided that the table of powers used is
exact enough for its fraction (`FixedClear`). -/
theorem C45_fixed_partial (f : F256) (hf : IsFin f.pat) {p : ℕ} (hp : p ≤ 75)
    (hint : (∃ z : ℤ, val f.pat = z) → |val f.pat| < 2 ^ 237) (hC : FixedClear (Int.fract |val f.pat|) p) :
    ∃ s L, f.displayPrec p = some s ∧ L.Proper ∧ L.text = codes s ∧ (L.neg = true ↔ signBit f.pat = 1) ∧ FixedOf (val f.pat) p L := by
  have hsg : (if f.isSignPositive then [] else [45#8]) = (if decide (signBit f.pat = 1) then [45#8] else []) := by
    have hsb : signBit f.pat = 0 ∨ signBit f.pat = 1 := by
      have := pat_lt f
      unfold signBit
      omega
    have h1 := (C18_sign_predicates f).1
    rcases hsb with h | h
    · rw [if_pos (h1.mpr h), h]; rfl
    · have : f.isSignPositive = false := by
        rw [Bool.eq_false_iff]; intro hc; have := h1.mp hc; omega
      rw [this, h]; rfl
  by_cases hz : IsZero f.pat
  · -- zero
    have hz0 : f.pat % 2 ^ 255 = 0 := (isZero_iff f.pat).mp hz
    have hsp : f.isSpecial = true := (isSpecial_iff f).mpr (Or.inl hz0)
    have he : f.eqZero = true := (eqZero_iff f).mpr hz0
    have hmin : Nat.min p 75 = p := Nat.min_eq_left hp
    have hv : |val f.pat| = 0 := by rw [abs_val', significandOf, if_pos hz.1, hz.2]; simp
    obtain ⟨l1, l2, l3, l4, l5, l6, l7, l8⟩ := fixed_lit (decide (signBit f.pat = 1)) (fixedText_zeroes 1) (fixedText_zeroes p)
      ⟨by simp, fun _ => by simp⟩
    refine ⟨_, _, ?_, l1, l2, by rw [l3, decide_eq_true_iff], l4, l5, l6, l7, 0, ?_, ?_, fun _ => rfl⟩
    · unfold F256.displayPrec
      rw [hsp, if_pos rfl, he, if_pos rfl, hsg]
      dsimp only
      rw [hmin]
      congr 2
      rcases Nat.eq_zero_or_pos p with rfl | hp0
      · rfl
      · rw [if_pos hp0, if_pos hp0]; rfl
    · rw [l8, Nat.zero_mul, Nat.zero_add]
    · rw [hv]; norm_num
  · have hsp : f.isSpecial = false := by
      rw [Bool.eq_false_iff, Ne, isSpecial_iff]
      have := (isZero_iff f.pat).not.mp hz
      have := pat_lt f
      unfold IsFin expField at hf
      unfold INF
      omega
    have hav := C18_abs_val f
    have habp : f.abs.pat = f.pat % 2 ^ 255 := pat_abs f
    have hfin : IsFin f.abs.pat := by
      unfold IsFin at hf ⊢
      rw [habp, expField_abs]; exact hf
    have h0 : 0 < val f.abs.pat := by
      rw [hav]
      refine lt_of_le_of_ne (abs_nonneg _) (fun h => hz ?_)
      rw [abs_val'] at h
      rcases mul_eq_zero.mp h.symm with h | h
      · have h' : significandOf f.pat = 0 := by exact_mod_cast h
        unfold significandOf at h'
        unfold IsZero
        split at h'
        · exact ⟨‹_›, h'⟩
        · omega
      · exact absurd h (zpow_pos (by norm_num) _).ne'
    rw [← hav] at hC
    obtain ⟨int, s, r, k, A, B, e1, e2, e3, e4, e5, e6⟩ := fixed_digits hfin h0 hp (by
      rintro ⟨z, hz⟩
      rw [hav] at hz ⊢
      apply hint
      rcases abs_choice (val f.pat) with h | h
      · exact ⟨z, by rw [← hz, h]⟩
      · exact ⟨-z, by rw [Int.cast_neg, ← hz, h, neg_neg]⟩) hC
    obtain ⟨t, a, b, A', B', k', t1, t2, t3, t4, t5, t6⟩ := fixed_text r e2 e3 e4 e5
    obtain ⟨l1, l2, l3, l4, l5, l6, l7, l8⟩ := fixed_lit (decide (signBit f.pat = 1)) t3 t5 t4
    have hr := digits10_round e6
    rw [← t6, hav] at hr
    refine ⟨_, _, ?_, l1, l2, by rw [l3, decide_eq_true_iff], l4, l5, l6, l7, _, l8, hr.1, hr.2⟩
    unfold F256.displayPrec F256.formatExact
    rw [hsp, if_neg (by simp), if_pos hp, e1, Option.bind_eq_bind]
    unfold rawText
    rw [t1, Option.bind_some, hsg, ← t2]
    rfl

set_option exponentiation.threshold 2000 in
/-- C45 for precisions up to 18: no condition about the fraction is needed. -/
theorem C45_small (f : F256) (hf : IsFin f.pat) {p : ℕ} (hp : p ≤ 18)
    (hint : (∃ z : ℤ, val f.pat = z) → |val f.pat| < 2 ^ 237) :
    ∃ s L, f.displayPrec p = some s ∧ L.Proper ∧ L.text = codes s ∧ (L.neg = true ↔ signBit f.pat = 1) ∧ FixedOf (val f.pat) p L := by
  refine C45_fixed_partial f hf (by omega) hint ?_
  rcases le_or_gt (1 / 2 ^ 83) (Int.fract |val f.pat|) with h | h
  · exact Or.inl h
  · right
    intro c hc h1
    exfalso
    have h2 : (10 : ℝ) ^ (19 * c) ≤ 10 ^ 19 := pow_le_pow_right₀ (by norm_num) (by omega)
    have h3 : (1 : ℝ) / 2 ^ 83 * 10 ^ 19 < 1 := by norm_num
    have h4 : Int.fract |val f.pat| * 10 ^ (19 * c) ≤ 1 / 2 ^ 83 * 10 ^ 19 :=
      mul_le_mul h.le h2 (by positivity) (by positivity)
    linarith

/-- C45 for the numbers whose fraction is zero or at least `2^-83`, with any precision up to the limit -/
theorem C45_large_fraction (f : F256) (hf : IsFin f.pat) {p : ℕ} (hp : p ≤ 75)
    (h : (∃ z : ℤ, val f.pat = z) ∧ |val f.pat| < 2 ^ 237 ∨ 1 / 2 ^ 83 ≤ Int.fract |val f.pat|) :
    ∃ s L, f.displayPrec p = some s ∧ L.Proper ∧ L.text = codes s ∧ (L.neg = true ↔ signBit f.pat = 1) ∧ FixedOf (val f.pat) p L := by
  rcases h with ⟨⟨z, hz⟩, h2⟩ | h
  · refine C45_fixed_partial f hf hp (fun _ => h2) (Or.inr fun c _ h1 => ?_)
    exfalso
    have : Int.fract |val f.pat| = 0 := by
      rw [hz, ← Int.cast_abs, Int.fract_intCast]
    rw [this] at h1
    norm_num at h1
  · refine C45_fixed_partial f hf hp (fun ⟨z, hz⟩ => ?_) (Or.inl h)
    exfalso
    rw [hz, ← Int.cast_abs, Int.fract_intCast] at h
    norm_num at h

/-- C45: a precision above 75 is a panic, as documented, unless the number is zero, infinite or not a number. -/
theorem C45_limit (f : F256) {p : ℕ} (hp : 75 < p) : f.displayPrec p = none ↔ IsFin f.pat ∧ ¬IsZero f.pat := by
  have hlt := pat_lt f
  have hs := isSpecial_iff f
  have hfin : IsFin f.pat ↔ f.pat % 2 ^ 255 < INF := by
    unfold IsFin expField INF
    omega
  rw [hfin, isZero_iff]
  unfold F256.displayPrec F256.formatExact
  by_cases h : f.isSpecial = true
  · rw [if_pos h]
    have h' := hs.mp h
    constructor
    · intro hh
      split at hh
      · cases hh
      · split at hh <;> cases hh
    · intro hh
      omega
  · rw [if_neg h, if_neg (by omega)]
    have h' := hs.not.mp h
    constructor
    · intro _; omega
    · intro _; rfl

/-- `-2.5`, half-way between `-2` and `-3` -/
def minus25 : F256 := ⟨U256.new 0xc0000400000000000000000000000000#128 0#128⟩

example : IsFin minus25.pat ∧ 1 / 2 ^ 83 ≤ Int.fract |val minus25.pat| ∧ minus25.displayPrec 0 = some [45#8, 50#8] ∧
    minus25.displayPrec 2 = some [45#8, 50#8, 46#8, 53#8, 48#8] := by
  refine ⟨by decide +kernel, ?_, by decide +kernel, by decide +kernel⟩
  rw [abs_val', show significandOf minus25.pat = 5 * 2 ^ 234 by decide +kernel, show quantumExp minus25.pat = -235 by decide +kernel]
  rw [show ((5 * 2 ^ 234 : ℕ) : ℝ) * 2 ^ (-235 : ℤ) = (2 : ℤ) + 1 / 2 by norm_num, Int.fract_intCast_add, Int.fract_eq_self.mpr] <;>
    norm_num

/-- An integer above `2^237` which is not printed exactly: `2^300 + 2^64` -/
def bigInt : F256 := ⟨U256.new 0x4012b000000000000000000000000000#128 1#128⟩

/-- The number read from `1.5e-30` -/
def fifteenE31 : F256 := ⟨U256.new 0x3ff9be6c71fe61a3ef494e3708a6cfbe#128 0x707a74a9d86675fa01e0b22ac8d55460#128⟩

/-- A text of digits as literal -/
def fixedLit (ip fp : List ℕ) : DecLit := ⟨[], ip, !fp.isEmpty, fp, none⟩

/-- The digits printed for `bigInt` -/
def bigIntDigits : List ℕ := [50, 48, 51, 55, 48, 51, 53, 57, 55, 54, 51, 51, 52, 52, 56, 54, 48, 56, 54, 50, 54, 56, 52, 52, 53, 54, 56, 56, 52, 48, 57, 51, 55, 56, 49, 54, 49, 48, 53, 49, 52, 54, 56, 51, 57, 51, 54, 54, 53, 57, 51, 54, 50, 53, 48, 54, 51, 54, 49, 52, 48, 52, 52, 57, 51, 53, 52, 51, 56, 49, 51, 50, 48, 48, 48, 48, 48, 48, 48, 48, 48, 48, 48, 48, 48, 48, 48, 48, 48, 48, 48]

/-- The digits behind the point printed for `fifteenE31` with 38 decimal places -/
def fifteenDigits : List ℕ := [48, 48, 48, 48, 48, 48, 48, 48, 48, 48, 48, 48, 48, 48, 48, 48, 48, 48, 48, 48, 48, 48, 48, 48, 48, 48, 48, 48, 48, 49, 52, 57, 57, 57, 57, 57, 57, 57]

theorem fixedLit_proper {ip fp : List ℕ} (h1 : Digits ip) (h2 : Digits fp) (h0 : ip ≠ []) : (fixedLit ip fp).Proper :=
  ⟨⟨Or.inl rfl, h1, h2, (fun h => by unfold fixedLit at h ⊢; cases fp <;> simp_all), (fun _ _ _ h => by cases h)⟩, Or.inl h0,
    (fun _ _ _ h => by cases h)⟩

set_option exponentiation.threshold 2000 in
/-- C45 fails for large integers: the integer part is printed with the shortest digits only. -/
theorem C45_counterexample_int : IsFin bigInt.pat ∧ ∃ s L, bigInt.displayPrec 0 = some s ∧ L.Proper ∧ L.text = codes s ∧
    ¬FixedOf (val bigInt.pat) 0 L := by
  refine ⟨by decide +kernel, bigIntDigits.map (BitVec.ofNat 8), fixedLit bigIntDigits [], by decide +kernel,
    fixedLit_proper (by unfold Digits bigIntDigits; decide) (by unfold Digits; decide) (by decide), by decide +kernel, fun h => ?_⟩
  obtain ⟨Z, h1, h2, -⟩ := h.near
  have hv : (fixedLit bigIntDigits []).absVal = 2037035976334486086268445688409378161051468393665936250636140449354381320000000000000000000 := by
    unfold DecLit.absVal DecLit.expo fixedLit
    dsimp only
    rw [show strVal (bigIntDigits ++ []) = 2037035976334486086268445688409378161051468393665936250636140449354381320000000000000000000 by decide +kernel]
    norm_num
  rw [hv, pow_zero, div_one] at h1
  rw [← h1, abs_val', show significandOf bigInt.pat = 2 ^ 236 + 1 by decide +kernel,
    show quantumExp bigInt.pat = 64 by decide +kernel] at h2
  norm_num at h2

set_option exponentiation.threshold 2000 in
/-- C45 fails for small fractions: the number read from `1.5e-30` is printed with 38 decimal places as `0.00…0149999999`,
although `0.00…0150000000` is nearer. -/
theorem C45_counterexample_fraction : IsFin fifteenE31.pat ∧ ∃ s L, fifteenE31.displayPrec 38 = some s ∧ L.Proper ∧ L.text = codes s ∧
    ¬FixedOf (val fifteenE31.pat) 38 L := by
  refine ⟨by decide +kernel, 48#8 :: 46#8 :: fifteenDigits.map (BitVec.ofNat 8), fixedLit [48] fifteenDigits, by decide +kernel,
    fixedLit_proper (by unfold Digits; decide) (by unfold Digits fifteenDigits; decide) (by decide), by decide +kernel, fun h => ?_⟩
  obtain ⟨Z, h1, h2, -⟩ := h.near
  have hv : (fixedLit [48] fifteenDigits).absVal = (149999999 : ℕ) / 10 ^ 38 := by
    unfold DecLit.absVal DecLit.expo fixedLit
    dsimp only
    rw [show strVal ([48] ++ fifteenDigits) = 149999999 by decide +kernel, show fifteenDigits.length = 38 by decide]
    norm_num
  rw [hv, div_left_inj' (by norm_num)] at h1
  rw [← h1, abs_val', show significandOf fifteenE31.pat = 209976069579169144739760213803291651073904265365748393896873978215355488 by decide +kernel,
    show quantumExp fifteenE31.pat = -336 by decide +kernel] at h2
  norm_num at h2

end Verif.Props
