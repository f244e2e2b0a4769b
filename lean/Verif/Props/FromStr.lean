import Verif.Proofs.FromStr2
import Verif.Spec.Midpoint

/-!
# C42: decimal literals are rounded correctly
-/

namespace Verif.Props

open Verif Verif.Spec

theorem midClearU {v : ℝ} (h : MidClear v) : MidClearU (v * 2 ^ 262378) := by
  have hK : (0 : ℝ) < 2 ^ 262378 := pow_pos (by norm_num) _
  have cv : ∀ {N : ℕ}, N < 2 ^ 255 → (mag N : ℝ) = val N * 2 ^ 262378 := by
    intro N hN
    rw [val_eq, show signBit N = 0 by unfold signBit; omega, pow_zero, one_mul]
    generalize (2 : ℝ) ^ 262378 = K at *
    field_simp
  have key : ∀ {x : ℝ}, ¬ JustAbove v x → ¬ JustAboveU (v * 2 ^ 262378) (x * 2 ^ 262378) := by
    intro x hx
    generalize (2 : ℝ) ^ 262378 = K at *
    rintro ⟨h1, h2⟩
    refine hx ⟨le_of_mul_le_mul_right h1 hK, lt_of_mul_lt_mul_right ?_ hK.le⟩
    calc v * K < x * K * (1 + 1 / 2 ^ 252) := h2
      _ = _ := by ring
  intro N hN
  by_cases hN1 : N + 1 < INF
  · have := key (h.1 N (by unfold INF at hN1; omega) (by unfold IsFin expField; unfold INF at hN1; omega)
      (by unfold IsFin expField; unfold INF at hN1; omega))
    rw [cv (by unfold INF at hN1; omega), cv (by unfold INF at hN1; omega)]
    rwa [← add_mul, mul_div_right_comm]
  · have hN2 : N + 1 = INF := by omega
    have := key h.2
    rw [hN2, mag_INF, show N = 524285 * 2 ^ 236 + (2 ^ 237 - 1) by unfold INF at hN2; omega,
      mag_asm' (Or.inr (by norm_num)) (by norm_num) le_rfl]
    rw [threshold_eq] at this
    convert this using 1
    rw [Nat.cast_mul, Nat.cast_mul, Nat.cast_pow, Nat.cast_pow, Nat.cast_sub (by norm_num), Nat.cast_pow]
    generalize ((2 : ℕ) : ℝ) ^ 524285 = T
    norm_num
    ring_nf

theorem clearU {v : ℝ} (h : MidClear v) (h' : NumClear v) : ClearU (v * 2 ^ 262378) := by
  have hK : (0 : ℝ) < 2 ^ 262378 := pow_pos (by norm_num) _
  intro N hN
  refine ⟨?_, midClearU h N hN⟩
  have hx := h' N (by unfold INF at hN; omega) (by unfold IsFin expField; unfold INF at hN; omega)
  have e : (mag N : ℝ) = val N * 2 ^ 262378 := by
    rw [val_eq, show signBit N = 0 by unfold signBit; unfold INF at hN; omega, pow_zero, one_mul]
    generalize (2 : ℝ) ^ 262378 = K at *
    field_simp
  rw [e]
  generalize (2 : ℝ) ^ 262378 = K at *
  rintro ⟨h1, h2⟩
  refine hx ⟨le_of_mul_le_mul_right h1 hK, lt_of_mul_lt_mul_right ?_ hK.le⟩
  calc v * K < val N * K * (1 + 1 / 2 ^ 252) := h2
    _ = _ := by ring

/-- The number denoted by a literal -/
noncomputable def value (L : DecLit) : ℝ := if L.neg then -L.absVal else L.absVal

/-- The parts of a literal as seen by the parser -/
theorem lit_body {s : List (BitVec 8)} {L : DecLit} (hL : L.Lenient) (hs : L.text = codes s)
    (hwrap : L.expo.natAbs + L.ip.length + L.fp.length < 2 ^ 31) :
    ∃ sg t a b x neg xs, s = sg ++ t ∧ Body t a b x L.dot neg xs ∧
      ((sg = [] ∧ (if L.neg then 1 else 0) = 0 ∧ t.head? ≠ some 45#8 ∧ t.head? ≠ some 43#8) ∨
      (sg = [43#8] ∧ (if L.neg then 1 else 0) = 0) ∨ (sg = [45#8] ∧ (if L.neg then 1 else 0) = 1)) ∧
      a.length = L.ip.length ∧ b.length = L.fp.length ∧ expVal neg xs = L.expo ∧
      L.absVal = decVal (digs (a ++ b)) * 10 ^ (expVal neg xs - b.length) := by
  obtain ⟨sg, t, a, b, x, neg, xs, rfl, hsg, hsign, hB, ha, hb, hx⟩ := body_of_lenient hL hs
  have hal : a.length = L.ip.length := by rw [← ha, codes_length]
  have hbl : b.length = L.fp.length := by rw [← hb, codes_length]
  have hneg : L.neg = decide (sg = [45#8]) := by
    unfold DecLit.neg
    rw [← hsign]
    rcases hsg with rfl | rfl | rfl <;> decide
  have he : expVal neg xs = L.expo := by
    rcases hx with ⟨h1, rfl⟩ | ⟨c, g, h1, h2, h3⟩
    · have hE := hB.hexp
      rcases hE with ⟨-, hn, hxs⟩ | ⟨c, g, h, -⟩
      · unfold DecLit.expo expVal
        rw [h1, hxs]
        cases neg <;> rfl
      · cases h
    · unfold DecLit.expo at hwrap ⊢
      rw [h1] at hwrap ⊢
      dsimp only at hwrap ⊢
      unfold expVal
      rw [strVal_codes] at *
      by_cases hn : neg = true
      · rw [if_pos (h3.mp hn)] at hwrap ⊢
        rw [if_pos hn, min_eq_left (by omega)]
      · rw [if_neg (fun h => hn (h3.mpr h))] at hwrap ⊢
        rw [if_neg hn, min_eq_left (by omega)]
  refine ⟨sg, t, a, b, x, neg, xs, rfl, hB, ?_, hal, hbl, he, ?_⟩
  · have := hB.sign_cases hsg
    rw [hneg]
    rcases hsg with rfl | rfl | rfl
    · exact Or.inl ⟨rfl, rfl, hB.head⟩
    · exact Or.inr (Or.inl ⟨rfl, rfl⟩)
    · exact Or.inr (Or.inr ⟨rfl, rfl⟩)
  · unfold DecLit.absVal
    rw [he, hbl, ← ha, ← hb, ← codes_append, strVal_codes]

theorem value_isRNE {L : DecLit} {N : ℕ} (h0 : 0 < L.absVal) (h : RoundsTo (L.absVal * 2 ^ 262378) N) :
    IsRNE (value L) ((if L.neg then 1 else 0) * 2 ^ 255 + N) := by
  unfold value
  cases hn : L.neg with
  | false =>
    rw [if_neg (by simp), if_neg (by simp)]
    apply RoundsTo.isRNE _ (by norm_num) (fun _ => rfl) (fun hh => absurd hh (not_lt.mpr h0.le))
    rwa [abs_of_pos h0]
  | true =>
    rw [if_pos rfl, if_pos rfl]
    apply RoundsTo.isRNE _ le_rfl (fun hh => absurd hh (by linarith [h0])) (fun _ => rfl)
    rwa [abs_neg, abs_of_pos h0]

theorem absVal_pos {V : ℕ} {e : ℤ} (h : 0 < (V : ℝ) * 10 ^ e) : V ≠ 0 := by
  rintro rfl
  simp at h

/-- What is left of C42, for literals of any length and exponents of any size: the result is the correctly
rounded one, if the literal's value is not at or just above (by a factor of less than `1 + 2^-252`) a
number or a midpoint between two neighbouring numbers. In the band from `2^-262379` to `10^-78979` (below
about three times the smallest subnormal number) this is only claimed for up to 73 digits, and the exponent and the
number of digits are limited to those which can be handled by the `i32` arithmetic of the parser.

Missing: values close above numbers and midpoints (for most literals used in practice see
`C42_short` and `C42_medium_partial`), where the result is not always the correctly rounded one
(`C42_counterexample_exact`, `C42_counterexample_tie`), and the literals beyond the limits
(`C42_counterexample_wrap`, `C42_counterexample_cutoff`). -/
theorem C42_partial {s : List (BitVec 8)} {L : DecLit} (hL : L.Lenient) (hs : L.text = codes s)
    (h0 : 0 < L.absVal) (hwrap : L.expo.natAbs + L.ip.length + L.fp.length < 2 ^ 31)
    (hm : MidClear L.absVal) (hn : NumClear L.absVal)
    (hcut : L.absVal ≤ 1 / 2 ^ 262379 ∨ (10 : ℝ) ^ (-78979 : ℤ) ≤ L.absVal ∨ L.ip.length + L.fp.length ≤ 73) :
    ∃ f, F256.fromStr s = some (.ok f) ∧ IsRNE (value L) f.pat := by
  obtain ⟨sg, t, a, b, x, neg, xs, rfl, hB, hsg, hal, hbl, he, hv⟩ := lit_body hL hs hwrap
  have hdec : L.absVal * 2 ^ 262378 = decU (decVal (digs (a ++ b))) (expVal neg xs - b.length) := by
    rw [hv]; rfl
  have hc := clearU hm hn
  rw [hdec] at hc
  have hK : (0 : ℝ) < 2 ^ 262378 := pow_pos (by norm_num) _
  obtain ⟨f, N, h1, h2, h3⟩ := fromStr_clear hB hsg (absVal_pos (hv ▸ h0)) (by rw [he, hal, hbl]; exact hwrap) hc
    (by
      rw [← hdec, hal, hbl]
      rcases hcut with h | h | h
      · left
        rw [pow_succ 2 262378] at h
        generalize (2 : ℝ) ^ 262378 = K at *
        calc L.absVal * K ≤ 1 / (K * 2) * K := mul_le_mul_of_nonneg_right h hK.le
          _ = 1 / 2 := by field_simp
      · right; left
        unfold decU
        rw [Nat.cast_one, one_mul]
        exact mul_le_mul_of_nonneg_right h hK.le
      · right; right; exact h)
  rw [← hdec] at h3
  exact ⟨f, h1, by rw [h2]; exact value_isRNE h0 h3⟩

/-- Literals with at most 77 significant digits and a decimal exponent up to `±1024` (of the last
non-zero digit): the result is the correctly rounded one, if the value is not at or just above a midpoint.

Missing: values at or just above a midpoint. -/
theorem C42_medium_partial {s : List (BitVec 8)} {L : DecLit} (hL : L.Lenient) (hs : L.text = codes s)
    (hwrap : L.expo.natAbs + L.ip.length + L.fp.length < 2 ^ 31) {m : ℕ} {j : ℤ}
    (hv : L.absVal = m * 10 ^ j) (hm10 : m % 10 ≠ 0) (hm : m < 10 ^ 77) (hj : j.natAbs ≤ 1024)
    (hmid : MidClear L.absVal) :
    ∃ f, F256.fromStr s = some (.ok f) ∧ IsRNE (value L) f.pat := by
  obtain ⟨sg, t, a, b, x, neg, xs, rfl, hB, hsg, hal, hbl, he, hv'⟩ := lit_body hL hs hwrap
  have h0 : 0 < L.absVal := by
    rw [hv]
    exact mul_pos (Nat.cast_pos.mpr (by omega)) (zpow_pos (by norm_num) _)
  have hdec : L.absVal * 2 ^ 262378 = decU m j := by rw [hv]; rfl
  have hc := midClearU hmid
  rw [hdec] at hc
  obtain ⟨f, N, h1, h2, h3⟩ := fromStr_small hB hsg (absVal_pos (hv' ▸ h0)) (by rw [he, hal, hbl]; exact hwrap)
    (hv'.symm.trans hv) hm10 hm hj (Or.inl hc)
  rw [← hdec] at h3
  exact ⟨f, h1, by rw [h2]; exact value_isRNE h0 h3⟩

/-- Literals for numbers `m * 10^j` with `m < 2^237` (at most 71 significant digits do) and `-102 ≤ j ≤ 102`, however they
are written, are always rounded correctly. -/
theorem C42_short {s : List (BitVec 8)} {L : DecLit} (hL : L.Lenient) (hs : L.text = codes s)
    (hwrap : L.expo.natAbs + L.ip.length + L.fp.length < 2 ^ 31) {m : ℕ} {j : ℤ}
    (hv : L.absVal = m * 10 ^ j) (hm10 : m % 10 ≠ 0) (hm : m < 2 ^ 237) (hj : j.natAbs ≤ 102) :
    ∃ f, F256.fromStr s = some (.ok f) ∧ IsRNE (value L) f.pat := by
  obtain ⟨sg, t, a, b, x, neg, xs, rfl, hB, hsg, hal, hbl, he, hv'⟩ := lit_body hL hs hwrap
  have h0 : 0 < L.absVal := by
    rw [hv]
    exact mul_pos (Nat.cast_pos.mpr (by omega)) (zpow_pos (by norm_num) _)
  have hdec : L.absVal * 2 ^ 262378 = decU m j := by rw [hv]; rfl
  obtain ⟨f, N, h1, h2, h3⟩ := fromStr_small hB hsg (absVal_pos (hv' ▸ h0)) (by rw [he, hal, hbl]; exact hwrap)
    (hv'.symm.trans hv) hm10 (hm.trans (by norm_num)) (by omega) (Or.inr ⟨hm, hj⟩)
  rw [← hdec] at h3
  exact ⟨f, h1, by rw [h2]; exact value_isRNE h0 h3⟩

/-- A literal of value zero gives a zero. Its sign is the literal's sign only if there is an exponent part.

Missing: the sign of literals without exponent (`C42_counterexample_zero`). -/
theorem C42_zero_partial {s : List (BitVec 8)} {L : DecLit} (hL : L.Lenient) (hs : L.text = codes s)
    (h0 : L.absVal = 0) :
    ∃ f, F256.fromStr s = some (.ok f) ∧ IsZero f.pat ∧ f.pat < 2 ^ 256 ∧
      (L.exp ≠ none → (signBit f.pat = 1 ↔ L.neg = true)) ∧ (L.exp = none → signBit f.pat = 0) := by
  obtain ⟨sg, t, a, b, x, neg, xs, rfl, hsg, hsign, hB, ha, hb, hx⟩ := body_of_lenient hL hs
  have hneg : L.neg = decide (sg = [45#8]) := by
    unfold DecLit.neg
    rw [← hsign]
    rcases hsg with rfl | rfl | rfl <;> decide
  have hV : decVal (digs (a ++ b)) = 0 := by
    unfold DecLit.absVal at h0
    rw [← ha, ← hb, ← codes_append, strVal_codes] at h0
    rcases mul_eq_zero.mp h0 with h | h
    · exact_mod_cast h
    · exact absurd h (zpow_ne_zero _ (by norm_num))
  have hz := decVal_zero hV
  have hcases := hB.sign_cases hsg
  have hs1 : (if sg = [45#8] then 1 else 0) ≤ 1 := by split_ifs <;> omega
  have hzero : ∀ g : ℕ, g ≤ 1 → IsZero (g * 2 ^ 255) ∧ g * 2 ^ 255 < 2 ^ 256 ∧ signBit (g * 2 ^ 255) = g := by
    intro g hg
    unfold IsZero expField fracField signBit
    omega
  have fin : ∀ g : ℕ, g ≤ 1 → (L.exp ≠ none → g = if sg = [45#8] then 1 else 0) → (L.exp = none → g = 0) →
      F256.fromStr (sg ++ t) = some (.ok (signedZero g)) → ∃ f, F256.fromStr (sg ++ t) = some (.ok f) ∧
      IsZero f.pat ∧ f.pat < 2 ^ 256 ∧ (L.exp ≠ none → (signBit f.pat = 1 ↔ L.neg = true)) ∧
        (L.exp = none → signBit f.pat = 0) := by
    intro g hg h1 h2 h3
    obtain ⟨z1, z2, z3⟩ := hzero g hg
    refine ⟨_, h3, ?_⟩
    rw [signedZero_pat hg, z3]
    refine ⟨z1, z2, fun hne => ?_, h2⟩
    rw [h1 hne, hneg, decide_eq_true_iff]
    split_ifs with h <;> simp [h]
  obtain ⟨p1, p2⟩ := hB.parse (if sg = [45#8] then 1 else 0)
  have hz0 : U256.isZero (U256.new 0 0) = true := by decide
  by_cases hxe : x = []
  · have he : L.exp = none := by
      rcases hx with ⟨h, -⟩ | ⟨c, g, -, h, -⟩
      · exact h
      · exact absurd hxe h
    refine fin 0 (by omega) (fun h => absurd he h) (fun _ => rfl) ?_
    rw [fromStr_number ((fromStr_eq rfl hB.scan.2.2 hcases).trans (p1 hxe hz))]
    unfold numberToF256
    dsimp only
    rw [if_pos (Or.inl hz0)]
    rfl
  · have he : L.exp ≠ none := by
      rcases hx with ⟨-, h⟩ | ⟨c, g, h, -⟩
      · exact absurd h hxe
      · rw [h]; simp
    refine fin _ hs1 (fun _ => rfl) (fun h => absurd h he) ?_
    obtain ⟨neg', xs', w, tz, -, g2, -, g4⟩ := p2 (fun h => hxe h.1)
    rw [fromStr_number ((fromStr_eq rfl hB.scan.2.2 hcases).trans g4)]
    have hw : nat256 w = 0 := by
      have hd : decVal ((sigDigits (digs (a ++ b))).take 77) = 0 := by
        have : (sigDigits (digs (a ++ b))).take 77 =
            List.replicate ((sigDigits (digs (a ++ b))).take 77).length 0 := by
          rw [List.eq_replicate_iff]
          exact ⟨rfl, fun c hc => hz c (sigDigits_mem (List.mem_of_mem_take hc))⟩
        rw [this, decVal_replicate]
      rw [hd] at g2
      rcases Nat.mul_eq_zero.mp g2 with h | h
      · exact h
      · exact absurd h (by positivity)
    unfold numberToF256
    dsimp only
    rw [if_pos (Or.inl (by rw [isZero256, decide_eq_true hw]))]
    rfl

/-- The conversion never panics: for numbers -/
theorem number_total {s : List (BitVec 8)} {r : DecNumRepr} (hr : FloatRepr.fromStr s = some (.number r)) :
    ∃ f, F256.fromStr s = some (.ok f) := by
  obtain ⟨L, hL, hs⟩ := (C41_number s).mp ⟨r, hr⟩
  obtain ⟨sg, t, a, b, x, neg, xs, rfl, hsg, hsign, hB, ha, hb, hx⟩ := body_of_lenient hL hs
  have hcases := hB.sign_cases hsg
  have hs1 : (if sg = [45#8] then 1 else 0) ≤ 1 := by split_ifs <;> omega
  obtain ⟨d, hd, -⟩ := parseDecimal_spec hB hcases
  have hex : ∃ g, f256Exact (sg ++ t) = some g := ⟨_, by unfold f256Exact; rw [hd]; rfl⟩
  have hdig : ∀ c ∈ digs (a ++ b), c < 10 := by
    rw [digs_append]
    intro c hc
    rcases List.mem_append.mp hc with hc | hc
    · exact digs_lt hB.ha c hc
    · exact digs_lt hB.hb c hc
  obtain ⟨p1, p2⟩ := hB.parse (if sg = [45#8] then 1 else 0)
  by_cases hz : x = [] ∧ ∀ d ∈ digs (a ++ b), d = 0
  · rw [fromStr_number ((fromStr_eq rfl hB.scan.2.2 hcases).trans (p1 hz.1 hz.2))]
    exact ⟨_, rfl⟩
  · obtain ⟨neg', xs', w, tz, -, g2, -, g4⟩ := p2 hz
    rw [fromStr_number ((fromStr_eq rfl hB.scan.2.2 hcases).trans g4)]
    unfold numberToF256
    dsimp only
    have hw77 : nat256 w < 10 ^ 77 := by
      have h1 : decVal ((sigDigits (digs (a ++ b))).take 77) < 10 ^ ((sigDigits (digs (a ++ b))).take 77).length :=
        decVal_lt fun c hc => hdig c (sigDigits_mem (List.mem_of_mem_take hc))
      rw [← g2] at h1
      refine lt_of_le_of_lt (Nat.le_mul_of_pos_right _ (by positivity)) (lt_of_lt_of_le h1 ?_)
      exact Nat.pow_le_pow_right (by norm_num) (by rw [List.length_take]; exact Nat.min_le_left _ _)
    generalize (if sg = [45#8] then 1 else 0) = sign at hs1 ⊢
    split_ifs with h1 h2 h3
    · exact ⟨_, rfl⟩
    · obtain ⟨g, hg⟩ := hex
      exact ⟨g, by rw [hg]; rfl⟩
    · exact ⟨_, rfl⟩
    · have hw0 : nat256 w ≠ 0 := by
        intro h0
        exact h1 (Or.inl (by rw [isZero256, decide_eq_true h0]))
      obtain ⟨g, hg⟩ := fastExact_total (lit := sg ++ t) hs1 hw0 hw77 hex
      exact ⟨g, by rw [hg]; rfl⟩

/-- `from_str` never panics; it is `Ok` exactly for the accepted strings (see `C41_partial`), and the words for
infinity and NaN give them. -/
theorem C41_from_str (s : List (BitVec 8)) :
    F256.fromStr s ≠ none ∧ ((∃ f, F256.fromStr s = some (.ok f)) ↔ Accepted s) ∧
    (F256.fromStr s = some (.error .empty) ↔ s = []) ∧
    (∀ sg, SignedWord (codes s) sg wNan → ∃ f, F256.fromStr s = some (.ok f) ∧ IsNaN f.pat) ∧
    (∀ sg, SignedWord (codes s) sg wInf ∨ SignedWord (codes s) sg wInfinity →
      ∃ f, F256.fromStr s = some (.ok f) ∧ f.pat = (if sg = [45] then 2 ^ 255 else 0) + 524287 * 2 ^ 236) := by
  refine ⟨?_, ?_, ?_, ?_, ?_⟩
  · obtain ⟨ht, -⟩ := C41_total s
    cases hr : FloatRepr.fromStr s with
    | none => exact absurd hr ht
    | some r =>
      cases r with
      | number r =>
        obtain ⟨f, hf⟩ := number_total hr
        rw [hf]; simp
      | _ => unfold F256.fromStr; rw [hr]; simp
  · unfold Accepted
    constructor
    · rintro ⟨f, hf⟩
      cases hr : FloatRepr.fromStr s with
      | none => unfold F256.fromStr at hf; rw [hr] at hf; cases hf
      | some r =>
        refine ⟨r, rfl, ?_, ?_⟩
        · rintro rfl
          unfold F256.fromStr at hf; rw [hr] at hf; cases hf
        · rintro rfl
          unfold F256.fromStr at hf; rw [hr] at hf; cases hf
    · rintro ⟨r, hr, h1, h2⟩
      cases r with
      | empty => exact absurd rfl h1
      | invalid => exact absurd rfl h2
      | number r => exact number_total hr
      | nan => exact ⟨_, by unfold F256.fromStr; rw [hr]⟩
      | inf g => exact ⟨_, by unfold F256.fromStr; rw [hr]⟩
  · obtain ⟨ht, he⟩ := C41_total s
    rw [← he]
    constructor
    · intro hf
      cases hr : FloatRepr.fromStr s with
      | none => exact absurd hr ht
      | some r =>
        cases r with
        | empty => rfl
        | number r =>
          obtain ⟨f, hf'⟩ := number_total hr
          rw [hf'] at hf
          cases hf
        | _ => unfold F256.fromStr at hf; rw [hr] at hf; cases hf
    · intro hr
      unfold F256.fromStr; rw [hr]
  · intro sg h
    exact ⟨_, by unfold F256.fromStr; rw [(C41_nan s).mpr ⟨sg, h⟩], by decide⟩
  · intro sg h
    refine ⟨_, by unfold F256.fromStr; rw [(C41_inf s _).mpr ⟨sg, rfl, h⟩], ?_⟩
    have : ∀ g : ℕ, g ≤ 1 → (signedInf g).pat = g * 2 ^ 255 + INF := fun g hg => signedInf_pat hg
    rw [this _ (by split_ifs <;> omega)]
    unfold INF
    split_ifs <;> omega

/-- An integer literal -/
def intLit (ip : List ℕ) : DecLit := ⟨[], ip, false, [], none⟩

theorem intLit_proper {ip : List ℕ} (h : Digits ip) (h0 : ip ≠ []) : (intLit ip).Proper :=
  ⟨⟨Or.inl rfl, h, by unfold Digits intLit; simp, fun _ => rfl, fun _ _ _ h => by cases h⟩, Or.inl h0,
    fun _ _ _ h => by cases h⟩

theorem intLit_absVal (ip : List ℕ) : (intLit ip).absVal = strVal ip := by
  unfold DecLit.absVal DecLit.expo intLit
  simp

theorem intLit_value (ip : List ℕ) : value (intLit ip) = strVal ip := by
  unfold value
  rw [if_neg (by unfold intLit DecLit.neg; simp), intLit_absVal]

/-- The digits of `2^300` -/
def lit300 : List ℕ := [50, 48, 51, 55, 48, 51, 53, 57, 55, 54, 51, 51, 52, 52, 56, 54, 48, 56, 54, 50, 54, 56, 52, 52, 53, 54, 56, 56, 52, 48, 57, 51, 55, 56, 49, 54, 49, 48, 53, 49, 52, 54, 56, 51, 57, 51, 54, 54, 53, 57, 51, 54, 50, 53, 48, 54, 51, 54, 49, 52, 48, 52, 52, 57, 51, 53, 52, 51, 56, 49, 50, 57, 57, 55, 54, 51, 51, 51, 54, 55, 48, 54, 49, 56, 51, 51, 57, 55, 51, 55, 54]

/-- The digits of `(2^237 + 3) * 2^40` -/
def litTie : List ℕ := [50, 52, 50, 56, 51, 51, 54, 49, 49, 53, 50, 56, 50, 49, 54, 49, 51, 51, 56, 54, 52, 57, 51, 50, 55, 51, 56, 51, 53, 50, 57, 51, 57, 56, 54, 51, 51, 51, 48, 51, 48, 48, 56, 53, 52, 56, 56, 49, 53, 49, 55, 52, 52, 48, 49, 53, 54, 52, 55, 54, 53, 53, 49, 50, 49, 55, 51, 54, 51, 48, 51, 56, 57, 52, 57, 49, 56, 53, 57, 52, 53, 54, 48, 48]

/-- As bytes -/
def bytes (l : List ℕ) : List (BitVec 8) := l.map (BitVec.ofNat 8)

/-- `2^300`, a number of type `f256`, is not parsed exactly: the result is larger by one unit in the last
place. -/
theorem C42_counterexample_exact : ∃ (s : List (BitVec 8)) (L : DecLit) (f : F256), L.Proper ∧ L.text = codes s ∧
    value L = 2 ^ 300 ∧ F256.fromStr s = some (.ok f) ∧ val f.pat = 2 ^ 300 + 2 ^ 64 ∧ ¬ IsRNE (value L) f.pat := by
  have hv : value (intLit lit300) = 2 ^ 300 := by
    rw [intLit_value, show strVal lit300 = 2 ^ 300 by decide +kernel, Nat.cast_pow, Nat.cast_ofNat]
  obtain ⟨f, hf, hp⟩ : ∃ f, F256.fromStr (bytes lit300) = some (.ok f) ∧ f.pat = 262443 * 2 ^ 236 + 1 := by
    refine ⟨⟨U256.new (BitVec.ofNat 128 ((262443 * 2 ^ 236 + 1) / 2 ^ 128))
      (BitVec.ofNat 128 ((262443 * 2 ^ 236 + 1) % 2 ^ 128))⟩, by decide +kernel, by decide +kernel⟩
  have hval : ∀ k : ℕ, k < 2 → val (262443 * 2 ^ 236 + k) = (2 ^ 236 + k) * 2 ^ 64 := by
    intro k hk
    unfold val significandOf quantumExp
    rw [show signBit (262443 * 2 ^ 236 + k) = 0 by unfold signBit; omega,
      show expField (262443 * 2 ^ 236 + k) = 262443 by unfold expField; omega,
      show fracField (262443 * 2 ^ 236 + k) = k by unfold fracField; omega]
    norm_num
  have e300 : (2 : ℝ) ^ 300 = 2 ^ 236 * 2 ^ 64 := by rw [← pow_add]
  have hval1 := hval 1 (by norm_num)
  rw [← hp, Nat.cast_one, add_mul, one_mul, ← e300] at hval1
  refine ⟨bytes lit300, intLit lit300, f, intLit_proper (by unfold Digits; decide) (by decide), by decide, hv, hf,
    hval1, fun h => ?_⟩
  have hlt := abs_val_lt (N := 262443 * 2 ^ 236) (by norm_num) (by unfold IsFin expField; norm_num)
  have h0 : val (262443 * 2 ^ 236) = 2 ^ 300 := by
    have := hval 0 (by norm_num)
    rwa [Nat.cast_zero, Nat.add_zero, add_zero, ← e300] at this
  rw [h0, ← hv] at hlt
  have := h.nearest hlt (262443 * 2 ^ 236) (by norm_num) (by unfold IsFin expField; norm_num)
  rw [h0, hval1, hv, sub_self, abs_zero, add_sub_cancel_left] at this
  norm_num at this

/-- `(2^237 + 3) * 2^40` is in the middle between two numbers. The result is the one with the odd significand. -/
theorem C42_counterexample_tie : ∃ (s : List (BitVec 8)) (L : DecLit) (f : F256), L.Proper ∧ L.text = codes s ∧
    value L = (2 ^ 237 + 3) * 2 ^ 40 ∧ F256.fromStr s = some (.ok f) ∧ val f.pat = (2 ^ 236 + 1) * 2 ^ 41 ∧
    ¬ IsRNE (value L) f.pat := by
  have hv : value (intLit litTie) = (2 ^ 237 + 3) * 2 ^ 40 := by
    rw [intLit_value, show strVal litTie = (2 ^ 237 + 3) * 2 ^ 40 by decide +kernel]
    norm_num
  obtain ⟨f, hf, hp⟩ : ∃ f, F256.fromStr (bytes litTie) = some (.ok f) ∧ f.pat = 262420 * 2 ^ 236 + 1 := by
    refine ⟨⟨U256.new (BitVec.ofNat 128 ((262420 * 2 ^ 236 + 1) / 2 ^ 128))
      (BitVec.ofNat 128 ((262420 * 2 ^ 236 + 1) % 2 ^ 128))⟩, by decide +kernel, by decide +kernel⟩
  have hval : ∀ k : ℕ, k < 3 → val (262420 * 2 ^ 236 + k) = (2 ^ 236 + k) * 2 ^ 41 := by
    intro k hk
    unfold val significandOf quantumExp
    rw [show signBit (262420 * 2 ^ 236 + k) = 0 by unfold signBit; omega,
      show expField (262420 * 2 ^ 236 + k) = 262420 by unfold expField; omega,
      show fracField (262420 * 2 ^ 236 + k) = k by unfold fracField; omega]
    norm_num
  have hval1 := hval 1 (by norm_num)
  rw [← hp, Nat.cast_one] at hval1
  refine ⟨bytes litTie, intLit litTie, f, intLit_proper (by unfold Digits; decide) (by decide), by decide, hv, hf,
    hval1, fun h => ?_⟩
  have h2 := hval 2 (by norm_num)
  have hlt := abs_val_lt (N := 262420 * 2 ^ 236 + 2) (by norm_num) (by unfold IsFin expField; norm_num)
  have := h.even (lt_of_le_of_lt (by rw [h2, hv]; norm_num) hlt) (262420 * 2 ^ 236 + 2) (by norm_num)
    (by unfold IsFin expField; norm_num) (by rw [h2, hval1, hv]; norm_num) (by rw [h2, hval1]; norm_num)
  rw [hp] at this
  omega

/-- `-0` is parsed as positive zero. -/
theorem C42_counterexample_zero : ∃ (s : List (BitVec 8)) (L : DecLit) (f : F256), L.Proper ∧ L.text = codes s ∧
    L.neg = true ∧ L.absVal = 0 ∧ F256.fromStr s = some (.ok f) ∧ signBit f.pat = 0 := by
  refine ⟨[45#8, 48#8], ⟨[45], [48], false, [], none⟩, signedZero 0, ⟨⟨Or.inr (Or.inr rfl), by unfold Digits; decide,
    by unfold Digits; decide, fun _ => rfl, fun _ _ _ h => by cases h⟩, Or.inl (by simp), fun _ _ _ h => by cases h⟩,
    by decide, by decide, ?_, by decide +kernel, by decide⟩
  unfold DecLit.absVal
  rw [show strVal ([48] ++ []) = 0 by decide]
  simp

/-- The arithmetic with exponents overflows: `0.01e-2147483647` is parsed as infinity. -/
theorem C42_counterexample_wrap : ∃ (s : List (BitVec 8)) (L : DecLit) (f : F256), L.Proper ∧ L.text = codes s ∧
    value L < 1 ∧ F256.fromStr s = some (.ok f) ∧ IsInf f.pat ∧ ¬ IsRNE (value L) f.pat := by
  have hd : Digits [50, 49, 52, 55, 52, 56, 51, 54, 52, 55] := by unfold Digits; decide
  have habs : (⟨[], [48], true, [48, 49], some (101, [45], [50, 49, 52, 55, 52, 56, 51, 54, 52, 55])⟩ : DecLit).absVal ≤ 1 / 10 := by
    unfold DecLit.absVal DecLit.expo
    dsimp only
    rw [if_pos rfl, show strVal ([48] ++ [48, 49]) = 1 by decide, show strVal [50, 49, 52, 55, 52, 56, 51, 54, 52, 55] = 2147483647 by decide,
      Nat.cast_one, one_mul]
    calc (10 : ℝ) ^ (-((2147483647 : ℕ) : ℤ) - (([48, 49] : List ℕ).length : ℤ)) ≤ 10 ^ (-1 : ℤ) :=
          zpow_le_zpow_right₀ (by norm_num) (by simp)
      _ = 1 / 10 := by norm_num
  have hnn : 0 ≤ (⟨[], [48], true, [48, 49], some (101, [45], [50, 49, 52, 55, 52, 56, 51, 54, 52, 55])⟩ : DecLit).absVal := by
    unfold DecLit.absVal
    exact mul_nonneg (Nat.cast_nonneg _) (zpow_nonneg (by norm_num) _)
  refine ⟨bytes [48, 46, 48, 49, 101, 45, 50, 49, 52, 55, 52, 56, 51, 54, 52, 55], ⟨[], [48], true, [48, 49], some (101, [45], [50, 49, 52, 55, 52, 56, 51, 54, 52, 55])⟩,
    signedInf 0, ⟨⟨Or.inl rfl, by unfold Digits; decide, by unfold Digits; decide, fun h => (by cases h), ?_⟩,
      Or.inl (by simp), ?_⟩, by decide, ?_, by decide +kernel, by decide, fun h => ?_⟩
  · rintro c sg ds h
    simp only [Option.some.injEq, Prod.mk.injEq] at h
    obtain ⟨rfl, rfl, rfl⟩ := h
    exact ⟨Or.inl rfl, Or.inr (Or.inr rfl), hd⟩
  · rintro c sg ds h
    simp only [Option.some.injEq, Prod.mk.injEq] at h
    obtain ⟨rfl, rfl, rfl⟩ := h
    simp
  · unfold value
    rw [if_neg (by unfold DecLit.neg; simp)]
    linarith
  · have h1 := abs_val_lt (N := 262143 * 2 ^ 236) (by norm_num) (by unfold IsFin expField; norm_num)
    have hone : val (262143 * 2 ^ 236) = 1 := by
      unfold val significandOf quantumExp
      rw [show signBit (262143 * 2 ^ 236) = 0 by decide, show expField (262143 * 2 ^ 236) = 262143 by decide,
        show fracField (262143 * 2 ^ 236) = 0 by decide]
      norm_num
    rw [hone, abs_one] at h1
    have := h.fin (by
      unfold value
      rw [if_neg (by unfold DecLit.neg; simp), abs_of_nonneg hnn]
      linarith)
    revert this
    decide

/-- The literal `11…1e-79057` with 77 digits -/
def litCut : DecLit := ⟨[], List.replicate 77 49, false, [], some (101, [45], [55, 57, 48, 53, 55])⟩

theorem ten_cut : (10 : ℕ) ^ 79057 < strVal (List.replicate 77 49) * 2 ^ 262379 := by decide +kernel

/-- The lower limit of the exponents is too high for long significands: `11…1e-79057` with 77 digits is parsed as zero, although it is
nearer to the smallest positive number. -/
theorem C42_counterexample_cutoff : ∃ (s : List (BitVec 8)) (L : DecLit) (f : F256), L.Proper ∧ L.text = codes s ∧
    0 < value L ∧ F256.fromStr s = some (.ok f) ∧ IsZero f.pat ∧ ¬ IsRNE (value L) f.pat := by
  obtain ⟨q, hq⟩ : ∃ q, value litCut = q := ⟨_, rfl⟩
  have hval : q * (10 : ℝ) ^ 79057 = strVal (List.replicate 77 49) := by
    rw [← hq]
    unfold value DecLit.absVal DecLit.expo litCut
    rw [if_neg (by unfold DecLit.neg; simp)]
    dsimp only
    rw [if_pos rfl, List.append_nil, show strVal [55, 57, 48, 53, 55] = 79057 by decide, List.length_nil, Nat.cast_zero,
      sub_zero, zpow_neg, zpow_natCast, mul_assoc, inv_mul_cancel₀ (pow_ne_zero _ (by norm_num)), mul_one]
  have hT : (0 : ℝ) < 10 ^ 79057 := pow_pos (by norm_num) _
  have hlt : 1 < q * 2 ^ 262379 := by
    have h1 : (((10 : ℕ) ^ 79057 : ℕ) : ℝ) < ((strVal (List.replicate 77 49) * 2 ^ 262379 : ℕ) : ℝ) :=
      Nat.cast_lt.mpr ten_cut
    rw [Nat.cast_mul, Nat.cast_pow, Nat.cast_pow, Nat.cast_ofNat, Nat.cast_ofNat, ← hval] at h1
    generalize (10 : ℝ) ^ 79057 = T at *
    generalize (2 : ℝ) ^ 262379 = K at *
    have : 1 * T < q * K * T := by
      calc 1 * T = T := one_mul T
        _ < q * T * K := h1
        _ = _ := by ring
    exact lt_of_mul_lt_mul_right this hT.le
  have hq0 : 0 < q := by
    have hK : (0 : ℝ) < 2 ^ 262379 := pow_pos (by norm_num) _
    generalize (2 : ℝ) ^ 262379 = K at *
    by_contra h
    have := mul_nonpos_of_nonpos_of_nonneg (not_lt.mp h) hK.le
    linarith
  have hsmall : val 1 * 2 ^ 262378 = 1 := by
    have h1 : signBit 1 = 0 := by decide
    have h2 : mag 1 = 1 := by decide
    rw [val_eq, h1, h2, pow_zero, one_mul, Nat.cast_one, div_mul_cancel₀ _ (pow_ne_zero _ (by norm_num))]
  have hzero : val 0 = 0 := by
    unfold val significandOf
    rw [show expField 0 = 0 by decide, show fracField 0 = 0 by decide]
    simp
  have hq1 : q < 2 := by
    have h1 : strVal (List.replicate 77 49) < 10 ^ 77 := by decide +kernel
    have h2 : ((strVal (List.replicate 77 49) : ℕ) : ℝ) < ((10 ^ 77 : ℕ) : ℝ) := Nat.cast_lt.mpr h1
    rw [← hval, Nat.cast_pow, Nat.cast_ofNat] at h2
    have h3 : (10 : ℝ) ^ 77 ≤ 10 ^ 79057 := pow_le_pow_right₀ (by norm_num) (by norm_num)
    generalize (10 : ℝ) ^ 79057 = T at *
    have : q * T < 1 * T := by rw [one_mul]; linarith
    have := lt_of_mul_lt_mul_right this hT.le
    linarith
  refine ⟨bytes (List.replicate 77 49 ++ [101, 45, 55, 57, 48, 53, 55]), litCut, signedZero 0, ⟨⟨Or.inl rfl,
      by unfold Digits; decide, by unfold Digits litCut; simp, fun _ => rfl, ?_⟩, Or.inl (by decide), ?_⟩, by decide,
      by rw [hq]; exact hq0, by decide +kernel, by decide, fun h => ?_⟩
  · rintro c sg ds h
    simp only [litCut, Option.some.injEq, Prod.mk.injEq] at h
    obtain ⟨rfl, rfl, rfl⟩ := h
    exact ⟨Or.inl rfl, Or.inr (Or.inr rfl), by unfold Digits; decide⟩
  · rintro c sg ds h
    simp only [litCut, Option.some.injEq, Prod.mk.injEq] at h
    obtain ⟨rfl, rfl, rfl⟩ := h
    simp
  · rw [hq] at h
    have h2 := abs_val_lt (N := 262144 * 2 ^ 236) (by norm_num) (by unfold IsFin expField; norm_num)
    have htwo : val (262144 * 2 ^ 236) = 2 := by
      unfold val significandOf quantumExp
      rw [show signBit (262144 * 2 ^ 236) = 0 by decide, show expField (262144 * 2 ^ 236) = 262144 by decide,
        show fracField (262144 * 2 ^ 236) = 0 by decide]
      norm_num
    rw [htwo, abs_two] at h2
    have := h.nearest (by rw [abs_of_pos hq0]; linarith) 1 (by norm_num) (by decide)
    rw [show (signedZero 0).pat = 0 by decide, hzero, zero_sub, abs_neg, abs_of_pos hq0] at this
    rw [pow_succ 2 262378] at hlt
    have hK : (0 : ℝ) < 2 ^ 262378 := pow_pos (by norm_num) _
    generalize (2 : ℝ) ^ 262378 = K at *
    generalize val 1 = u at *
    have hu : u < 2 * q := by
      have : u * K < 2 * q * K := by rw [hsmall]; linarith
      exact lt_of_mul_lt_mul_right this hK.le
    have hu0 : 0 < u := by
      by_contra hc
      have := mul_nonpos_of_nonpos_of_nonneg (not_lt.mp hc) hK.le
      linarith
    have : |u - q| < q := abs_lt.mpr ⟨by linarith, by linarith⟩
    linarith

/-- Real numbers between `k + 1/8` and `k + 3/8` units in the last place are clear of numbers and midpoints. -/
theorem clear_of_quarter {v : ℝ} {t k : ℕ} (hk1 : 2 ^ 236 ≤ k) (hk2 : k < 2 ^ 237) (ht : t ≤ 524284)
    (h1 : ((k : ℝ) + 1 / 8) * 2 ^ t ≤ v * 2 ^ 262378) (h2 : v * 2 ^ 262378 < ((k : ℝ) + 3 / 8) * 2 ^ t) :
    MidClear v ∧ NumClear v := by
  have hK : (0 : ℝ) < 2 ^ 262378 := pow_pos (by norm_num) _
  have hpt : (0 : ℝ) < 2 ^ t := by positivity
  have hkR : (k : ℝ) < 2 ^ 237 := by exact_mod_cast hk2
  have m1 := mag_asm' (t := t) (M := k) (Or.inr hk1) hk2.le (by omega)
  have m2 := mag_asm' (t := t) (M := k + 1) (Or.inr (by omega)) hk2 (by omega)
  have key : ∀ x : ℝ, x * 2 ^ 262378 ≤ k * 2 ^ t ∨ (k + 1 / 2) * 2 ^ t ≤ x * 2 ^ 262378 → ¬ JustAbove v x := by
    rintro x hx ⟨j1, j2⟩
    have j1' := mul_le_mul_of_nonneg_right j1 hK.le
    have j2' := mul_lt_mul_of_pos_right j2 hK
    generalize (2 : ℝ) ^ 262378 = K at *
    rcases hx with hx | hx
    · have e2 : (k : ℝ) * (1 + 1 / 2 ^ 252) ≤ k + 1 / 8 := by
        rw [mul_add, mul_one, mul_one_div]
        have : (k : ℝ) / 2 ^ 252 ≤ 1 / 8 := by
          rw [div_le_iff₀ (by positivity)]
          norm_num at hkR ⊢
          linarith
        linarith
      have : v * K < (k + 1 / 8) * 2 ^ t := by
        calc v * K < x * (1 + 1 / 2 ^ 252) * K := j2'
          _ = (x * K) * (1 + 1 / 2 ^ 252) := by ring
          _ ≤ (k * 2 ^ t) * (1 + 1 / 2 ^ 252) := mul_le_mul_of_nonneg_right hx (by positivity)
          _ = (k * (1 + 1 / 2 ^ 252)) * 2 ^ t := by ring
          _ ≤ _ := mul_le_mul_of_nonneg_right e2 hpt.le
      linarith
    · have : ((k : ℝ) + 3 / 8) * 2 ^ t ≤ (k + 1 / 2) * 2 ^ t :=
        mul_le_mul_of_nonneg_right (by linarith) hpt.le
      linarith
  have cv : ∀ {N : ℕ}, N < 2 ^ 255 → val N * 2 ^ 262378 = (mag N : ℝ) := by
    intro N hN
    rw [val_eq, show signBit N = 0 by unfold signBit; omega, pow_zero, one_mul]
    exact div_mul_cancel₀ _ hK.ne'
  have hfin : ∀ {N : ℕ}, N < 2 ^ 255 → IsFin N → N < INF := by
    intro N hN hf
    unfold IsFin expField at hf
    unfold INF
    omega
  have hlo : ∀ {N : ℕ}, N ≤ t * 2 ^ 236 + k → (mag N : ℝ) ≤ k * 2 ^ t := by
    intro N h
    have := mag_mono h (by unfold INF; omega)
    rw [m1] at this
    exact_mod_cast this
  have hhi : ∀ {N : ℕ}, t * 2 ^ 236 + k < N → N ≤ INF → ((k : ℝ) + 1) * 2 ^ t ≤ mag N := by
    intro N h hN
    have := mag_mono (a := t * 2 ^ 236 + (k + 1)) (by omega) hN
    rw [m2] at this
    exact_mod_cast this
  have hmid : ((k : ℝ) + 1 / 2) * 2 ^ t ≤ ((k : ℝ) + 1) * 2 ^ t :=
    mul_le_mul_of_nonneg_right (by linarith) hpt.le
  refine ⟨⟨?_, ?_⟩, ?_⟩
  · intro N hN hf hf'
    apply key
    rw [div_mul_eq_mul_div, add_mul, cv (by omega), cv hN]
    rcases Nat.lt_or_ge N (t * 2 ^ 236 + k) with h | h
    · left
      have a := hlo h.le
      have b := hlo (show N + 1 ≤ _ by omega)
      linarith
    · right
      have a := hhi (show _ < N + 1 by omega) (hfin hN hf').le
      have b : (k : ℝ) * 2 ^ t ≤ mag N := by
        have := mag_mono h (hfin (by omega) hf).le
        rw [m1] at this
        exact_mod_cast this
      have : ((k : ℝ) + 1 / 2) * 2 ^ t = (k * 2 ^ t + (k + 1) * 2 ^ t) / 2 := by ring
      linarith
  · apply key
    right
    have h3 : (2 : ℝ) ^ (t + 1) ≤ 2 ^ 524285 := pow_le_pow_right₀ (by norm_num) (by omega)
    rw [threshold_eq]
    rw [pow_succ] at h3
    generalize (2 : ℝ) ^ t = T at *
    have h4 : ((k : ℝ) + 1 / 2) * T ≤ 2 ^ 237 * T := by
      apply mul_le_mul_of_nonneg_right _ hpt.le
      have : ((k + 1 : ℕ) : ℝ) ≤ ((2 ^ 237 : ℕ) : ℝ) := Nat.cast_le.mpr hk2
      rw [Nat.cast_add, Nat.cast_one, Nat.cast_pow, Nat.cast_ofNat] at this
      linarith
    refine h4.trans ?_
    calc (2 : ℝ) ^ 237 * T ≤ ((2 ^ 237 - 1 / 2) * 2) * T :=
          mul_le_mul_of_nonneg_right (by norm_num) hpt.le
      _ = (2 ^ 237 - 1 / 2) * (T * 2) := by ring
      _ ≤ _ := mul_le_mul_of_nonneg_left h3 (by norm_num)
  · intro N hN hf
    apply key
    rw [cv hN]
    rcases Nat.lt_or_ge (t * 2 ^ 236 + k) N with h | h
    · right
      exact hmid.trans (hhi h (hfin hN hf).le)
    · left
      exact hlo h

/-- `0.33…3` with 80 digits -/
def litThird : DecLit := ⟨[], [48], true, List.replicate 80 51, none⟩

/-- Non-vacuity of `C42_partial`: a literal with 80 fractional digits, on the slow path. -/
example : ∃ f, F256.fromStr (bytes ([48, 46] ++ List.replicate 80 51)) = some (.ok f) ∧
    IsRNE (value litThird) f.pat := by
  have hV : strVal ([48] ++ List.replicate 80 51) = 33333333333333333333333333333333333333333333333333333333333333333333333333333333 := by decide +kernel
  have hv : litThird.absVal = 33333333333333333333333333333333333333333333333333333333333333333333333333333333 / 10 ^ 80 := by
    unfold DecLit.absVal DecLit.expo litThird
    dsimp only
    rw [hV, List.length_replicate, zero_sub, zpow_neg, zpow_natCast, ← div_eq_mul_inv]
    norm_num
  have hsplit : litThird.absVal * 2 ^ 262378 = 33333333333333333333333333333333333333333333333333333333333333333333333333333333 * 2 ^ 238 / 10 ^ 80 * 2 ^ 262140 := by
    rw [hv, show (262378 : ℕ) = 238 + 262140 by norm_num, pow_add]
    generalize (2 : ℝ) ^ 262140 = T
    ring
  have hT : (0 : ℝ) < 2 ^ 262140 := pow_pos (by norm_num) _
  obtain ⟨hm, hn⟩ := clear_of_quarter (v := litThird.absVal) (t := 262140)
    (k := 147237255398198694131941458395243209652290324739634913176800516774384981) (by norm_num) (by norm_num) (by norm_num)
    (by rw [hsplit]; exact mul_le_mul_of_nonneg_right (by norm_num) hT.le)
    (by rw [hsplit]; exact mul_lt_mul_of_pos_right (by norm_num) hT)
  refine C42_partial ⟨⟨Or.inl rfl, by unfold Digits; decide, by unfold Digits; decide, fun h => (by cases h),
    fun _ _ _ h => by cases h⟩, Or.inl (by decide), fun _ _ _ h => by cases h⟩ (by decide) (by rw [hv]; norm_num)
    (by decide) hm hn (Or.inr (Or.inl ?_))
  rw [hv]
  calc (10 : ℝ) ^ (-78979 : ℤ) ≤ 10 ^ (-1 : ℤ) := zpow_le_zpow_right₀ (by norm_num) (by norm_num)
    _ ≤ _ := by norm_num

/-- `-0.3` -/
def litMinus : DecLit := ⟨[45], [48], true, [51], none⟩

theorem litMinus_absVal : litMinus.absVal = (3 : ℕ) * 10 ^ (-1 : ℤ) := by
  unfold DecLit.absVal DecLit.expo litMinus
  rw [show strVal ([48] ++ [51]) = 3 by decide]
  norm_num

theorem litMinus_proper : litMinus.Proper :=
  ⟨⟨Or.inr (Or.inr rfl), by unfold Digits; decide, by unfold Digits; decide, fun h => (by cases h),
    fun _ _ _ h => by cases h⟩, Or.inl (by decide), fun _ _ _ h => by cases h⟩

/-- Non-vacuity of `C42_short` -/
example : ∃ f, F256.fromStr (bytes [45, 48, 46, 51]) = some (.ok f) ∧ IsRNE (value litMinus) f.pat :=
  C42_short (m := 3) (j := -1) (Lenient.of_proper litMinus_proper) (by decide) (by decide) litMinus_absVal
    (by norm_num) (by norm_num) (by norm_num)

/-- Non-vacuity of `C42_medium_partial` -/
example : ∃ f, F256.fromStr (bytes [45, 48, 46, 51]) = some (.ok f) ∧ IsRNE (value litMinus) f.pat := by
  refine C42_medium_partial (m := 3) (j := -1) (Lenient.of_proper litMinus_proper) (by decide) (by decide)
    litMinus_absVal (by norm_num) (by norm_num) (by norm_num) ?_
  have hv : litMinus.absVal = 3 / 10 := by rw [litMinus_absVal]; norm_num
  have hsplit : litMinus.absVal * 2 ^ 262378 = 3 * 2 ^ 238 / 10 * 2 ^ 262140 := by
    rw [hv, show (262378 : ℕ) = 238 + 262140 by norm_num, pow_add]
    generalize (2 : ℝ) ^ 262140 = T
    ring
  have hT : (0 : ℝ) < 2 ^ 262140 := pow_pos (by norm_num) _
  exact (clear_of_quarter (t := 262140) (k := 132513529858378824718747312555718888687061292265671421859120465096946483) (by norm_num) (by norm_num) (by norm_num)
    (by rw [hsplit]; exact mul_le_mul_of_nonneg_right (by norm_num) hT.le)
    (by rw [hsplit]; exact mul_lt_mul_of_pos_right (by norm_num) hT)).1

/-- Non-vacuity of `C42_zero_partial`: `-0e0` -/
example : ∃ f, F256.fromStr (bytes [45, 48, 101, 48]) = some (.ok f) ∧ signBit f.pat = 1 := by
  obtain ⟨f, h1, -, -, h2, -⟩ := C42_zero_partial (s := bytes [45, 48, 101, 48])
    (L := ⟨[45], [48], false, [], some (101, [], [48])⟩) ⟨⟨Or.inr (Or.inr rfl), by unfold Digits; decide,
      by unfold Digits; decide, fun _ => rfl, by
        rintro c sg ds h
        simp only [Option.some.injEq, Prod.mk.injEq] at h
        obtain ⟨rfl, rfl, rfl⟩ := h
        exact ⟨Or.inl rfl, Or.inl rfl, by unfold Digits; decide⟩⟩, Or.inl (by simp), by
        rintro c sg ds h
        simp only [Option.some.injEq, Prod.mk.injEq] at h
        obtain ⟨rfl, rfl, rfl⟩ := h
        simp⟩ (by decide) (by
        unfold DecLit.absVal
        rw [show strVal ([48] ++ []) = 0 by decide]
        simp)
  exact ⟨f, h1, (h2 (by simp)).mpr (by decide)⟩

end Verif.Props
