import Verif.Proofs.FromStr

/-!
# From the parsed literal to the number
-/

namespace Verif

open Spec Props

theorem decU_shift (w k : ℕ) (e : ℤ) : decU (w * 10 ^ k) e = decU w (e + k) := by
  unfold decU
  rw [zpow_add₀ (by norm_num), zpow_natCast]
  push_cast
  ring

/-- The slow path, for a literal -/
theorem slowOk_of_body {sg t a b x dot neg xs} {sign : ℕ} (h : Body t a b x dot neg xs)
    (hsg : (sg = [] ∧ sign = 0 ∧ t.head? ≠ some 45#8 ∧ t.head? ≠ some 43#8) ∨
      (sg = [43#8] ∧ sign = 0) ∨ (sg = [45#8] ∧ sign = 1))
    (h0 : decVal (digs (a ++ b)) ≠ 0)
    (hdp : (((sigDigits (digs (a ++ b))).length : ℤ) - b.length + expVal neg xs).natAbs ≤ 10 ^ 6)
    (hc : ClearU (decU (decVal (digs (a ++ b))) (expVal neg xs - b.length))) :
    SlowOk (sg ++ t) sign (decU (decVal (digs (a ++ b))) (expVal neg xs - b.length)) := by
  obtain ⟨d, d1, d2, d3, d4, d5⟩ := parseDecimal_spec h hsg
  rw [wrapI32_id (by omega) (by omega)] at d5
  have hs : sign ≤ 1 := by
    rcases hsg with ⟨-, h, -⟩ | ⟨-, h⟩ | ⟨-, h⟩ <;> omega
  have hdig : ∀ c ∈ digs (a ++ b), c < 10 := by
    rw [digs_append]
    intro c hc
    rcases List.mem_append.mp hc with hc | hc
    · exact digs_lt h.ha c hc
    · exact digs_lt h.hb c hc
  have hnear := Decimal.near_of_list (d := d) (full := sigDigits (digs (a ++ b)))
    (fun c hc => hdig c (sigDigits_mem hc)) (sigDigits_lead h0) (by
      rw [d3]
      have := padTake_append ((sigDigits (digs (a ++ b))).take MAX_DIGITS) []
      rw [List.append_nil, List.length_take, Nat.min_comm] at this
      exact this) d4
  rw [decVal_sigDigits, d5,
    show ((sigDigits (digs (a ++ b))).length : ℤ) - b.length + expVal neg xs - (sigDigits (digs (a ++ b))).length =
      expVal neg xs - b.length by ring] at hnear
  obtain ⟨N, n1, n2⟩ := Decimal.exact_spec hnear (by norm_num) (by rw [d2]; exact hs) (by rw [d5]; exact hdp) hc
  rw [d2] at n1
  exact ⟨exactOfDecimal d, N, by unfold f256Exact; rw [d1]; rfl, n1, n2⟩

theorem roundsTo_zero {v : ℝ} (h0 : 0 ≤ v) (h1 : v ≤ 1 / 2) : RoundsTo v 0 := by
  refine ⟨0, 0, ?_, Or.inl rfl, ?_, fun _ => rfl, ?_⟩
  · calc v ≤ 1 / 2 := h1
      _ < 1 := by norm_num
      _ ≤ 2 ^ (237 + 0) := one_le_pow₀ (by norm_num)
  · simp only [Nat.cast_zero, zero_mul, sub_zero, pow_zero]
    rw [abs_of_nonneg h0]; exact h1
  · simp

theorem ten_big : (2 : ℕ) ^ 262144 ≤ 10 ^ 78914 := by decide +kernel

theorem ten_small : (2 : ℕ) ^ 262379 ≤ 10 ^ 78984 := by decide +kernel

theorem decU_one (k : ℕ) : decU 1 (k : ℤ) = (10 : ℝ) ^ k * 2 ^ 262378 := by
  unfold decU
  rw [Nat.cast_one, one_mul, zpow_natCast]

theorem decU_neg (w k : ℕ) : decU w (-(k : ℤ)) * (10 : ℝ) ^ k = w * 2 ^ 262378 := by
  unfold decU
  rw [zpow_neg, zpow_natCast]
  have : (10 : ℝ) ^ k ≠ 0 := pow_ne_zero _ (by norm_num)
  generalize (2 : ℝ) ^ 262378 = K
  field_simp

theorem decU_lt {w w' : ℕ} (h : w < w') (e : ℤ) : decU w e < decU w' e := by
  unfold decU
  have h1 : (w : ℝ) < w' := by exact_mod_cast h
  exact mul_lt_mul_of_pos_right (mul_lt_mul_of_pos_right h1 (zpow_pos (by norm_num) _))
    (pow_pos (by norm_num) _)

theorem decU_exp {e e' : ℤ} (w : ℕ) (h : e ≤ e') : decU w e ≤ decU w e' := by
  unfold decU
  exact mul_le_mul_of_nonneg_right (mul_le_mul_of_nonneg_left
    (zpow_le_zpow_right₀ (by norm_num) h) (Nat.cast_nonneg _)) (pow_pos (by norm_num) _).le

/-- `10^-78984` is less than half of the smallest subnormal number. -/
theorem decU_small : decU 1 (-(78984 : ℕ)) ≤ 1 / 2 := by
  have h := decU_neg 1 78984
  have h1 : ((2 ^ 262379 : ℕ) : ℝ) ≤ ((10 ^ 78984 : ℕ) : ℝ) := Nat.cast_le.mpr ten_small
  rw [Nat.cast_pow, Nat.cast_pow, Nat.cast_ofNat, Nat.cast_ofNat, pow_succ 2 262378] at h1
  rw [Nat.cast_one, one_mul] at h
  have hp : (0 : ℝ) < 10 ^ 78984 := pow_pos (by norm_num) _
  generalize (2 : ℝ) ^ 262378 = K at *
  generalize (10 : ℝ) ^ 78984 = T at *
  rw [← h] at h1
  generalize decU 1 (-((78984 : ℕ) : ℤ)) = d at *
  by_contra hd
  have := mul_lt_mul_of_pos_right (not_le.mp hd) hp
  linarith

theorem roundsTo_inf_of_le {v : ℝ} (h : decU 1 (78914 : ℕ) ≤ v) : RoundsTo v INF := by
  obtain ⟨K, hK⟩ : ∃ K : ℝ, K = 2 ^ 237 * 2 ^ 524286 := ⟨_, rfl⟩
  have hK0 : 0 < K := by rw [hK]; exact mul_pos (pow_pos (by norm_num) _) (pow_pos (by norm_num) _)
  have hge : 1 / 2 ≤ v / K := by
    rw [le_div_iff₀ hK0]
    refine le_trans ?_ h
    have h1 : ((2 ^ 262144 : ℕ) : ℝ) ≤ ((10 ^ 78914 : ℕ) : ℝ) := Nat.cast_le.mpr ten_big
    rw [Nat.cast_pow, Nat.cast_pow, Nat.cast_ofNat, Nat.cast_ofNat] at h1
    have h2 := decU_one 78914
    have h3 : 1 / 2 * K = 2 ^ 262144 * 2 ^ 262378 := by
      rw [hK, ← pow_add, ← pow_add, show (237 + 524286 : ℕ) = (262144 + 262378) + 1 by norm_num]
      generalize (262144 + 262378 : ℕ) = k
      rw [pow_succ]; ring
    rw [h2, h3]
    exact mul_le_mul_of_nonneg_right h1 (pow_nonneg (by norm_num) _)
  have := Decimal.roundsTo_INF hge le_rfl
  rwa [mul_assoc, ← hK, div_mul_cancel₀ _ hK0.ne'] at this

/-- What the parser's number says about the literal's value -/
theorem parsed_bounds {ds : List ℕ} {w tz : ℕ} {e : ℤ} (hdig : ∀ c ∈ ds, c < 10) (h0 : decVal ds ≠ 0)
    (hw : w * 10 ^ tz = decVal ((sigDigits ds).take 77)) :
    w ≠ 0 ∧ w < 10 ^ 77 ∧ tz + ((sigDigits ds).drop 77).length ≤ (sigDigits ds).length ∧ tz ≤ 77 ∧
    w * 10 ^ tz < 10 ^ ((sigDigits ds).take 77).length ∧
    decU w (e + (((sigDigits ds).drop 77).length + tz : ℕ)) ≤ decU (decVal ds) e ∧
    decU (decVal ds) e ≤ decU (w + 1) (e + (((sigDigits ds).drop 77).length + tz : ℕ)) ∧
    ((¬ ∃ d ∈ (sigDigits ds).drop 77, d ≠ 0) →
      decU (decVal ds) e = decU w (e + (((sigDigits ds).drop 77).length + tz : ℕ))) := by
  obtain ⟨D, hD⟩ : ∃ D, sigDigits ds = D := ⟨_, rfl⟩
  have hlead := sigDigits_lead h0
  have hval := decVal_sigDigits ds
  have hdig' : ∀ c ∈ D, c < 10 := fun c hc => hdig c (sigDigits_mem (hD ▸ hc))
  have hfirst : D.head? ≠ some 0 := by
    obtain ⟨-, -, h⟩ := sigDigits_zeroes ds
    rwa [hD] at h
  rw [hD] at hlead hval hw ⊢
  have hsplit := decVal_append (D.take 77) (D.drop 77)
  rw [List.take_append_drop, hval, ← hw] at hsplit
  have hdrop : decVal (D.drop 77) < 10 ^ (D.drop 77).length :=
    decVal_lt fun c hc => hdig' c (List.mem_of_mem_drop hc)
  have htake : decVal (D.take 77) < 10 ^ (D.take 77).length :=
    decVal_lt fun c hc => hdig' c (List.mem_of_mem_take hc)
  rw [← hw] at htake
  have hlen77 : (D.take 77).length ≤ 77 := by rw [List.length_take]; exact Nat.min_le_left _ _
  have hw0 : w ≠ 0 := by
    rintro rfl
    rw [Nat.zero_mul] at hw
    have hz := decVal_zero hw.symm
    cases hDc : D with
    | nil => rw [hDc] at hval; exact h0 hval.symm
    | cons d D' =>
      rw [hDc] at hz hfirst
      have := hz d (by simp)
      exact hfirst (by rw [this]; rfl)
  have htz : 10 ^ tz < 10 ^ (D.take 77).length :=
    lt_of_le_of_lt (Nat.le_mul_of_pos_left _ (Nat.pos_of_ne_zero hw0)) htake
  have htz' : tz < (D.take 77).length := (Nat.pow_lt_pow_iff_right (by norm_num)).mp htz
  have hw77 : w < 10 ^ 77 :=
    lt_of_le_of_lt (Nat.le_mul_of_pos_right _ (by positivity)) (lt_of_lt_of_le htake
      (Nat.pow_le_pow_right (by norm_num) hlen77))
  have hlen : (D.take 77).length + (D.drop 77).length = D.length := by
    rw [← List.length_append, List.take_append_drop]
  generalize (D.drop 77).length = dl at *
  have hp : w * 10 ^ tz * 10 ^ dl = w * 10 ^ (dl + tz) := by rw [pow_add]; ring
  rw [hp] at hsplit
  refine ⟨hw0, hw77, by omega, by omega, htake, ?_, ?_, ?_⟩
  · rw [← decU_shift]
    exact decU_mono (by omega) e
  · rw [← decU_shift]
    apply decU_mono
    have : 10 ^ dl ≤ 10 ^ (dl + tz) := Nat.pow_le_pow_right (by norm_num) (by omega)
    rw [hsplit, Nat.add_mul, Nat.one_mul]
    omega
  · intro hno
    rw [← decU_shift, hsplit]
    have : decVal (D.drop 77) = 0 := by
      have hz : D.drop 77 = List.replicate (D.drop 77).length 0 := by
        rw [List.eq_replicate_iff]
        refine ⟨rfl, fun d hd => ?_⟩
        by_contra hd0
        exact hno ⟨d, hd, hd0⟩
      rw [hz, decVal_replicate]
    rw [this, Nat.add_zero]

theorem fromStr_number {s : List (BitVec 8)} {r : DecNumRepr} (h : FloatRepr.fromStr s = some (.number r)) :
    F256.fromStr s = (numberToF256 s r).map .ok := by
  unfold F256.fromStr
  rw [h]

/-- The number handed to the conversion -/
theorem fromStr_body {sg t a b x dot neg xs} {sign : ℕ} (h : Body t a b x dot neg xs)
    (hsg : (sg = [] ∧ sign = 0 ∧ t.head? ≠ some 45#8 ∧ t.head? ≠ some 43#8) ∨
      (sg = [43#8] ∧ sign = 0) ∨ (sg = [45#8] ∧ sign = 1))
    (h0 : decVal (digs (a ++ b)) ≠ 0)
    (hwrap : (expVal neg xs).natAbs + a.length + b.length < 2 ^ 31) :
    ∃ (w : U256) (tz : ℕ), nat256 w * 10 ^ tz = decVal ((sigDigits (digs (a ++ b))).take 77) ∧
      nat256 w % 10 ≠ 0 ∧ F256.fromStr (sg ++ t) = (numberToF256 (sg ++ t) {
        sign := sign
        exponent := expVal neg xs - b.length + (((sigDigits (digs (a ++ b))).drop 77).length + tz : ℕ)
        significand := w
        signifTruncated := decide (∃ d ∈ (sigDigits (digs (a ++ b))).drop 77, d ≠ 0) }).map .ok := by
  have hdig : ∀ c ∈ digs (a ++ b), c < 10 := by
    rw [digs_append]
    intro c hc
    rcases List.mem_append.mp hc with hc | hc
    · exact digs_lt h.ha c hc
    · exact digs_lt h.hb c hc
  have hne : ¬ (x = [] ∧ ∀ d ∈ digs (a ++ b), d = 0) := by
    rintro ⟨-, hz⟩
    apply h0
    have : digs (a ++ b) = List.replicate (digs (a ++ b)).length 0 := by
      rw [List.eq_replicate_iff]
      exact ⟨rfl, hz⟩
    rw [this, decVal_replicate]
  obtain ⟨neg', xs', w, tz, g1, g2, g3, g4⟩ := (h.parse sign).2 hne
  obtain ⟨rfl, rfl⟩ := ExpForm.unique h.hexp g1
  obtain ⟨p1, p2, p3, p4, -⟩ := parsed_bounds (e := 0) hdig h0 g2
  have hlen : (sigDigits (digs (a ++ b))).length ≤ a.length + b.length := by
    have := (List.dropWhile_sublist (l := digs (a ++ b)) (fun d => d == 0)).length_le
    rw [digs_length, List.length_append] at this
    exact this
  rw [wrapI32_id (by omega) (by omega)] at g4
  refine ⟨w, tz, g2, g3.resolve_left p1, ?_⟩
  have ht : t ≠ [] := h.scan.2.2
  rw [fromStr_number ((fromStr_eq rfl ht hsg).trans g4)]
  congr 2
  push_cast
  rw [DecNumRepr.mk.injEq]
  refine ⟨rfl, ?_, rfl, rfl⟩
  ring

/-- Literals away from numbers and midpoints -/
theorem fromStr_clear {sg t a b x dot neg xs} {sign : ℕ} (h : Body t a b x dot neg xs)
    (hsg : (sg = [] ∧ sign = 0 ∧ t.head? ≠ some 45#8 ∧ t.head? ≠ some 43#8) ∨
      (sg = [43#8] ∧ sign = 0) ∨ (sg = [45#8] ∧ sign = 1))
    (h0 : decVal (digs (a ++ b)) ≠ 0)
    (hwrap : (expVal neg xs).natAbs + a.length + b.length < 2 ^ 31)
    (hc : ClearU (decU (decVal (digs (a ++ b))) (expVal neg xs - b.length)))
    (hcut : decU (decVal (digs (a ++ b))) (expVal neg xs - b.length) ≤ 1 / 2 ∨
      decU 1 (-78979) ≤ decU (decVal (digs (a ++ b))) (expVal neg xs - b.length) ∨
      a.length + b.length ≤ 73) :
    ∃ f N, F256.fromStr (sg ++ t) = some (.ok f) ∧ f.pat = sign * 2 ^ 255 + N ∧
      RoundsTo (decU (decVal (digs (a ++ b))) (expVal neg xs - b.length)) N := by
  have hs : sign ≤ 1 := by
    rcases hsg with ⟨-, h, -⟩ | ⟨-, h⟩ | ⟨-, h⟩ <;> omega
  have hdig : ∀ c ∈ digs (a ++ b), c < 10 := by
    rw [digs_append]
    intro c hc
    rcases List.mem_append.mp hc with hc | hc
    · exact digs_lt h.ha c hc
    · exact digs_lt h.hb c hc
  have hlen : (sigDigits (digs (a ++ b))).length ≤ a.length + b.length := by
    have := (List.dropWhile_sublist (l := digs (a ++ b)) (fun d => d == 0)).length_le
    rw [digs_length, List.length_append] at this
    exact this
  obtain ⟨w, tz, g1, g2, g3⟩ := fromStr_body h hsg h0 hwrap
  obtain ⟨p1, p2, p3, p4, p5, p6, p7, p8⟩ := parsed_bounds (e := expVal neg xs - b.length) hdig h0 g1
  have hdl : (sigDigits (digs (a ++ b))).length =
      ((sigDigits (digs (a ++ b))).take 77).length + ((sigDigits (digs (a ++ b))).drop 77).length := by
    rw [← List.length_append, List.take_append_drop]
  have hslow := slowOk_of_body h hsg h0
  rw [g3]
  have hl77 : ((sigDigits (digs (a ++ b))).take 77).length ≤ 77 := by
    rw [List.length_take]; exact Nat.min_le_left _ _
  obtain ⟨v, hv⟩ : ∃ v, decU (decVal (digs (a ++ b))) (expVal neg xs - b.length) = v := ⟨_, rfl⟩
  have hvpos : 0 < v := by rw [← hv]; exact decU_pos h0 _
  obtain ⟨E, hE⟩ : ∃ E : ℤ, expVal neg xs - b.length +
      (((sigDigits (digs (a ++ b))).drop 77).length + tz : ℕ) = E := ⟨_, rfl⟩
  rw [hE] at p6 p7 p8 ⊢
  rw [hv] at hc hcut hslow p6 p7 p8 ⊢
  have fin : ∀ g N, g.pat = sign * 2 ^ 255 + N → RoundsTo v N →
      ∀ {o : Option F256}, o = some g → ∃ f N, o.map (Except.ok (ε := ParseError)) = some (.ok f) ∧
        f.pat = sign * 2 ^ 255 + N ∧ RoundsTo v N := by
    intro g N h1 h2 o ho
    exact ⟨g, N, by rw [ho]; rfl, h1, h2⟩
  have hz : U256.isZero w = false := by rw [isZero256, decide_eq_false p1]
  unfold numberToF256 MIN_10_EXP_CUTOFF MIN_GT_ZERO_10_EXP MAX_10_EXP
  dsimp only
  by_cases c1 : E < -79056
  · -- below the cutoff
    rw [if_pos (Or.inr c1)]
    refine fin _ 0 (by rw [signedZero_pat hs, Nat.add_zero]) (roundsTo_zero hvpos.le ?_) rfl
    rcases hcut with hcut | hcut | hcut
    · exact hcut
    · exfalso
      have q1 : decU (nat256 w + 1) E ≤ decU (10 ^ 77) (-79057) :=
        (decU_mono (by omega) E).trans (decU_exp _ (by omega))
      have q2 : decU (10 ^ 77) (-79057) = decU 1 (-78980) := by
        have := decU_shift 1 77 (-79057)
        rw [Nat.one_mul] at this
        rw [this]; congr 1
      have q3 : decU 1 (-78980) < decU 1 (-78979) := by
        have := decU_shift 1 1 (-78980)
        rw [show ((-78980 : ℤ) + ((1 : ℕ) : ℤ)) = -78979 by norm_num] at this
        rw [← this]
        exact decU_lt (by norm_num) _
      linarith
    · have hno : ((sigDigits (digs (a ++ b))).drop 77) = [] := List.drop_eq_nil_of_le (by omega)
      rw [p8 (by rw [hno]; simp)]
      have q0 : nat256 w < 10 ^ 73 := by
        refine lt_of_le_of_lt (Nat.le_mul_of_pos_right _ (by positivity)) (lt_of_lt_of_le p5 ?_)
        refine Nat.pow_le_pow_right (by norm_num) ?_
        rw [List.length_take]
        exact (Nat.min_le_right _ _).trans (hlen.trans hcut)
      have q1 : decU (nat256 w) E ≤ decU (10 ^ 73) (-79057) :=
        (decU_mono q0.le E).trans (decU_exp _ (by omega))
      have q2 : decU (10 ^ 73) (-79057) = decU 1 (-(78984 : ℕ)) := by
        have := decU_shift 1 73 (-79057)
        rw [Nat.one_mul] at this
        rw [this]; congr 1
      rw [q2] at q1
      exact q1.trans decU_small
  rw [if_neg (by rw [hz]; rintro (h | h); cases h; exact c1 h)]
  by_cases c2 : E < -78984
  · -- below the smallest subnormal number
    rw [if_pos c2]
    obtain ⟨g, N, s1, s2, s3⟩ := hslow (by omega) hc
    exact fin g N s2 s3 s1
  rw [if_neg c2]
  by_cases c3 : E > 78913
  · -- overflow
    rw [if_pos c3]
    refine fin _ INF (signedInf_pat hs) (roundsTo_inf_of_le (le_trans ?_ p6)) rfl
    exact (decU_mono (Nat.one_le_iff_ne_zero.mpr p1) _).trans (decU_exp _ (by push_cast; omega))
  · rw [if_neg c3]
    obtain ⟨g, N, s1, s2, s3⟩ := fastExact_spec (lit := sg ++ t) (e := E) (w := w)
      (tr := decide (∃ d ∈ (sigDigits (digs (a ++ b))).drop 77, d ≠ 0)) hs p1 p2 (hslow (by omega) hc) hc.mid
      (fun htr => p8 (by simpa using htr)) p6 p7
    exact fin g N s2 s3 s1

theorem ten_unique {a b i j : ℕ} (h : a * 10 ^ i = b * 10 ^ j) (ha : a % 10 ≠ 0) (hb : b % 10 ≠ 0) :
    a = b ∧ i = j := by
  have key : ∀ {a b i j : ℕ}, a * 10 ^ i = b * 10 ^ j → b % 10 ≠ 0 → i ≤ j := by
    intro a b i j h hb
    by_contra hlt
    obtain ⟨k, rfl⟩ := Nat.exists_eq_add_of_lt (not_le.mp hlt)
    apply hb
    rw [show j + k + 1 = j + (k + 1) by ring, pow_add, ← mul_assoc, mul_right_comm] at h
    have := Nat.eq_of_mul_eq_mul_right (by positivity) h
    rw [← this, pow_succ, ← mul_assoc, Nat.mul_mod_left]
  have hij : i = j := le_antisymm (key h hb) (key h.symm ha)
  subst hij
  exact ⟨Nat.eq_of_mul_eq_mul_right (by positivity) h, rfl⟩

/-- The significand of a value of up to 77 digits is not truncated. -/
theorem not_truncated {ds : List ℕ} {w tz m k : ℕ} (hdig : ∀ c ∈ ds, c < 10) (h0 : decVal ds ≠ 0)
    (hw : w * 10 ^ tz = decVal ((sigDigits ds).take 77)) (hw10 : w % 10 ≠ 0)
    (hV : decVal ds = m * 10 ^ k) (hm : m < 10 ^ 77) (hm10 : m % 10 ≠ 0) :
    w = m ∧ ((sigDigits ds).drop 77).length + tz = k ∧ ¬ ∃ d ∈ (sigDigits ds).drop 77, d ≠ 0 := by
  have hlead := sigDigits_lead h0
  have hval := decVal_sigDigits ds
  obtain ⟨D, hD⟩ : ∃ D, sigDigits ds = D := ⟨_, rfl⟩
  have hdig' : ∀ c ∈ D, c < 10 := fun c hc => hdig c (sigDigits_mem (hD ▸ hc))
  rw [hD] at hlead hval hw ⊢
  have hsplit := decVal_append (D.take 77) (D.drop 77)
  rw [List.take_append_drop, hval, ← hw] at hsplit
  have hdrop : decVal (D.drop 77) < 10 ^ (D.drop 77).length :=
    decVal_lt fun c hc => hdig' c (List.mem_of_mem_drop hc)
  have hz : decVal (D.drop 77) = 0 := by
    rcases Nat.lt_or_ge 77 D.length with hl | hl
    · have hdl : (D.drop 77).length = D.length - 77 := List.length_drop
      have hk : (D.drop 77).length ≤ k := by
        by_contra hk
        rw [hval, hV] at hlead
        have e1 : 10 * (m * 10 ^ k) < 10 ^ (77 + k + 1) := by
          calc 10 * (m * 10 ^ k) < 10 * (10 ^ 77 * 10 ^ k) := by
                have := Nat.mul_lt_mul_of_pos_right hm (show 0 < 10 ^ k by positivity)
                omega
            _ = 10 ^ (77 + k + 1) := by rw [pow_succ, pow_add]; ring
        have e2 := lt_of_le_of_lt hlead e1
        have := (Nat.pow_lt_pow_iff_right (show 1 < 10 by norm_num)).mp e2
        omega
      obtain ⟨i, hi⟩ := Nat.exists_eq_add_of_le hk
      have : decVal (D.drop 77) % 10 ^ (D.drop 77).length = 0 := by
        have e1 : decVal ds % 10 ^ (D.drop 77).length = 0 := by
          rw [hV, hi, pow_add, mul_left_comm, Nat.mul_mod_right]
        rwa [hsplit, Nat.mul_add_mod_self_right] at e1
      rwa [Nat.mod_eq_of_lt hdrop] at this
    · rw [List.drop_eq_nil_of_le hl]; rfl
  rw [hz, Nat.add_zero, hV, mul_assoc, ← pow_add] at hsplit
  obtain ⟨e1, e2⟩ := ten_unique hsplit hm10 hw10
  refine ⟨e1.symm, by omega, ?_⟩
  rintro ⟨d, hd, hd0⟩
  exact hd0 (decVal_zero hz d hd)

/-- Literals whose value has a short significand and a moderate exponent -/
theorem fromStr_small {sg t a b x dot neg xs} {sign m : ℕ} {j : ℤ} (h : Body t a b x dot neg xs)
    (hsg : (sg = [] ∧ sign = 0 ∧ t.head? ≠ some 45#8 ∧ t.head? ≠ some 43#8) ∨
      (sg = [43#8] ∧ sign = 0) ∨ (sg = [45#8] ∧ sign = 1))
    (h0 : decVal (digs (a ++ b)) ≠ 0)
    (hwrap : (expVal neg xs).natAbs + a.length + b.length < 2 ^ 31)
    (hv : (decVal (digs (a ++ b)) : ℝ) * 10 ^ (expVal neg xs - b.length) = m * 10 ^ j)
    (hm10 : m % 10 ≠ 0) (hm : m < 10 ^ 77) (hj : j.natAbs ≤ 1024)
    (hc : MidClearU (decU m j) ∨ (m < 2 ^ 237 ∧ j.natAbs ≤ 102)) :
    ∃ f N, F256.fromStr (sg ++ t) = some (.ok f) ∧ f.pat = sign * 2 ^ 255 + N ∧ RoundsTo (decU m j) N := by
  have hs : sign ≤ 1 := by
    rcases hsg with ⟨-, h, -⟩ | ⟨-, h⟩ | ⟨-, h⟩ <;> omega
  have hdig : ∀ c ∈ digs (a ++ b), c < 10 := by
    rw [digs_append]
    intro c hc
    rcases List.mem_append.mp hc with hc | hc
    · exact digs_lt h.ha c hc
    · exact digs_lt h.hb c hc
  obtain ⟨w, tz, g1, g2, g3⟩ := fromStr_body h hsg h0 hwrap
  have hslow := slowOk_of_body h hsg h0
  obtain ⟨e, he⟩ : ∃ e, expVal neg xs - (b.length : ℤ) = e := ⟨_, rfl⟩
  rw [he] at hv hslow g3
  have hej : e ≤ j := by
    by_contra hlt
    obtain ⟨i, hi⟩ : ∃ i : ℕ, e = j + ((i + 1 : ℕ) : ℤ) := ⟨(e - j - 1).toNat, by omega⟩
    rw [hi, zpow_add₀ (by norm_num), mul_left_comm, mul_comm (m : ℝ), zpow_natCast] at hv
    have := mul_left_cancel₀ (zpow_ne_zero j (by norm_num : (10 : ℝ) ≠ 0)) hv
    have : decVal (digs (a ++ b)) * 10 ^ (i + 1) = m := by exact_mod_cast this
    apply hm10
    rw [← this, pow_succ, ← mul_assoc, Nat.mul_mod_left]
  obtain ⟨k, hk⟩ : ∃ k : ℕ, j = e + k := ⟨(j - e).toNat, by omega⟩
  have hV : decVal (digs (a ++ b)) = m * 10 ^ k := by
    rw [hk, zpow_add₀ (by norm_num), mul_left_comm, mul_comm (decVal _ : ℝ), zpow_natCast] at hv
    have := mul_left_cancel₀ (zpow_ne_zero e (by norm_num : (10 : ℝ) ≠ 0)) hv
    exact_mod_cast this
  obtain ⟨n1, n2, n3⟩ := not_truncated hdig h0 g1 g2 hV hm hm10
  rw [decide_eq_false n3, n2, ← hk] at g3
  have hdec : decU (decVal (digs (a ++ b))) e = decU m j := by rw [hV, decU_shift, hk]
  rw [hdec] at hslow
  have hw0 : nat256 w ≠ 0 := by
    intro h0; rw [h0] at g2; exact g2 rfl
  obtain ⟨P, hP⟩ : ∃ P : ℕ, P = 10 ^ 77 := ⟨_, rfl⟩
  have hlen : (((sigDigits (digs (a ++ b))).length : ℤ) - b.length + expVal neg xs).natAbs ≤ 10 ^ 6 := by
    have l1 := sigDigits_lead h0
    rw [decVal_sigDigits, hV] at l1
    have l2 : 10 * (m * 10 ^ k) < 10 ^ (77 + k + 1) := by
      calc 10 * (m * 10 ^ k) < 10 * (10 ^ 77 * 10 ^ k) := by
            have := Nat.mul_lt_mul_of_pos_right hm (show 0 < 10 ^ k by positivity)
            omega
        _ = 10 ^ (77 + k + 1) := by rw [pow_succ, pow_add]; ring
    have l3 := (Nat.pow_lt_pow_iff_right (show 1 < 10 by norm_num)).mp (lt_of_le_of_lt l1 l2)
    have l4 : decVal (sigDigits (digs (a ++ b))) < 10 ^ (sigDigits (digs (a ++ b))).length :=
      decVal_lt fun c hc => hdig c (sigDigits_mem hc)
    rw [decVal_sigDigits, hV] at l4
    have l5 : 10 ^ k ≤ m * 10 ^ k := Nat.le_mul_of_pos_left _ (by omega)
    have l6 := (Nat.pow_lt_pow_iff_right (show 1 < 10 by norm_num)).mp (lt_of_le_of_lt l5 l4)
    omega
  obtain ⟨g, N, s1, s2, s3⟩ := fastExact_small (lit := sg ++ t) (e := j) (w := w) hs hw0 hj
    (by rw [n1]; exact hc) (by rw [n1]; exact hslow hlen)
  refine ⟨g, N, ?_, s2, by rwa [n1] at s3⟩
  rw [g3]
  have hz : U256.isZero w = false := by rw [isZero256, decide_eq_false hw0]
  unfold numberToF256 MIN_10_EXP_CUTOFF MIN_GT_ZERO_10_EXP MAX_10_EXP
  dsimp only
  rw [if_neg (by rw [hz]; rintro (h | h); cases h; omega), if_neg (by omega), if_neg (by omega), s1]
  rfl

end Verif
