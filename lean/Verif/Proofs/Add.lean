import Verif.Proofs.U256Nat
import Verif.Proofs.Sticky

/-!
# Refinement of `src/binops/add.rs`
-/

namespace Verif

open BigUInt LawfulBigUInt

/-- The exact sum or difference. -/
noncomputable def combine (sameSign : Bool) (a b : ℝ) : ℝ := if sameSign then a + b else a - b

theorem combine_true (a b : ℝ) : combine true a b = a + b := rfl
theorem combine_false (a b : ℝ) : combine false a b = a - b := rfl

/-- The 256-bit operation used by the code. -/
def opOf (sameSign : Bool) : U256 → U256 → Option U256 := if sameSign then UInt.add else UInt.sub

theorem rne_eight (n : ℕ) : Spec.rne n 8 =
    n / 8 + (decide (n % 8 > 4 ∨ (n % 8 = 4 ∧ n / 8 % 2 = 1))).toNat := by
  unfold Spec.rne
  by_cases h : n % 8 > 4 ∨ (n % 8 = 4 ∧ n / 8 % 2 = 1)
  · rw [if_pos (by omega), decide_eq_true h]; rfl
  · rw [if_neg (by omega), decide_eq_false h]; rfl

theorem nat_roundGRS (z : U256) {e : ℕ} (he : e ≤ 524286) :
    nat256 (roundGRS z e) = e * 2 ^ 236 + nat256 z / 8 % 2 ^ 236 +
      (decide (nat256 z % 8 > 4 ∨ (nat256 z % 8 = 4 ∧ nat256 z / 8 % 2 = 1))).toNat := by
  have hp := nat_packAbs (UInt.shr z 3) (e := e) (by omega)
  rw [nat_shr256 z (by norm_num), show (2 : ℕ) ^ 3 = 8 by norm_num] at hp
  have hodd : nat256 (packAbs (UInt.shr z 3) e) % 2 = nat256 z / 8 % 2 := by omega
  have hcond : (((z.lo &&& 7).toNat > 4 : Prop) || (decide ((z.lo &&& 7).toNat = 4) &&
      isOdd (packAbs (UInt.shr z 3) e).lo)) =
      decide (nat256 z % 8 > 4 ∨ (nat256 z % 8 = 4 ∧ nat256 z / 8 % 2 = 1)) := by
    rw [lo_and_7, isOdd_lo, hodd]
    simp
  unfold roundGRS
  simp only []
  rw [hcond]
  by_cases h : nat256 z % 8 > 4 ∨ (nat256 z % 8 = 4 ∧ nat256 z / 8 % 2 = 1)
  · rw [if_pos (by simpa using h), decide_eq_true h, nat_incr256, hp, Bool.toNat_true]
    omega
  · rw [if_neg (by simpa using h), decide_eq_false h, hp, Bool.toNat_false, Nat.add_zero]

/-- The final rounding step. -/
theorem roundGRS_spec (z : U256) {e : ℕ} {v w : ℝ} (he : e ≤ 524286)
    (hn : nat256 z < 2 ^ 240)
    (hlo : (2 ^ 239 ≤ nat256 z ∧ 1 ≤ e) ∨ (e = 0 ∧ nat256 z < 2 ^ 239))
    (hv : v = w * 2 ^ (e - 1)) (hw : w < 2 ^ 237) (hw2 : e = 0 ∨ 2 ^ 236 ≤ w)
    (hM : RNE w (Spec.rne (nat256 z) 8)) : RoundsTo v (nat256 (roundGRS z e)) := by
  have e1 : nat256 (roundGRS z e) = (e - 1) * 2 ^ 236 + Spec.rne (nat256 z) 8 := by
    rw [nat_roundGRS z he, rne_eight]
    omega
  rw [e1]
  refine RoundsTo.of_rne hv hw ?_ hM (by omega)
  rcases hw2 with h | h
  · left; omega
  · exact Or.inr h

theorem boolU128_le (b : Bool) : (boolU128 b).toNat ≤ 1 := by cases b <;> decide

/-- The alignment of the smaller operand keeps a sticky bit. -/
theorem aligned (SY : U256) {sy D : ℕ} (hs : nat256 SY = sy) (h0 : 0 < sy) (hlt : sy < 2 ^ 237)
    (hD : 1 ≤ D ∨ sy < 2 ^ 236) (st : BitVec 128)
    (hst : st = alignSticky (UInt.shl SY 3) (min D 239)) (Y : U256)
    (hY : Y = ⟨(UInt.shr (UInt.shl SY 3) (min D 239)).hi,
      (UInt.shr (UInt.shl SY 3) (min D 239)).lo ||| st⟩) :
    RTO ((8 * sy : ℕ) / 2 ^ D : ℝ) (nat256 Y) ∧ nat256 Y < 2 ^ 239 ∧
    (st.toNat ≤ nat256 Y % 2) ∧
    (((8 * sy : ℕ) / 2 ^ D : ℝ) = nat256 Y ∨ (nat256 Y ≤ 2 ^ 236 ∧ 4 ≤ D)) := by
  have hshl : nat256 (UInt.shl SY 3) = 8 * sy := by
    rw [nat_shl256_of_lt SY (by norm_num) (by rw [hs]; omega), hs]; ring
  have hm : min D 239 ≤ 239 := min_le_right _ _
  have hmD : min D 239 ≤ D := min_le_left _ _
  have hst' : st = boolU128 (decide (8 * sy % 2 ^ (min D 239) ≠ 0)) := by
    rw [hst, alignSticky, SIGNIFICAND_BITS]
    by_cases h3 : min D 239 ≤ 3
    · rw [if_pos h3]
      obtain ⟨j, hj⟩ := Nat.exists_eq_add_of_le h3
      have : 8 * sy % 2 ^ (min D 239) = 0 := by
        rw [show (8 : ℕ) = 2 ^ (min D 239) * 2 ^ j by rw [← pow_add, ← hj]; norm_num, Nat.mul_assoc,
          Nat.mul_mod_right]
      rw [this]; rfl
    · rw [if_neg h3, if_neg (by omega), nat_mod_pow_eq _ (by omega) (by omega), hshl]
      congr 1
      simp
  have hst1 : st.toNat ≤ 1 := by rw [hst']; exact boolU128_le _
  have hYn : nat256 Y = 8 * sy / 2 ^ (min D 239) / 2 * 2 +
      max (8 * sy / 2 ^ (min D 239) % 2) (decide (8 * sy % 2 ^ (min D 239) ≠ 0)).toNat := by
    rw [hY, nat_or_lo _ _ hst1, nat_shr256 _ (by omega), hshl, hst', toNat_boolU128]
  have hstY : st.toNat ≤ nat256 Y % 2 := by
    rw [hYn, hst', toNat_boolU128]
    have := bool_toNat_le (decide (8 * sy % 2 ^ (min D 239) ≠ 0))
    omega
  have hb := bool_toNat_le (decide (8 * sy % 2 ^ (min D 239) ≠ 0))
  have hYlt : nat256 Y < 2 ^ 239 := by
    have : 8 * sy / 2 ^ (min D 239) < 2 ^ 239 := by
      rcases hD with hD | hD
      · calc 8 * sy / 2 ^ (min D 239) ≤ 8 * sy / 2 ^ 1 :=
              Nat.div_le_div_left (Nat.pow_le_pow_right (by norm_num) (by omega)) (by norm_num)
          _ < _ := by omega
      · calc 8 * sy / 2 ^ (min D 239) ≤ 8 * sy := Nat.div_le_self _ _
          _ < _ := by omega
    rw [hYn]
    omega
  have hRTO : RTO ((8 * sy : ℕ) / 2 ^ D : ℝ) (nat256 Y) := by
    rcases Nat.le_total D 239 with hc | hc
    · have := RTO.of_div (8 * sy) (b := 2 ^ D) (Nat.two_pow_pos _)
      rw [min_eq_left hc] at hYn
      rw [hYn]
      rwa [Nat.cast_pow, Nat.cast_ofNat] at this
    · rw [min_eq_right hc] at hYn
      have hY1 : nat256 Y = 1 := by
        rw [hYn]
        rcases Nat.lt_or_ge (8 * sy) (2 ^ 239) with h | h
        · rw [Nat.div_eq_of_lt h, Nat.mod_eq_of_lt h, decide_eq_true (by omega)]; rfl
        · have : 8 * sy / 2 ^ 239 = 1 := by omega
          rw [this]
          rw [min_eq_right hc] at hb
          omega
      rw [hY1]
      rcases Nat.eq_or_lt_of_le hc with h239 | h239
      · -- `D = 239`
        have := RTO.of_div (8 * sy) (b := 2 ^ D) (Nat.two_pow_pos _)
        rw [← h239] at this ⊢
        rw [← hYn, hY1] at this
        rwa [Nat.cast_pow, Nat.cast_ofNat] at this
      · right
        refine ⟨rfl, ?_⟩
        have hp : (0 : ℝ) < 2 ^ D := by positivity
        have h1 : ((8 * sy : ℕ) : ℝ) < 2 ^ D := by
          calc ((8 * sy : ℕ) : ℝ) < (2 : ℝ) ^ 240 := by
                have : 8 * sy < 2 ^ 240 := by omega
                exact_mod_cast this
            _ ≤ 2 ^ D := pow_le_pow_right₀ (by norm_num) h239
        have h2 : (0 : ℝ) < ((8 * sy : ℕ) : ℝ) := by
          have : 0 < 8 * sy := by omega
          exact_mod_cast this
        have h3 : ((8 * sy : ℕ) : ℝ) / 2 ^ D < 1 := by rwa [div_lt_one hp]
        have h4 : 0 < ((8 * sy : ℕ) : ℝ) / 2 ^ D := div_pos h2 hp
        rw [Nat.cast_one, abs_lt]
        constructor <;> linarith
  refine ⟨hRTO, hYlt, hstY, ?_⟩
  by_cases h4 : 4 ≤ D
  · right
    have : 8 * sy / 2 ^ (min D 239) < 2 ^ 236 := by
      calc 8 * sy / 2 ^ (min D 239) ≤ 8 * sy / 2 ^ 4 :=
              Nat.div_le_div_left (Nat.pow_le_pow_right (by norm_num) (by omega)) (by norm_num)
          _ < _ := by omega
    refine ⟨?_, h4⟩
    rw [hYn]; omega
  · left
    rcases hRTO with h | ⟨hodd, -⟩
    · exact h
    · have hc : min D 239 = D := by omega
      rw [hc] at hYn
      have hd : 2 ^ D ∣ 8 * sy := by
        apply Dvd.dvd.mul_right
        rw [show (8 : ℕ) = 2 ^ 3 by norm_num]
        exact pow_dvd_pow _ (by omega)
      have h0 : 8 * sy % 2 ^ D = 0 := Nat.mod_eq_zero_of_dvd hd
      rw [h0] at hYn
      have e : nat256 Y = 8 * sy / 2 ^ D := by
        rw [hYn]
        simp only [ne_eq, not_true_eq_false, decide_false, Bool.toNat_false, Nat.max_zero]
        omega
      obtain ⟨k, hk⟩ := hd
      rw [e, hk, Nat.mul_div_cancel_left _ (Nat.two_pow_pos D), Nat.cast_mul, Nat.cast_pow,
        Nat.cast_ofNat, mul_div_cancel_left₀ _ (by positivity)]

theorem opOf_spec (b : Bool) {x y : U256} (h1 : nat256 x + nat256 y < 2 ^ 256)
    (h2 : nat256 y ≤ nat256 x) : ∃ z, opOf b x y = some z ∧
      nat256 z = if b then nat256 x + nat256 y else nat256 x - nat256 y := by
  cases b
  · simpa only [opOf, Bool.false_eq_true, if_false] using sub256 h2
  · simpa only [opOf, if_true] using add256 h1

theorem log2_bounds {n k : ℕ} (h0 : n ≠ 0) (h : n.log2 = k) : 2 ^ k ≤ n ∧ n < 2 ^ (k + 1) := by
  subst h
  exact ⟨Nat.log2_self_le h0, Nat.lt_log2_self⟩


/-- What is known about the aligned sum `S` (with 3 extra bits, the last one sticky). -/
theorem combined (b : Bool) {sx sy D Y S : ℕ} {W : ℝ} (hsx1 : 2 ^ 236 ≤ sx) (hsx2 : sx < 2 ^ 237)
    (hW : W = combine b (8 * sx) ((8 * sy : ℕ) / 2 ^ D))
    (hR : RTO ((8 * sy : ℕ) / 2 ^ D : ℝ) Y) (hY : Y < 2 ^ 239)
    (hex : ((8 * sy : ℕ) / 2 ^ D : ℝ) = Y ∨ (Y ≤ 2 ^ 236 ∧ 4 ≤ D))
    (hS : S = if b then 8 * sx + Y else 8 * sx - Y) :
    RTO W S ∧ 0 < S ∧ S < 2 ^ 240 + 2 ^ 239 ∧ (W = S ∨ (2 ^ 238 < S ∧ 4 ≤ D) ∨ 2 ^ 239 ≤ S) ∧ S % 2 = Y % 2 := by
  have e8 : ((8 * sx : ℕ) : ℝ) = 8 * sx := by push_cast; rfl
  cases b
  · rw [combine_false] at hW
    simp only [Bool.false_eq_true, if_false] at hS
    refine ⟨?_, by omega, by omega, ?_, by omega⟩
    · rw [hW, hS, ← e8]
      exact hR.sub_even (by omega) (by omega)
    · rcases hex with h | h
      · left
        rw [hW, hS, h, Nat.cast_sub (by omega), e8]
      · right; omega
  · rw [combine_true] at hW
    simp only [if_true] at hS
    refine ⟨?_, by omega, by omega, ?_, by omega⟩
    · rw [hW, hS, ← e8]
      exact hR.add_even (by omega)
    · right; omega

theorem addOrSubRounded_spec (b : Bool) {ex ey sx sy : ℕ} {SX SY : U256}
    (hx : nat256 SX = sx) (hy : nat256 SY = sy) (hlt : ey < ex) (hex : ex ≤ 524286)
    (hsx1 : 2 ^ 236 ≤ sx) (hsx2 : sx < 2 ^ 237) (hsy1 : 0 < sy) (hsy2 : sy < 2 ^ 237)
    (hsub : ey = 0 → sy < 2 ^ 236) {V : ℝ}
    (hV : V = combine b (sx * 2 ^ (ex - 1)) (sy * 2 ^ (ey - 1))) :
    ∃ z, addOrSubRounded ex ey SX SY (opOf b) = some z ∧ RoundsTo V (nat256 z) := by
  obtain ⟨D, hD⟩ : ∃ D, D = ex - ey - (decide (ey = 0)).toNat := ⟨_, rfl⟩
  have hDe : ex - 1 = D + (ey - 1) := by
    rw [hD]
    by_cases h : ey = 0
    · rw [decide_eq_true h, Bool.toNat_true]; omega
    · rw [decide_eq_false h, Bool.toNat_false]; omega
  have hD1 : 1 ≤ D ∨ sy < 2 ^ 236 := by
    by_cases h : ey = 0
    · exact Or.inr (hsub h)
    · left; omega
  obtain ⟨st, hst⟩ : ∃ st : BitVec 128, st =
      alignSticky (UInt.shl SY 3) (min D 239) := ⟨_, rfl⟩
  obtain ⟨Y, hY⟩ : ∃ Y : U256, Y = ⟨(UInt.shr (UInt.shl SY 3) (min D 239)).hi,
      (UInt.shr (UInt.shl SY 3) (min D 239)).lo ||| st⟩ := ⟨_, rfl⟩
  obtain ⟨hR, hYlt, hstY, hexact⟩ := aligned SY hy hsy1 hsy2 hD1 st hst Y hY
  have hX : nat256 (UInt.shl SX 3) = 8 * sx := by
    rw [nat_shl256_of_lt SX (by norm_num) (by rw [hx]; omega), hx]; ring
  obtain ⟨z, hz, hzn⟩ := opOf_spec b (x := UInt.shl SX 3) (y := Y) (by omega) (by omega)
  rw [hX] at hzn
  obtain ⟨W, hW⟩ : ∃ W : ℝ, W = combine b (8 * sx) ((8 * sy : ℕ) / 2 ^ D) := ⟨_, rfl⟩
  obtain ⟨hWS, hS0, hSlt, hcase, hpar⟩ := combined b hsx1 hsx2 hW hR hYlt hexact hzn
  have hVW : V = W / 8 * 2 ^ (ex - 1) := by
    have hp : (2 : ℝ) ^ D ≠ 0 := by positivity
    have e1 : (sy : ℝ) * 2 ^ (ey - 1) = ((8 * sy : ℕ) : ℝ) / 2 ^ D / 8 * 2 ^ (ex - 1) := by
      rw [hDe, pow_add]; push_cast; field_simp
    rw [hV, hW, e1]
    cases b
    · rw [combine_false, combine_false]; ring
    · rw [combine_true, combine_true]; ring
  -- unfold the code
  have hun : addOrSubRounded ex ey SX SY (opOf b) =
      if HI_FRACTION_BIAS <<< 4 ≤ z.hi then
        if ex + 1 ≥ EXP_MAX then some (U256.new INF_HI 0)
        else some (roundGRS ⟨(UInt.shr z 1).hi, (UInt.shr z 1).lo ||| (st ||| (z.lo &&& 1))⟩ (ex + 1))
      else if z.hi < HI_FRACTION_BIAS <<< 3 then
        some (roundGRS (UInt.shl z (min (FRACTION_BITS + 3 - msb z) ex -
          (decide (ex - min (FRACTION_BITS + 3 - msb z) ex = 0)).toNat))
            (ex - min (FRACTION_BITS + 3 - msb z) ex))
      else some (roundGRS z ex) := by
    rw [hst] at hY
    rw [hY] at hz
    rw [hD] at hz
    rw [hst, hD]
    unfold addOrSubRounded
    simp only [SIGNIFICAND_BITS, Nat.reduceAdd] at hz ⊢
    rw [hz]
    simp only [Option.bind_eq_bind, Option.bind_some, Option.pure_def]
  rw [hun]
  have hc4 : HI_FRACTION_BIAS <<< 4 ≤ z.hi ↔ 2 ^ 240 ≤ nat256 z :=
    pow_le_hi z (k := 112) (by decide)
  have hc3 : z.hi < HI_FRACTION_BIAS <<< 3 ↔ nat256 z < 2 ^ 239 :=
    hi_lt_pow z (k := 111) (by decide)
  simp only [hc4, hc3]
  have hEM : EXP_MAX = 524287 := rfl
  by_cases h4 : 2 ^ 240 ≤ nat256 z
  · -- carry
    rw [if_pos h4]
    have hW4 : (2 : ℝ) ^ 240 ≤ W := by
      have := hWS.ge (m := 2 ^ 240) (by norm_num) h4
      rwa [Nat.cast_pow, Nat.cast_ofNat] at this
    by_cases hinf : ex + 1 ≥ EXP_MAX
    · rw [if_pos hinf]
      refine ⟨_, rfl, ?_⟩
      have e : nat256 (U256.new INF_HI 0) = INF := by decide
      rw [e]
      refine RoundsTo.inf (t := ex) (by omega) ?_
      rw [hVW]
      have e2 : (2 : ℝ) ^ ex = 2 * 2 ^ (ex - 1) := by
        rw [← pow_succ']; congr 1; omega
      rw [e2, ← mul_assoc]
      exact mul_le_mul_of_nonneg_right (by linarith) (by positivity)
    · rw [if_neg hinf]
      refine ⟨_, rfl, ?_⟩
      have hst1 : (st ||| (z.lo &&& 1)).toNat = nat256 z % 2 := by
        rw [BitVec.toNat_or, lo_and_1]
        have : nat256 z % 2 < 2 := Nat.mod_lt _ (by norm_num)
        rcases Nat.mod_two_eq_zero_or_one (nat256 z) with h | h
        · have : st.toNat = 0 := by omega
          rw [h, this]; rfl
        · have : st.toNat = 0 ∨ st.toNat = 1 := by omega
          rcases this with h' | h' <;> rw [h, h'] <;> rfl
      obtain ⟨z', hz'⟩ : ∃ z' : U256, z' =
        ⟨(UInt.shr z 1).hi, (UInt.shr z 1).lo ||| (st ||| (z.lo &&& 1))⟩ := ⟨_, rfl⟩
      have hz'n : nat256 z' = nat256 z / 2 / 2 * 2 +
          max (nat256 z / 2 % 2) (decide (nat256 z % 2 ≠ 0)).toNat := by
        rw [hz', nat_or_lo _ _ (by rw [hst1]; omega), hst1, nat_shr256 z (by norm_num), pow_one]
        congr 2
        rcases Nat.mod_two_eq_zero_or_one (nat256 z) with h | h <;> rw [h] <;> rfl
      rw [← hz']
      have hr2 : RTO (W / 2) (nat256 z') := by
        refine hWS.half ?_
        rw [hz'n]
        exact RTO.of_div (nat256 z) (b := 2) (by norm_num)
      have hbnd : 2 ^ 239 ≤ nat256 z' ∧ nat256 z' < 2 ^ 240 := by
        have hb := bool_toNat_le (decide (nat256 z % 2 ≠ 0))
        generalize (decide (nat256 z % 2 ≠ 0)).toNat = c at hz'n hb
        clear hun hinf hEM
        generalize nat256 z' = n' at hz'n ⊢
        generalize nat256 z = n at hz'n h4 hSlt
        clear * - hz'n h4 hSlt hb
        omega
      obtain ⟨hz'lo, hz'hi⟩ := hbnd
      rw [hEM] at hinf
      have hinf' : ex + 1 ≤ 524286 := by clear * - hinf; omega
      have hM := RNE.of_rto (k := 3) (by norm_num) hr2
        (by have := RNE.of_rne (nat256 z') (b := 8) (by norm_num)
            norm_num at this ⊢
            exact this)
      have hup : W / 2 < 2 ^ 240 := by
        have := hr2.lt hz'hi
        rwa [Nat.cast_pow, Nat.cast_ofNat] at this
      refine roundGRS_spec z' (w := W / 2 / 2 ^ 3) hinf' hz'hi (Or.inl ⟨hz'lo, Nat.le_add_left 1 ex⟩)
        ?_ (by linarith) (Or.inr (by linarith)) hM
      have e4 : ex + 1 - 1 = (ex - 1) + 1 := by clear * - hlt; omega
      rw [hVW, e4, pow_succ]; ring
  · rw [if_neg h4]
    by_cases h3 : nat256 z < 2 ^ 239
    · -- cancellation
      rw [if_pos h3]
      refine ⟨_, rfl, ?_⟩
      have hne : nat256 z ≠ 0 := by omega
      rw [msb256 hne, FRACTION_BITS]
      obtain ⟨l, hl⟩ : ∃ l, (nat256 z).log2 = l := ⟨_, rfl⟩
      obtain ⟨hl1, hl2⟩ := log2_bounds hne hl
      rw [hl]
      have hl3 : l < 239 := by
        by_contra hcon
        have : 2 ^ 239 ≤ 2 ^ l := Nat.pow_le_pow_right (by norm_num) (by omega)
        omega
      rcases Nat.lt_or_ge (239 - l) ex with hadj | hadj
      · -- the result is normal
        have e1 : min (236 + 3 - l) ex = 239 - l := by omega
        have e2 : (decide (ex - (239 - l) = 0)).toNat = 0 := by
          rw [decide_eq_false (by omega)]; rfl
        rw [e1, e2, Nat.sub_zero]
        have hpow : 2 ^ 240 = 2 ^ (l + 1) * 2 ^ (239 - l) := by rw [← pow_add]; congr 1; omega
        have hpow' : 2 ^ 239 = 2 ^ l * 2 ^ (239 - l) := by rw [← pow_add]; congr 1; omega
        have hlt240 : nat256 z * 2 ^ (239 - l) < 2 ^ 240 := by
          rw [hpow]; exact Nat.mul_lt_mul_of_pos_right hl2 (Nat.two_pow_pos _)
        have hge239 : 2 ^ 239 ≤ nat256 z * 2 ^ (239 - l) := by
          rw [hpow']; exact Nat.mul_le_mul_right _ hl1
        have hzn' : nat256 (UInt.shl z (239 - l)) = nat256 z * 2 ^ (239 - l) :=
          nat_shl256_of_lt z (by omega) (lt_trans hlt240 (by norm_num))
        have hM := RNE.of_rne (nat256 z * 2 ^ (239 - l)) (b := 8) (by norm_num)
        rw [Nat.cast_mul, Nat.cast_pow, Nat.cast_ofNat] at hM
        rcases hcase with hW1 | hS2
        · refine roundGRS_spec _ (w := W * 2 ^ (239 - l) / 8) (by omega) (by rw [hzn']; omega)
            (Or.inl ⟨by rw [hzn']; omega, by omega⟩) ?_ ?_ (Or.inr ?_) ?_
          · rw [hVW, show ex - 1 = (239 - l) + (ex - (239 - l) - 1) by omega, pow_add]
            ring
          · rw [hW1]
            have : (nat256 z : ℝ) * 2 ^ (239 - l) < 2 ^ 240 := by exact_mod_cast hlt240
            linarith
          · rw [hW1]
            have : (2 : ℝ) ^ 239 ≤ (nat256 z : ℝ) * 2 ^ (239 - l) := by exact_mod_cast hge239
            linarith
          · rw [hzn', hW1]; exact hM
        · have hl8 : l = 238 := by
            by_contra hcon
            have : 2 ^ (l + 1) ≤ 2 ^ 238 := Nat.pow_le_pow_right (by norm_num) (by omega)
            omega
          subst hl8
          have hM2 : RNE (W / 2 ^ 2) (Spec.rne (nat256 z * 2 ^ (239 - 238)) 8) := by
            refine RNE.of_rto (k := 2) (by norm_num) hWS ?_
            convert hM using 1
            norm_num; ring
          have hup : W < 2 ^ 239 := by
            have := hWS.lt h3
            rwa [Nat.cast_pow, Nat.cast_ofNat] at this
          have hlow : (2 : ℝ) ^ 238 ≤ W := by
            have := hWS.ge (m := 2 ^ 238) (by norm_num) (by omega)
            rwa [Nat.cast_pow, Nat.cast_ofNat] at this
          refine roundGRS_spec _ (w := W / 2 ^ 2) (by omega) (by rw [hzn']; omega)
            (Or.inl ⟨by rw [hzn']; omega, by omega⟩) ?_ (by linarith) (Or.inr (by linarith)) ?_
          · have e3 : (2 : ℝ) ^ (ex - 1) = 2 ^ (ex - (239 - 238) - 1) * 2 := by
              rw [← pow_succ]; congr 1; omega
            rw [hVW, e3]
            ring
          · rw [hzn']; exact hM2
      · -- the result is subnormal
        have e1 : min (236 + 3 - l) ex = ex := by omega
        rw [e1, Nat.sub_self, decide_eq_true rfl, Bool.toNat_true]
        have hW1 : W = nat256 z := by
          rcases hcase with h | h
          · exact h
          · exfalso
            have : l = 238 := by
              by_contra hcon
              have : 2 ^ (l + 1) ≤ 2 ^ 238 := Nat.pow_le_pow_right (by norm_num) (by omega)
              omega
            omega
        have hpow : 2 ^ (l + 1) * 2 ^ (ex - 1) ≤ 2 ^ 239 := by
          rw [← pow_add]; exact Nat.pow_le_pow_right (by norm_num) (by omega)
        have hlt239 : nat256 z * 2 ^ (ex - 1) < 2 ^ 239 :=
          lt_of_lt_of_le (Nat.mul_lt_mul_of_pos_right hl2 (Nat.two_pow_pos _)) hpow
        have hzn' : nat256 (UInt.shl z (ex - 1)) = nat256 z * 2 ^ (ex - 1) :=
          nat_shl256_of_lt z (by omega) (lt_trans hlt239 (by norm_num))
        refine roundGRS_spec _ (w := W * 2 ^ (ex - 1) / 8) (by omega) (by rw [hzn']; omega)
          (Or.inr ⟨rfl, by rw [hzn']; omega⟩) ?_ ?_ (Or.inl rfl) ?_
        · rw [hVW, Nat.zero_sub, pow_zero]; ring
        · rw [hW1]
          have : (nat256 z : ℝ) * 2 ^ (ex - 1) < 2 ^ 239 := by exact_mod_cast hlt239
          linarith
        · rw [hzn', hW1]
          have hM := RNE.of_rne (nat256 z * 2 ^ (ex - 1)) (b := 8) (by norm_num)
          rw [Nat.cast_mul, Nat.cast_pow, Nat.cast_ofNat] at hM
          exact hM
    · rw [if_neg h3]
      refine ⟨_, rfl, ?_⟩
      have hup : W < 2 ^ 240 := by
        have := hWS.lt (not_le.mp h4)
        rwa [Nat.cast_pow, Nat.cast_ofNat] at this
      have hlow : (2 : ℝ) ^ 239 ≤ W := by
        have := hWS.ge (m := 2 ^ 239) (by norm_num) (not_lt.mp h3)
        rwa [Nat.cast_pow, Nat.cast_ofNat] at this
      have hM := RNE.of_rto (k := 3) (by norm_num) hWS
        (by have := RNE.of_rne (nat256 z) (b := 8) (by norm_num)
            norm_num at this ⊢
            exact this)
      refine roundGRS_spec z (w := W / 2 ^ 3) (by omega) (not_le.mp h4)
        (Or.inl ⟨not_lt.mp h3, by omega⟩) ?_ (by linarith) (Or.inr (by linarith)) hM
      rw [hVW]; norm_num


end Verif
