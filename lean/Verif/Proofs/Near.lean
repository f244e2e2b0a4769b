import Verif.Proofs.Sticky
import Verif.Proofs.Order
import Verif.Proofs.Exact
import Mathlib.Algebra.Order.Floor.Ring
import Mathlib.Algebra.Order.Archimedean.Real.Basic

/-!
# Rounding in terms of neighbours

`NearTo A N`: the pattern `N` is a nearest one for `A` (in units of the smallest subnormal number), ties
in either direction. A result which is a nearest one for an approximation from below is the correctly
rounded one as long as the exact value is not just above a number or a midpoint (`near_rne`).
-/

namespace Verif

open Spec

theorem mag_asm' {t M : ℕ} (h0 : t = 0 ∨ 2 ^ 236 ≤ M) (hM : M ≤ 2 ^ 237) (ht : t ≤ 524285) :
    mag (t * 2 ^ 236 + M) = M * 2 ^ t := by
  by_cases h : t * 2 ^ 236 + M < INF
  · exact mag_asm h0 hM h
  · unfold INF at h
    obtain rfl : t = 524285 := by omega
    obtain rfl : M = 2 ^ 237 := by omega
    have e : expField (524285 * 2 ^ 236 + 2 ^ 237) = 524287 := by unfold expField; norm_num
    have f : fracField (524285 * 2 ^ 236 + 2 ^ 237) = 0 := by unfold fracField; norm_num
    rw [mag, significandOf, if_neg (by rw [e]; norm_num), e, f, Nat.add_zero,
      show 524287 - 1 = 1 + 524285 from rfl, pow_add 2 1, ← mul_assoc, ← pow_add 2 236 1]

theorem mag_INF : mag INF = 2 ^ 237 * 2 ^ 524285 := by
  rw [show INF = 524285 * 2 ^ 236 + 2 ^ 237 by unfold INF; norm_num]
  exact mag_asm' (Or.inr (by norm_num)) le_rfl le_rfl

/-- Patterns up to infinity, taken apart -/
theorem le_INF_asm {N : ℕ} (h : N < INF) : ∃ t M, (t = 0 ∨ 2 ^ 236 ≤ M) ∧ M < 2 ^ 237 ∧
    N = t * 2 ^ 236 + M ∧ t ≤ 524285 := by
  unfold INF at h
  rcases Nat.lt_or_ge N (2 ^ 236) with h1 | h1
  · exact ⟨0, N, Or.inl rfl, by omega, by omega, by omega⟩
  · exact ⟨N / 2 ^ 236 - 1, 2 ^ 236 + N % 2 ^ 236, by omega, by omega, by omega, by omega⟩

theorem mag_lt_succ {N : ℕ} (h : N < INF) : mag N < mag (N + 1) := by
  obtain ⟨t, M, h0, hM, rfl, ht⟩ := le_INF_asm h
  rw [mag_asm' h0 hM.le ht, Nat.add_assoc, mag_asm' (by omega) (by omega) ht]
  exact Nat.mul_lt_mul_of_pos_right (by omega) (by positivity)

theorem mag_mono {a b : ℕ} (h : a ≤ b) (hb : b ≤ INF) : mag a ≤ mag b := by
  induction b, h using Nat.le_induction with
  | base => exact le_rfl
  | succ n hn ih => exact (ih (by omega)).trans (mag_lt_succ (by omega)).le

/-- `N` is a nearest pattern for `A`. -/
structure NearTo (A : ℝ) (N : ℕ) : Prop where
  le : N ≤ INF
  lower : N ≠ 0 → (mag (N - 1) : ℝ) + mag N ≤ 2 * A
  upper : N ≠ INF → 2 * A ≤ (mag N : ℝ) + mag (N + 1)

theorem NearTo.of_form {A : ℝ} {t M N : ℕ} (hv : A < 2 ^ (237 + t)) (h0 : t = 0 ∨ 2 ^ (236 + t) ≤ A)
    (hM : |A - M * 2 ^ t| ≤ 2 ^ t / 2) (hN : N = if 524286 ≤ t then INF else t * 2 ^ 236 + M) :
    NearTo A N := by
  have hM1 := RoundsTo.M_le hv hM
  have hM0 := RoundsTo.M_ge h0 hM
  have hp : (0 : ℝ) < 2 ^ t := by positivity
  obtain ⟨ha, hb⟩ := abs_le.mp hM
  by_cases ht : 524286 ≤ t
  · rw [if_pos ht] at hN
    subst hN
    refine ⟨le_rfl, fun _ => ?_, fun h => absurd rfl h⟩
    have hA : (2 : ℝ) ^ (236 + 524286) ≤ A := by
      rcases h0 with rfl | h0
      · omega
      · exact le_trans (pow_le_pow_right₀ (by norm_num) (by omega)) h0
    have h1 : (mag (INF - 1) : ℝ) ≤ mag INF := by
      exact_mod_cast mag_mono (Nat.sub_le _ _) le_rfl
    have h2 : (mag INF : ℝ) = 2 ^ (236 + 524286) := by
      rw [mag_INF, Nat.cast_mul, Nat.cast_pow, Nat.cast_pow, Nat.cast_ofNat, ← pow_add]
    linarith
  · rw [if_neg ht] at hN
    have ht' : t ≤ 524285 := by omega
    subst hN
    have hmag : (mag (t * 2 ^ 236 + M) : ℝ) = M * 2 ^ t := by
      rw [mag_asm' hM0 hM1 ht']; push_cast; ring
    refine ⟨by unfold INF; omega, fun hne => ?_, fun hne => ?_⟩
    · rw [hmag]
      rcases Nat.eq_zero_or_pos t with rfl | htp
      · rw [show 0 * 2 ^ 236 + M - 1 = 0 * 2 ^ 236 + (M - 1) by omega,
          mag_asm' (Or.inl rfl) (by omega) (by omega)]
        have : ((M - 1 : ℕ) : ℝ) = M - 1 := by rw [Nat.cast_sub (by omega)]; norm_num
        push_cast [this]
        simp only [pow_zero] at *
        linarith
      · have hM' : 2 ^ 236 ≤ M := by omega
        rcases hM'.lt_or_eq with hlt | rfl
        · rw [show t * 2 ^ 236 + M - 1 = t * 2 ^ 236 + (M - 1) by omega,
            mag_asm' (by omega) (by omega) ht']
          have : ((M - 1 : ℕ) : ℝ) = M - 1 := by rw [Nat.cast_sub (by omega)]; norm_num
          rw [Nat.cast_mul, this, Nat.cast_pow, Nat.cast_ofNat]
          linarith
        · have hA : (2 : ℝ) ^ (236 + t) ≤ A := by
            rcases h0 with h0 | h0
            · omega
            · exact h0
          have h1 : (mag (t * 2 ^ 236 + 2 ^ 236 - 1) : ℝ) ≤ mag (t * 2 ^ 236 + 2 ^ 236) := by
            exact_mod_cast mag_mono (Nat.sub_le _ _) (by unfold INF; omega)
          rw [hmag] at h1
          rw [pow_add] at hA
          have h2 : ((2 ^ 236 : ℕ) : ℝ) = 2 ^ 236 := by rw [Nat.cast_pow, Nat.cast_ofNat]
          rw [h2] at h1 ⊢
          linarith
    · rw [hmag]
      rcases hM1.lt_or_eq with hlt | rfl
      · rw [Nat.add_assoc, mag_asm' (by omega) (by omega) ht']
        rw [Nat.cast_mul, Nat.cast_add, Nat.cast_one, Nat.cast_pow, Nat.cast_ofNat]
        linarith
      · have h1 : (mag (t * 2 ^ 236 + 2 ^ 237) : ℝ) ≤ mag (t * 2 ^ 236 + 2 ^ 237 + 1) := by
          have : t * 2 ^ 236 + 2 ^ 237 < INF := by unfold INF at hne ⊢; omega
          exact_mod_cast (mag_lt_succ this).le
        rw [hmag] at h1
        rw [pow_add] at hv
        have h2 : ((2 ^ 237 : ℕ) : ℝ) = 2 ^ 237 := by rw [Nat.cast_pow, Nat.cast_ofNat]
        rw [h2] at h1 ⊢
        linarith

theorem RoundsTo.near {v : ℝ} {N : ℕ} (h : RoundsTo v N) : NearTo v N := by
  obtain ⟨t, M, hv, h0, hM, -, hN⟩ := h
  exact NearTo.of_form hv h0 hM hN

/-- The nearest natural number, ties to even, exists. -/
theorem exists_nearest {w : ℝ} (hw : 0 ≤ w) :
    ∃ M : ℕ, |w - M| ≤ 1 / 2 ∧ (|w - M| = 1 / 2 → M % 2 = 0) := by
  have h1 := Nat.floor_le hw
  have h2 := Nat.lt_floor_add_one w
  set f := ⌊w⌋₊ with hf
  rcases lt_trichotomy (w - f) (1 / 2) with h | h | h
  · refine ⟨f, ?_, fun he => ?_⟩
    · rw [abs_le]; constructor <;> linarith
    · rw [abs_of_nonneg (by linarith)] at he; linarith
  · rcases Nat.mod_two_eq_zero_or_one f with hp | hp
    · exact ⟨f, by rw [h]; norm_num, fun _ => hp⟩
    · refine ⟨f + 1, ?_, fun _ => by omega⟩
      push_cast
      rw [abs_le]; constructor <;> linarith
  · refine ⟨f + 1, ?_, fun he => ?_⟩
    · push_cast
      rw [abs_le]; constructor <;> linarith
    · push_cast at he
      rw [abs_of_nonpos (by linarith)] at he; linarith

theorem exists_roundsTo {v : ℝ} (hv : 0 ≤ v) : ∃ N, RoundsTo v N := by
  have hex : ∃ n : ℕ, v < 2 ^ (237 + n) := by
    obtain ⟨n, hn⟩ := pow_unbounded_of_one_lt v (show (1 : ℝ) < 2 by norm_num)
    exact ⟨n, lt_of_lt_of_le hn (pow_le_pow_right₀ (by norm_num) (by omega))⟩
  classical
  obtain ⟨t, ht, ht'⟩ : ∃ t : ℕ, v < 2 ^ (237 + t) ∧ (t = 0 ∨ 2 ^ (236 + t) ≤ v) := by
    refine ⟨Nat.find hex, Nat.find_spec hex, ?_⟩
    by_contra hc
    rw [not_or, not_le] at hc
    have := Nat.find_min hex (m := Nat.find hex - 1) (by omega)
    apply this
    rw [show 237 + (Nat.find hex - 1) = 236 + Nat.find hex by omega]
    exact hc.2
  have hp : (0 : ℝ) < 2 ^ t := by positivity
  obtain ⟨M, h1, h2⟩ := exists_nearest (w := v / 2 ^ t) (by positivity)
  have e : |v - M * 2 ^ t| = |v / 2 ^ t - M| * 2 ^ t := by
    rw [← abs_of_pos hp, ← abs_mul, abs_of_pos hp, sub_mul, div_mul_cancel₀ _ hp.ne']
  refine ⟨_, t, M, ht, ht', ?_, fun he => h2 ?_, rfl⟩
  · rw [e]; calc _ ≤ 1 / 2 * 2 ^ t := mul_le_mul_of_nonneg_right h1 hp.le
      _ = _ := by ring
  · rw [e] at he
    have : |v / 2 ^ t - M| * 2 ^ t = 1 / 2 * 2 ^ t := by rw [he]; ring
    exact mul_right_cancel₀ hp.ne' this

/-- Strictly between the midpoints to both neighbours there is only one choice. -/
theorem roundsTo_of_strict {v : ℝ} {N : ℕ} (hv : 0 ≤ v) (hN : N ≤ INF)
    (h1 : N ≠ 0 → (mag (N - 1) : ℝ) + mag N < 2 * v)
    (h2 : N ≠ INF → 2 * v < (mag N : ℝ) + mag (N + 1)) : RoundsTo v N := by
  obtain ⟨L, hL⟩ := exists_roundsTo hv
  have hn := hL.near
  rcases lt_trichotomy L N with h | h | h
  · exfalso
    have a := hn.upper (by omega)
    have b := h1 (by omega)
    have c : (mag L : ℝ) ≤ mag (N - 1) := by exact_mod_cast mag_mono (by omega) (by omega)
    have d : (mag (L + 1) : ℝ) ≤ mag N := by exact_mod_cast mag_mono (by omega) (by omega)
    linarith
  · rw [← h]; exact hL
  · exfalso
    have hLI := hn.le
    have a := hn.lower (by omega)
    have b := h2 (by omega)
    have c : (mag N : ℝ) ≤ mag (L - 1) := by exact_mod_cast mag_mono (by omega) (by omega)
    have d : (mag (N + 1) : ℝ) ≤ mag L := by exact_mod_cast mag_mono (by omega) (by omega)
    linarith

/-- `v` is at `h` or above it by a relative distance of less than `2^-252`. -/
def JustAboveU (v h : ℝ) : Prop := h ≤ v ∧ v < h * (1 + 1 / 2 ^ 252)

/-- `v` (in units of the smallest subnormal number) is not at or just above a number or a midpoint. -/
def ClearU (v : ℝ) : Prop :=
  ∀ N, N < INF → ¬ JustAboveU v (mag N) ∧ ¬ JustAboveU v (((mag N : ℝ) + mag (N + 1)) / 2)

/-- `v` (in units of the smallest subnormal number) is not at or just above a midpoint. -/
def MidClearU (v : ℝ) : Prop :=
  ∀ N, N < INF → ¬ JustAboveU v (((mag N : ℝ) + mag (N + 1)) / 2)

theorem ClearU.mid {v : ℝ} (h : ClearU v) : MidClearU v := fun N hN => (h N hN).2

theorem near_rne {A B v : ℝ} {N : ℕ} (hA0 : 0 ≤ A) (hA : NearTo A N) (hB : NearTo B N) (h1 : A ≤ v)
    (h2 : v < B * (1 + 1 / 2 ^ 252)) (hc : MidClearU v) : RoundsTo v N := by
  apply roundsTo_of_strict (hA0.trans h1) hA.le
  · intro hne
    have h := hA.lower hne
    have hle := hA.le
    refine lt_of_le_of_ne (h.trans (by linarith)) fun he => ?_
    have hlt : N - 1 < INF := by omega
    apply hc (N - 1) hlt
    rw [show N - 1 + 1 = N by omega]
    have hpos : (0 : ℝ) < mag N := by
      have : mag (N - 1) < mag N := by
        have := mag_lt_succ hlt
        rwa [show N - 1 + 1 = N by omega] at this
      exact_mod_cast Nat.lt_of_le_of_lt (Nat.zero_le _) this
    have hnn : (0 : ℝ) ≤ mag (N - 1) := Nat.cast_nonneg _
    rw [he]
    constructor
    · linarith
    · have : 0 < v := by linarith
      have : (1 : ℝ) < 1 + 1 / 2 ^ 252 := by norm_num
      nlinarith
  · intro hne
    have h := hB.upper hne
    by_contra hcon
    rw [not_lt] at hcon
    refine hc N (lt_of_le_of_ne hA.le hne) ⟨by linarith, lt_of_lt_of_le h2 ?_⟩
    apply mul_le_mul_of_nonneg_right _ (by positivity)
    linarith

end Verif
