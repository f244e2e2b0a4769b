import Verif.Proofs.Rounding
import Mathlib.Algebra.Order.Floor.Ring
import Mathlib.Algebra.Order.Floor.Semiring
import Mathlib.Algebra.Order.Archimedean.Basic
import Mathlib.Algebra.Order.Archimedean.Real.Basic

/-!
# Rounding to nearest even and to odd ("sticky bit"), for real numbers
-/

namespace Verif

/-- `M` is the integer nearest to `w`, the even one in case of a tie. -/
def RNE (w : ℝ) (M : ℕ) : Prop := |w - M| ≤ 1 / 2 ∧ (|w - M| = 1 / 2 → M % 2 = 0)

/-- `s` is `w` if `w` is an integer, and else the odd one of the two integers around `w`. -/
def RTO (w : ℝ) (s : ℕ) : Prop := w = s ∨ (s % 2 = 1 ∧ |w - s| < 1)

theorem RNE.of_nat (M : ℕ) : RNE M M := by
  constructor
  · simp
  · intro h; simp at h

theorem RNE.of_rne (a : ℕ) {b : ℕ} (hb : 0 < b) : RNE ((a : ℝ) / b) (Spec.rne a b) := by
  have hb' : (0 : ℝ) < b := by exact_mod_cast hb
  have hdm : (b : ℝ) * ((a / b : ℕ) : ℝ) + ((a % b : ℕ) : ℝ) = (a : ℝ) := by
    exact_mod_cast (Nat.div_add_mod a b)
  have hm := Nat.mod_lt a hb
  have hw : (a : ℝ) / b = ((a / b : ℕ) : ℝ) + ((a % b : ℕ) : ℝ) / b := by
    rw [← hdm, add_div, mul_div_cancel_left₀ _ hb'.ne']
  rw [hw]
  unfold Spec.rne
  generalize a / b = q at *
  generalize a % b = r at *
  have hf0 : (0 : ℝ) ≤ (r : ℝ) / b := by positivity
  have hf1 : (r : ℝ) / b < 1 := by rw [div_lt_one hb']; exact_mod_cast hm
  have hhalf : (1 / 2 : ℝ) < (r : ℝ) / b ↔ b < 2 * r := by
    rw [lt_div_iff₀ hb']
    constructor
    · intro h; have : (b : ℝ) < 2 * r := by linarith
      exact_mod_cast this
    · intro h; have : (b : ℝ) < 2 * r := by exact_mod_cast h
      linarith
  have heq : (r : ℝ) / b = 1 / 2 ↔ 2 * r = b := by
    rw [div_eq_iff hb'.ne']
    constructor
    · intro h; have : 2 * (r : ℝ) = b := by linarith
      exact_mod_cast this
    · intro h; have : 2 * (r : ℝ) = b := by exact_mod_cast h
      linarith
  generalize (r : ℝ) / b = f at *
  split
  · rename_i hc
    have e : (q : ℝ) + f - ((q + 1 : ℕ) : ℝ) = -(1 - f) := by push_cast; ring
    unfold RNE
    rw [e, abs_neg, abs_of_pos (by linarith)]
    rcases hc with hc | hc
    · have := hhalf.mpr hc
      exact ⟨by linarith, fun h => absurd h (by linarith)⟩
    · have := heq.mpr hc.1
      exact ⟨by linarith, fun _ => by omega⟩
  · rename_i hc
    have e : (q : ℝ) + f - (q : ℝ) = f := by ring
    unfold RNE
    rw [e, abs_of_nonneg hf0]
    have h1 : ¬ (1 / 2 < f) := fun h => hc (Or.inl (hhalf.mp h))
    refine ⟨not_lt.mp h1, fun h => ?_⟩
    have := heq.mp h
    omega

theorem RNE.exists (w : ℝ) (hw : 0 ≤ w) : ∃ M, RNE w M := by
  have h1 := Nat.floor_le hw
  have h2 := Nat.lt_floor_add_one w
  generalize ⌊w⌋₊ = q at *
  rcases lt_trichotomy (w - q) (1 / 2) with h | h | h
  · refine ⟨q, ?_, ?_⟩ <;> rw [abs_of_nonneg (by linarith)]
    · exact h.le
    · intro h'; linarith
  · rcases Nat.mod_two_eq_zero_or_one q with hq | hq
    · refine ⟨q, ?_, fun _ => hq⟩
      rw [abs_of_nonneg (by linarith)]; exact h.le
    · refine ⟨q + 1, ?_, fun _ => by omega⟩
      push_cast
      rw [abs_of_neg (by linarith)]; linarith
  · refine ⟨q + 1, ?_, ?_⟩ <;> push_cast <;> rw [abs_of_neg (by linarith)]
    · linarith
    · intro h'; linarith

/-- Two rounding results for the same number coincide. -/
theorem RNE.unique {w : ℝ} {M L : ℕ} (h1 : RNE w M) (h2 : RNE w L) : M = L := by
  have a1 := abs_le.mp h1.1
  have a2 := abs_le.mp h2.1
  by_contra hne
  rcases Nat.lt_or_gt_of_ne hne with h | h
  · have : (M : ℝ) + 1 ≤ L := by exact_mod_cast h
    have e : L = M + 1 := by
      have : (L : ℝ) < M + 2 := by linarith
      have : L < M + 2 := by exact_mod_cast this
      omega
    have e' : (L : ℝ) = M + 1 := by exact_mod_cast e
    have b1 := h1.2 (by rw [abs_of_nonneg (by linarith)]; linarith)
    have b2 := h2.2 (by rw [abs_of_nonpos (by linarith)]; linarith)
    omega
  · have : (L : ℝ) + 1 ≤ M := by exact_mod_cast h
    have e : M = L + 1 := by
      have : (M : ℝ) < L + 2 := by linarith
      have : M < L + 2 := by exact_mod_cast this
      omega
    have e' : (M : ℝ) = L + 1 := by exact_mod_cast e
    have b1 := h1.2 (by rw [abs_of_nonpos (by linarith)]; linarith)
    have b2 := h2.2 (by rw [abs_of_nonneg (by linarith)]; linarith)
    omega

/-! ## Rounding to odd -/

theorem RTO.of_nat (s : ℕ) : RTO s s := Or.inl rfl

/-- Quotient with the remainder's sticky bit. -/
theorem RTO.of_div (a : ℕ) {b : ℕ} (hb : 0 < b) :
    RTO ((a : ℝ) / b) (a / b / 2 * 2 + max (a / b % 2) (decide (a % b ≠ 0)).toNat) := by
  have hb' : (0 : ℝ) < b := by exact_mod_cast hb
  have hdm : (b : ℝ) * ((a / b : ℕ) : ℝ) + ((a % b : ℕ) : ℝ) = (a : ℝ) := by
    exact_mod_cast (Nat.div_add_mod a b)
  have hm := Nat.mod_lt a hb
  have hw : (a : ℝ) / b = ((a / b : ℕ) : ℝ) + ((a % b : ℕ) : ℝ) / b := by
    rw [← hdm, add_div, mul_div_cancel_left₀ _ hb'.ne']
  rw [hw]
  generalize a / b = q at *
  generalize a % b = r at *
  by_cases hr : r = 0
  · left
    subst hr
    have e : q / 2 * 2 + max (q % 2) (decide (0 ≠ 0)).toNat = q := by
      rw [decide_eq_false (by simp)]
      simp only [Bool.toNat_false, Nat.max_zero]
      omega
    rw [e]; simp
  · right
    have hf0 : (0 : ℝ) < (r : ℝ) / b := by
      have : (0 : ℝ) < r := by exact_mod_cast Nat.pos_of_ne_zero hr
      positivity
    have hf1 : (r : ℝ) / b < 1 := by rw [div_lt_one hb']; exact_mod_cast hm
    rw [decide_eq_true hr]
    simp only [Bool.toNat_true]
    have e : max (q % 2) 1 = 1 := by omega
    rw [e]
    refine ⟨by omega, ?_⟩
    rcases Nat.mod_two_eq_zero_or_one q with hq | hq
    · have e : q / 2 * 2 + 1 = q + 1 := by omega
      rw [e]; push_cast
      rw [abs_lt]; constructor <;> linarith
    · have e : q / 2 * 2 + 1 = q := by omega
      rw [e]
      rw [abs_lt]; constructor <;> linarith

/-- Rounding to nearest even after rounding to odd with at least two extra bits is the same as
rounding to nearest even at once. -/
theorem RNE.of_rto {w : ℝ} {s M k : ℕ} (hk : 2 ≤ k) (h : RTO w s)
    (hM : RNE ((s : ℝ) / 2 ^ k) M) : RNE (w / 2 ^ k) M := by
  rcases h with h | ⟨hodd, habs⟩
  · rw [h]; exact hM
  · have hp : (0 : ℝ) < 2 ^ k := by positivity
    have hM1 := abs_le.mp hM.1
    rw [abs_lt] at habs
    -- s is at distance at least 1 from the integer boundaries (2 M ± 1) 2 ^ (k - 1)
    obtain ⟨j, rfl⟩ := Nat.exists_eq_add_of_le hk
    have hp4 : (2 : ℝ) ^ (2 + j) = 4 * 2 ^ j := by rw [pow_add]; norm_num
    have hb1 : (s : ℝ) + 1 ≤ (2 * M + 1) * (2 * 2 ^ j) := by
      have h1 : (s : ℝ) ≤ (2 * M + 1) * (2 * 2 ^ j) := by
        have := hM1.2
        rw [sub_le_iff_le_add, div_le_iff₀ hp, hp4] at this
        linarith
      have h2 : s ≤ (2 * M + 1) * (2 * 2 ^ j) := by exact_mod_cast h1
      have h3 : (2 * M + 1) * (2 * 2 ^ j) = 2 * ((2 * M + 1) * 2 ^ j) := by ring
      rw [h3] at h2
      have h4 : s + 1 ≤ (2 * M + 1) * (2 * 2 ^ j) := by rw [h3]; omega
      exact_mod_cast h4
    have hb2 : 2 * (M : ℝ) * (2 * 2 ^ j) + 1 ≤ (s : ℝ) + 2 * 2 ^ j := by
      have h1 : 2 * (M : ℝ) * (2 * 2 ^ j) ≤ (s : ℝ) + 2 * 2 ^ j := by
        have := hM1.1
        rw [le_sub_iff_add_le, le_div_iff₀ hp, hp4] at this
        linarith
      have h2 : 2 * M * (2 * 2 ^ j) ≤ s + 2 * 2 ^ j := by exact_mod_cast h1
      have h3 : 2 * M * (2 * 2 ^ j) = 2 * (2 * M * 2 ^ j) := by ring
      rw [h3] at h2
      have h4 : 2 * M * (2 * 2 ^ j) + 1 ≤ s + 2 * 2 ^ j := by rw [h3]; omega
      exact_mod_cast h4
    have hlt : |w / 2 ^ (2 + j) - M| < 1 / 2 := by
      rw [abs_lt]
      constructor
      · rw [lt_sub_iff_add_lt, lt_div_iff₀ hp, hp4]
        linarith
      · rw [sub_lt_iff_lt_add, div_lt_iff₀ hp, hp4]
        linarith
    exact ⟨hlt.le, fun h => absurd h hlt.ne⟩

theorem RTO.half {w : ℝ} {s s' : ℕ} (h : RTO w s) (h' : RTO ((s : ℝ) / 2) s') :
    RTO (w / 2) s' := by
  rcases h with h | ⟨hodd, habs⟩
  · rw [h]; exact h'
  · right
    rcases h' with h' | ⟨hodd', habs'⟩
    · exfalso
      have : (s : ℝ) = 2 * s' := by linarith
      have : s = 2 * s' := by exact_mod_cast this
      omega
    · refine ⟨hodd', ?_⟩
      rw [abs_lt] at *
      have h1 : (s : ℝ) < 2 * s' + 2 := by linarith
      have h2 : (2 : ℝ) * s' < s + 2 := by linarith
      have h3 : s < 2 * s' + 2 := by exact_mod_cast h1
      have h4 : 2 * s' < s + 2 := by exact_mod_cast h2
      have h5 : s + 1 ≤ 2 * s' + 2 := by omega
      have h6 : 2 * s' + 1 ≤ s + 2 := by omega
      have h7 : s ≤ 2 * s' + 1 := by omega
      have h8 : 2 * s' ≤ s + 1 := by omega
      have h7' : (s : ℝ) ≤ 2 * s' + 1 := by exact_mod_cast h7
      have h8' : (2 : ℝ) * s' ≤ s + 1 := by exact_mod_cast h8
      constructor <;> linarith

theorem RTO.add_even {w : ℝ} {s c : ℕ} (h : RTO w s) (hc : c % 2 = 0) :
    RTO ((c : ℝ) + w) (c + s) := by
  rcases h with h | ⟨h1, h2⟩
  · left; rw [h]; push_cast; rfl
  · right
    refine ⟨by omega, ?_⟩
    push_cast
    rwa [show (c : ℝ) + w - (c + s) = w - s by ring]

theorem RTO.sub_even {w : ℝ} {s c : ℕ} (h : RTO w s) (hc : c % 2 = 0) (hs : s ≤ c) :
    RTO ((c : ℝ) - w) (c - s) := by
  rcases h with h | ⟨h1, h2⟩
  · left; rw [h]; push_cast [hs]; rfl
  · right
    refine ⟨by omega, ?_⟩
    push_cast [hs]
    rwa [show (c : ℝ) - w - (c - s) = -(w - s) by ring, abs_neg]

theorem RTO.lt {w : ℝ} {s m : ℕ} (h : RTO w s) (hs : s < m) : w < m := by
  rcases h with h | ⟨h1, h2⟩
  · rw [h]; exact_mod_cast hs
  · have h3 : s + 1 ≤ m := hs
    have h4 : (s : ℝ) + 1 ≤ m := by exact_mod_cast h3
    have := abs_lt.mp h2
    linarith

theorem RTO.ge {w : ℝ} {s m : ℕ} (h : RTO w s) (hm : m % 2 = 0) (hs : m ≤ s) : (m : ℝ) ≤ w := by
  rcases h with h | ⟨h1, h2⟩
  · rw [h]; exact_mod_cast hs
  · have h3 : m + 1 ≤ s := by omega
    have h4 : (m : ℝ) + 1 ≤ s := by exact_mod_cast h3
    have := abs_lt.mp h2
    linarith

/-! ## Assembling results -/

theorem RoundsTo.of_rne {v w : ℝ} {t M : ℕ} (hv : v = w * 2 ^ t) (h1 : w < 2 ^ 237)
    (h2 : t = 0 ∨ 2 ^ 236 ≤ w) (hM : RNE w M) (ht : t ≤ 524285) :
    RoundsTo v (t * 2 ^ 236 + M) := by
  have hp : (0 : ℝ) < 2 ^ t := by positivity
  have e : v - M * 2 ^ t = (w - M) * 2 ^ t := by rw [hv]; ring
  refine ⟨t, M, ?_, ?_, ?_, ?_, ?_⟩
  · rw [hv, pow_add]; exact mul_lt_mul_of_pos_right h1 hp
  · rcases h2 with h2 | h2
    · exact Or.inl h2
    · right; rw [hv, pow_add]; exact mul_le_mul_of_nonneg_right h2 hp.le
  · rw [e, abs_mul, abs_of_pos hp]
    have := mul_le_mul_of_nonneg_right hM.1 hp.le
    linarith
  · intro h
    rw [e, abs_mul, abs_of_pos hp] at h
    apply hM.2
    have : |w - M| * 2 ^ t = (1 / 2) * 2 ^ t := by linarith
    exact mul_right_cancel₀ hp.ne' this
  · rw [if_neg (by omega)]

theorem RoundsTo.inf {v : ℝ} {t : ℕ} (ht : 524286 ≤ t) (hv : 2 ^ 236 * 2 ^ t ≤ v) :
    RoundsTo v INF := by
  have hv1 : (1 : ℝ) ≤ v := by
    refine le_trans ?_ hv
    rw [← pow_add]; exact one_le_pow₀ (by norm_num)
  obtain ⟨n, h1, h2⟩ := exists_nat_pow_near hv1 (show (1 : ℝ) < 2 by norm_num)
  have hn : 236 + t ≤ n := by
    by_contra hlt
    have : (2 : ℝ) ^ (n + 1) ≤ 2 ^ (236 + t) := pow_le_pow_right₀ (by norm_num) (by omega)
    rw [pow_add 2 236 t] at this
    linarith
  obtain ⟨u, rfl⟩ := Nat.exists_eq_add_of_le (show 236 ≤ n by omega)
  have hp : (0 : ℝ) < 2 ^ u := by positivity
  obtain ⟨M, hM⟩ := RNE.exists (v / 2 ^ u) (by positivity)
  have e : v - M * 2 ^ u = (v / 2 ^ u - M) * 2 ^ u := by
    rw [sub_mul, div_mul_cancel₀ _ hp.ne']
  refine ⟨u, M, ?_, Or.inr h1, ?_, ?_, ?_⟩
  · rw [show 237 + u = 236 + u + 1 by omega]; exact h2
  · rw [e, abs_mul, abs_of_pos hp]
    have := mul_le_mul_of_nonneg_right hM.1 hp.le
    linarith
  · intro h
    rw [e, abs_mul, abs_of_pos hp] at h
    apply hM.2
    have : |v / 2 ^ u - M| * 2 ^ u = (1 / 2) * 2 ^ u := by linarith
    exact mul_right_cancel₀ hp.ne' this
  · rw [if_pos (by omega)]

theorem RoundsTo.exact {t M : ℕ} (h1 : M < 2 ^ 237) (h2 : t = 0 ∨ 2 ^ 236 ≤ M)
    (ht : t ≤ 524285) : RoundsTo ((M * 2 ^ t : ℕ) : ℝ) (t * 2 ^ 236 + M) := by
  refine RoundsTo.of_rne (w := M) (by push_cast; rfl) (by exact_mod_cast h1) ?_ (RNE.of_nat M) ht
  rcases h2 with h2 | h2
  · exact Or.inl h2
  · right; exact_mod_cast h2

end Verif
