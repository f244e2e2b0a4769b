import Verif.Proofs.Exact

/-!
# Representable sums, for error-free transformations

Everything here is about integers, the values in units of `2^-262378`.
-/

namespace Verif

open Spec

/-- `Z * 2^-262378` is representable. -/
def Rep (Z : ℤ) : Prop := ∃ k t : ℕ, k < 2 ^ 237 ∧ t ≤ 524285 ∧ |Z| = k * 2 ^ t

/-- Multiples of `2^t` with at most 237 bits, and `2^237` times it -/
theorem rep_of {Z : ℤ} {t : ℕ} (ht : t ≤ 524285) (hd : (2 : ℤ) ^ t ∣ Z) (h1 : |Z| ≤ 2 ^ 237 * 2 ^ t)
    (h2 : |Z| < 2 ^ 237 * 2 ^ 524285) : Rep Z := by
  obtain ⟨c, hc⟩ := hd
  have hp : (0 : ℤ) < 2 ^ t := by positivity
  have ha : |Z| = |c| * 2 ^ t := by rw [hc, abs_mul, abs_of_pos hp, mul_comm]
  rw [ha] at h1
  have h3 : |c| ≤ 2 ^ 237 := le_of_mul_le_mul_right h1 hp
  have hcn : ((c.natAbs : ℕ) : ℤ) = |c| := Int.natCast_natAbs c
  rcases lt_or_eq_of_le h3 with h | h
  · refine ⟨c.natAbs, t, ?_, ht, by rw [hcn, ha]⟩
    have : ((c.natAbs : ℕ) : ℤ) < 2 ^ 237 := by rw [hcn]; exact h
    exact_mod_cast this
  · rw [ha, h] at h2
    have h4 : (2 : ℤ) ^ t < 2 ^ 524285 := lt_of_mul_lt_mul_left h2 (by positivity)
    have h5 : t < 524285 := by
      by_contra hh
      have : (2 : ℤ) ^ 524285 ≤ 2 ^ t := pow_le_pow_right₀ (by norm_num) (by omega)
      exact absurd h4 (not_lt.mpr this)
    refine ⟨2 ^ 236, t + 1, by norm_num, by omega, ?_⟩
    rw [ha, h, pow_succ]
    push_cast
    ring

/-- Canonical form of a representable number -/
structure Can (Z : ℤ) (t M : ℕ) : Prop where
  abs : |Z| = M * 2 ^ t
  M_lt : M < 2 ^ 237
  t_le : t ≤ 524285
  norm : t = 0 ∨ 2 ^ 236 ≤ M

theorem Can.rep {Z : ℤ} {t M : ℕ} (h : Can Z t M) : Rep Z := ⟨M, t, h.M_lt, h.t_le, h.abs⟩

theorem Can.dvd {Z : ℤ} {t M u : ℕ} (h : Can Z t M) (hu : u ≤ t) : (2 : ℤ) ^ u ∣ Z := by
  rw [← dvd_abs, h.abs]
  exact Dvd.dvd.mul_left (pow_dvd_pow 2 hu) _

theorem Can.lt {Z : ℤ} {t M : ℕ} (h : Can Z t M) : |Z| ≤ 2 ^ 237 * 2 ^ t - 2 ^ t := by
  rw [h.abs]
  have h1 : ((M : ℕ) : ℤ) ≤ 2 ^ 237 - 1 := by have := h.M_lt; omega
  have h2 := mul_le_mul_of_nonneg_right h1 (show (0 : ℤ) ≤ 2 ^ t by positivity)
  linarith

/-- The larger of two numbers has the larger quantum. -/
theorem Can.le {A B : ℤ} {ta tb Ma Mb : ℕ} (hA : Can A ta Ma) (hB : Can B tb Mb) (h : |B| ≤ |A|) : tb ≤ ta := by
  by_contra hc
  push Not at hc
  have h1 := hA.lt
  have h2 : 2 ^ 236 ≤ Mb := hB.norm.resolve_left (by omega)
  have h3 : (2 : ℤ) ^ (ta + 1) ≤ 2 ^ tb := pow_le_pow_right₀ (by norm_num) hc
  have h4 : (2 : ℤ) ^ 236 * 2 ^ (ta + 1) ≤ |B| := by
    rw [hB.abs]
    exact mul_le_mul (by exact_mod_cast h2) h3 (by positivity) (by positivity)
  rw [pow_succ _ ta] at h4
  have hp : (0 : ℤ) < 2 ^ ta := by positivity
  linarith

/-- Rounding a multiple of `2^t` is exact, or the result is a multiple of `2^(t + 1)` and at least `2^237 * 2^t`. -/
theorem inexact_quantum {X S : ℤ} {t ts Ms : ℕ} (ht : t ≤ 524285) (hd : (2 : ℤ) ^ t ∣ X) (hS : Can S ts Ms)
    (hN : ∀ W, Rep W → |S - X| ≤ |W - X|) (hX : |X| < 2 ^ 237 * 2 ^ 524285) (heq : S ≠ X) :
    ¬Rep X ∧ t < 524285 ∧ t + 1 ≤ ts ∧ 2 ^ 237 * 2 ^ t < |X| ∧ 2 ^ 237 * 2 ^ t ≤ |S| := by
  have hnr : ¬Rep X := fun hr => by
    have := hN X hr
    rw [sub_self, abs_zero] at this
    exact heq (sub_eq_zero.mp (abs_eq_zero.mp (le_antisymm this (abs_nonneg _))))
  have hbig : (2 : ℤ) ^ 237 * 2 ^ t < |X| := by
    by_contra hc
    exact hnr (rep_of ht hd (not_lt.mp hc) hX)
  have htb : t < 524285 := by
    by_contra hc
    have h1 : (2 : ℤ) ^ 524285 ≤ 2 ^ t := pow_le_pow_right₀ (by norm_num) (by omega)
    have h2 : (2 : ℤ) ^ 237 * 2 ^ 524285 ≤ 2 ^ 237 * 2 ^ t := mul_le_mul_of_nonneg_left h1 (by positivity)
    exact absurd (lt_trans hbig hX) (not_lt.mpr h2)
  have hpow : (2 : ℤ) ^ (t + 1) = 2 * 2 ^ t := by rw [pow_succ, mul_comm]
  have rP : ∀ W : ℤ, |W| = 2 ^ 237 * 2 ^ t → Rep W := fun W hW =>
    ⟨2 ^ 236, t + 1, by norm_num, by omega, by rw [hW, hpow]; push_cast; ring⟩
  have hSP : (2 : ℤ) ^ 237 * 2 ^ t ≤ |S| := by
    have c1 := hN (2 ^ 237 * 2 ^ t) (rP _ (abs_of_pos (by positivity)))
    have c2 := hN (-(2 ^ 237 * 2 ^ t)) (rP _ (by rw [abs_neg]; exact abs_of_pos (by positivity)))
    generalize (2 : ℤ) ^ t = q at *
    clear hnr rP hN hX hd
    rcases abs_cases X with x | x <;> rcases abs_cases S with s | s <;> rcases abs_cases (S - X) with y | y <;>
      rcases abs_cases (2 ^ 237 * q - X) with z | z <;> rcases abs_cases (-(2 ^ 237 * q) - X) with w | w <;> omega
  refine ⟨hnr, htb, ?_, hbig, hSP⟩
  by_contra hc
  have h1 := hS.lt
  have h2 : (2 : ℤ) ^ ts ≤ 2 ^ t := pow_le_pow_right₀ (by norm_num) (by omega)
  have h3 : (0 : ℤ) < 2 ^ ts := by positivity
  linarith

theorem two_pow_bound {t : ℕ} (h : t < 524285) : (2 : ℤ) ^ 237 * 2 ^ t * 2 ≤ 2 ^ 237 * 2 ^ 524285 := by
  have hmax : (2 : ℤ) ^ t * 2 ≤ 2 ^ 524285 := by
    rw [← pow_succ]; exact pow_le_pow_right₀ (by norm_num) (by omega)
  rw [mul_assoc]; exact mul_le_mul_of_nonneg_left hmax (by positivity)

/-- The error of the sum of two numbers with the same quantum is at most this quantum. -/
theorem same_quantum {A B S : ℤ} {t ts Ma Mb Ms : ℕ} (hA : Can A t Ma) (hB : Can B t Mb) (hS : Can S ts Ms)
    (hN : ∀ W, Rep W → |S - (A + B)| ≤ |W - (A + B)|) (hX : |A + B| < 2 ^ 237 * 2 ^ 524285) : |S - (A + B)| ≤ 2 ^ t := by
  have hAl := hA.lt
  have hBl := hB.lt
  have hXl : |A + B| ≤ |A| + |B| := abs_add_le _ _
  have dX : (2 : ℤ) ^ t ∣ A + B := dvd_add (hA.dvd le_rfl) (hB.dvd le_rfl)
  have ht := hA.t_le
  clear hA hB
  generalize A + B = X at *
  have hq : (0 : ℤ) < 2 ^ t := by positivity
  by_cases heq : S = X
  · rw [heq, sub_self, abs_zero]; exact hq.le
  obtain ⟨hnr, htb, -, hbig, -⟩ := inexact_quantum ht dX hS hN hX heq
  have hpow : (2 : ℤ) ^ (t + 1) = 2 * 2 ^ t := by rw [pow_succ, mul_comm]
  -- `X` is an odd multiple
  obtain ⟨c, hc⟩ := dX
  have hodd : c % 2 = 1 := by
    by_contra hc2
    obtain ⟨d, rfl⟩ : ∃ d, c = 2 * d := ⟨c / 2, by omega⟩
    refine hnr (rep_of (t := t + 1) (by omega) ⟨d, by rw [hc, hpow]; ring⟩ ?_ hX)
    rw [hpow]; linarith
  have near : ∃ W, Rep W ∧ |W - X| = 2 ^ t := by
    rcases le_or_gt 0 X with h0 | h0
    · refine ⟨X - 2 ^ t, rep_of (t := t + 1) (by omega) ⟨c / 2, ?_⟩ ?_ ?_, ?_⟩
      · rw [hc, hpow]
        obtain ⟨d, rfl⟩ : ∃ d, c = 2 * d + 1 := ⟨c / 2, by omega⟩
        rw [show (2 * d + 1) / 2 = d by omega]
        ring
      · rw [abs_of_nonneg h0] at hbig hXl
        rw [abs_of_nonneg (by linarith), hpow]
        linarith
      · rw [abs_of_nonneg h0] at hbig hX
        rw [abs_of_nonneg (by linarith)]
        exact lt_trans (by linarith) hX
      · rw [show X - 2 ^ t - X = -2 ^ t by ring, abs_neg, abs_of_pos hq]
    · refine ⟨X + 2 ^ t, rep_of (t := t + 1) (by omega) ⟨c / 2 + 1, ?_⟩ ?_ ?_, ?_⟩
      · rw [hc, hpow]
        obtain ⟨d, rfl⟩ : ∃ d, c = 2 * d + 1 := ⟨c / 2, by omega⟩
        rw [show (2 * d + 1) / 2 = d by omega]
        ring
      · rw [abs_of_neg h0] at hbig hXl
        rw [abs_of_nonpos (by linarith), hpow]
        linarith
      · rw [abs_of_neg h0] at hbig hX
        rw [abs_of_nonpos (by linarith)]
        exact lt_trans (by linarith) hX
      · rw [show X + 2 ^ t - X = 2 ^ t by ring, abs_of_pos hq]
  obtain ⟨W, w1, w2⟩ := near
  have hEq := hN W w1
  rwa [w2] at hEq

theorem rep_zero : Rep 0 := ⟨0, 0, by norm_num, by norm_num, by simp⟩

/-- If `S` is nearest to `A + B` and `|B| ≤ |A|`, then `S - A` and the error `A + B - S` are representable. -/
theorem fast_two_sum {A B S : ℤ} {ta tb ts Ma Mb Ms : ℕ} (hA : Can A ta Ma) (hB : Can B tb Mb) (hS : Can S ts Ms)
    (hN : ∀ W, Rep W → |S - (A + B)| ≤ |W - (A + B)|) (hX : |A + B| < 2 ^ 237 * 2 ^ 524285) (h : |B| ≤ |A|) :
    Rep (S - A) ∧ Rep (A + B - S) := by
  by_cases heq : S = A + B
  · refine ⟨?_, ?_⟩
    · rw [show S - A = B by omega]; exact hB.rep
    · rw [heq, sub_self]; exact rep_zero
  have htab := Can.le hA hB h
  have hq : (0 : ℤ) < 2 ^ tb := by positivity
  have dA := hA.dvd htab
  have dB := hB.dvd (le_refl tb)
  have dX := dvd_add dA dB
  obtain ⟨-, htb, hts, -, -⟩ := inexact_quantum hB.t_le dX hS hN hX heq
  have hpow : (2 : ℤ) ^ (tb + 1) = 2 * 2 ^ tb := by rw [pow_succ, mul_comm]
  have dS := hS.dvd hts
  have dS' : (2 : ℤ) ^ tb ∣ S := dvd_trans (pow_dvd_pow 2 (by omega)) dS
  have hBl := hB.lt
  have hE : |S - (A + B)| ≤ |B| := by
    have := hN A hA.rep
    rwa [show A - (A + B) = -B by ring, abs_neg] at this
  have bnd := two_pow_bound htb
  refine ⟨?_, ?_⟩
  swap
  · refine rep_of hB.t_le (dvd_sub dX dS') ?_ (lt_of_lt_of_le ?_ bnd) <;> rw [abs_sub_comm] <;> linarith
  have htri : |S - A| ≤ |S - (A + B)| + |B| := by
    refine le_trans (le_of_eq ?_) (abs_add_le _ _)
    congr 1
    ring
  rcases Nat.lt_or_ge tb ta with hlt | hge
  · have dA' := hA.dvd (show tb + 1 ≤ ta from hlt)
    refine rep_of (t := tb + 1) (by omega) (dvd_sub dS dA') ?_ (lt_of_lt_of_le ?_ bnd)
    · rw [hpow]; linarith
    · linarith
  obtain rfl : ta = tb := by omega
  have hEq := same_quantum hA hB hS hN hX
  refine rep_of hB.t_le (dvd_sub dS' dA) ?_ (lt_of_lt_of_le ?_ bnd) <;> linarith

/-- The steps of the algorithm of Møller and Knuth if the second number is the larger one: `V` is the rounding of `S - A`. -/
theorem two_sum {A B S V : ℤ} {ta tb ts tv Ma Mb Ms Mv : ℕ} (hA : Can A ta Ma) (hB : Can B tb Mb) (hS : Can S ts Ms) (hV : Can V tv Mv)
    (hN : ∀ W, Rep W → |S - (A + B)| ≤ |W - (A + B)|) (hX : |A + B| < 2 ^ 237 * 2 ^ 524285)
    (hNV : ∀ W, Rep W → |V - (S - A)| ≤ |W - (S - A)|) (hXV : |S - A| < 2 ^ 237 * 2 ^ 524285) (h : |A| ≤ |B|) :
    Rep (S - V) ∧ Rep (A - (S - V)) ∧ Rep (B - V) ∧ Rep (A + B - S) := by
  have hN' : ∀ W, Rep W → |S - (B + A)| ≤ |W - (B + A)| := by rw [add_comm B]; exact hN
  have hX' : |B + A| < 2 ^ 237 * 2 ^ 524285 := by rw [add_comm B]; exact hX
  have hE := (fast_two_sum hB hA hS hN' hX' h).2
  rw [add_comm B] at hE
  have exV : Rep (S - A) → V = S - A := fun hr => by
    have := hNV _ hr
    rw [sub_self, abs_zero] at this
    exact sub_eq_zero.mp (abs_eq_zero.mp (le_antisymm this (abs_nonneg _)))
  by_cases heq : S = A + B
  · have hv := exV (by rw [heq, add_sub_cancel_left]; exact hB.rep)
    rw [heq, add_sub_cancel_left] at hv
    refine ⟨?_, ?_, ?_, hE⟩
    · rw [heq, hv, add_sub_cancel_right]; exact hA.rep
    · rw [heq, hv, add_sub_cancel_right, sub_self]; exact rep_zero
    · rw [hv, sub_self]; exact rep_zero
  have htab := Can.le hB hA h
  have dA := hA.dvd (le_refl ta)
  have dB := hB.dvd htab
  obtain ⟨-, hta, hts, -, hSl⟩ := inexact_quantum hA.t_le (dvd_add dA dB) hS hN hX heq
  have hAl := hA.lt
  have hq : (0 : ℤ) < 2 ^ ta := by positivity
  have hpow : (2 : ℤ) ^ (ta + 1) = 2 * 2 ^ ta := by rw [pow_succ, mul_comm]
  have dS' : (2 : ℤ) ^ ta ∣ S := hS.dvd (by omega)
  have bnd := two_pow_bound hta
  have hAn : Can (-A) ta Ma := ⟨by rw [abs_neg]; exact hA.abs, hA.M_lt, hA.t_le, hA.norm⟩
  obtain ⟨r1, r2⟩ := fast_two_sum hS hAn hV (by rw [← sub_eq_add_neg]; exact hNV) (by rw [← sub_eq_add_neg]; exact hXV)
    (by rw [abs_neg]; linarith)
  have neg : ∀ Z, Rep Z → Rep (-Z) := fun Z ⟨k, t, h1, h2, h3⟩ => ⟨k, t, h1, h2, by rw [abs_neg]; exact h3⟩
  refine ⟨by have := neg _ r1; rwa [neg_sub] at this, ?_, ?_, hE⟩
  · have := neg _ r2
    rwa [show -(S + -A - V) = A - (S - V) by ring] at this
  by_cases hv : V = S - A
  · rw [hv, show B - (S - A) = A + B - S by ring]; exact hE
  obtain ⟨-, -, htv, -, -⟩ := inexact_quantum hA.t_le (dvd_sub dS' dA) hV hNV hXV hv
  -- the distance of `V` from `B`
  have hVB : |B - V| ≤ 2 * |S - (A + B)| := by
    have h1 := hNV B hB.rep
    rw [show B - (S - A) = -(S - (A + B)) by ring, abs_neg] at h1
    have h2 := abs_add_le (V - (S - A)) (S - (A + B))
    rw [show V - (S - A) + (S - (A + B)) = -(B - V) by ring, abs_neg] at h2
    linarith
  have hEA : |S - (A + B)| ≤ |A| := by
    have := hN B hB.rep
    rwa [show B - (A + B) = -A by ring, abs_neg] at this
  rcases Nat.lt_or_ge ta tb with hlt | hge
  · refine rep_of (t := ta + 1) (by omega) (dvd_sub (hB.dvd hlt) (hV.dvd htv)) ?_ (lt_of_lt_of_le ?_ bnd)
    · rw [hpow]; linarith
    · linarith
  obtain rfl : tb = ta := by omega
  have hEq := same_quantum hA hB hS hN hX
  refine rep_of hA.t_le (dvd_sub dB (hV.dvd (by omega))) ?_ (lt_of_lt_of_le ?_ bnd) <;> linarith

end Verif
