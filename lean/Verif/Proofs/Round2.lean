import Verif.Proofs.Order
import Verif.Proofs.Sticky
import Verif.Proofs.U256Nat

/-!
# Facts about correct rounding: exactness, uniqueness, range
-/

namespace Verif

open Spec

theorem RoundsTo.le_INF {v : ℝ} {N : ℕ} (h : RoundsTo v N) : N ≤ INF := by
  obtain ⟨t, M, hv, hv0, hM, htie, hN⟩ := h
  have hMle := RoundsTo.M_le hv hM
  split at hN
  · exact hN.le
  · unfold INF; omega

theorem INF_lt : INF < 2 ^ 255 := by unfold INF; norm_num

theorem RoundsTo.lt_pow {v : ℝ} {N : ℕ} (h : RoundsTo v N) : N < 2 ^ 255 :=
  lt_of_le_of_lt h.le_INF INF_lt

/-- A representable magnitude rounds to itself. -/
theorem RoundsTo.self {N : ℕ} (h : IsFin N) : RoundsTo (mag N) (N % 2 ^ 255) := by
  obtain ⟨t, M, h1, h2, h3, h4, h5, -⟩ := fin_asm h
  rw [h5, h3]
  exact RoundsTo.exact h2 h1 h4

/-- `RoundsTo` determines the result. -/
theorem RoundsTo.unique {v : ℝ} {N L : ℕ} (h1 : RoundsTo v N) (h2 : RoundsTo v L) : N = L := by
  obtain ⟨t, M, hv, hv0, hM, htie, hN⟩ := h1
  obtain ⟨u, K, gv, gv0, gM, gtie, gN⟩ := h2
  have htu : t = u := by
    rcases Nat.lt_trichotomy t u with h | h | h
    · exfalso
      have := gv0.resolve_left (by omega)
      have h3 : (2 : ℝ) ^ (237 + t) ≤ 2 ^ (236 + u) := pow_le_pow_right₀ (by norm_num) (by omega)
      linarith
    · exact h
    · exfalso
      have := hv0.resolve_left (by omega)
      have h3 : (2 : ℝ) ^ (237 + u) ≤ 2 ^ (236 + t) := pow_le_pow_right₀ (by norm_num) (by omega)
      linarith
  subst htu
  have hp : (0 : ℝ) < 2 ^ t := by positivity
  have key : ∀ K : ℕ, |v - K * 2 ^ t| = |v / 2 ^ t - K| * 2 ^ t := fun K => by
    rw [← abs_of_pos hp, ← abs_mul, abs_of_pos hp, sub_mul, div_mul_cancel₀ _ hp.ne']
  rw [key] at hM htie gM gtie
  have hr : ∀ a : ℝ, a * 2 ^ t ≤ 2 ^ t / 2 → a ≤ 1 / 2 := fun a h =>
    le_of_mul_le_mul_right (by linarith) hp
  have hM' : RNE (v / 2 ^ t) M := ⟨hr _ hM, fun h => htie (by rw [h]; ring)⟩
  have hK' : RNE (v / 2 ^ t) K := ⟨hr _ gM, fun h => gtie (by rw [h]; ring)⟩
  rw [hN, gN, RNE.unique hM' hK']

theorem abs_smag (N : ℕ) : |(smag N : ℝ)| = mag N := by
  unfold smag
  split
  · rw [Int.cast_natCast, abs_of_nonneg (by positivity)]
  · rw [Int.cast_neg, abs_neg, Int.cast_natCast, abs_of_nonneg (by positivity)]

theorem abs_val (N : ℕ) : |val N| * 2 ^ 262378 = mag N := by
  rw [val_smag, abs_div, abs_smag, abs_of_pos (a := (2 : ℝ) ^ 262378) (by positivity),
    div_mul_cancel₀ _ (by positivity)]

theorem pat_split {N : ℕ} (h : N < 2 ^ 256) : N = signBit N * 2 ^ 255 + N % 2 ^ 255 := by
  unfold signBit; omega

theorem val_pos_sign {N : ℕ} (h : 0 < val N) : signBit N = 0 := by
  rcases signBit_cases N with h' | h'
  · exact h'
  · exfalso
    rw [val_eq, h', pow_one] at h
    have : (0 : ℝ) ≤ mag N / 2 ^ 262378 := by positivity
    linarith

theorem val_neg_sign {N : ℕ} (h : val N < 0) : signBit N = 1 := by
  rcases signBit_cases N with h' | h'
  · exfalso
    rw [val_eq, h', pow_zero] at h
    have : (0 : ℝ) ≤ mag N / 2 ^ 262378 := by positivity
    linarith
  · exact h'

/-- Every finite number is the rounding of its own value. -/
theorem isRNE_self {N : ℕ} (hN : N < 2 ^ 256) (h : IsFin N) : IsRNE (val N) N := by
  have key : IsRNE (val N) (signBit N * 2 ^ 255 + N % 2 ^ 255) := by
    refine RoundsTo.isRNE ?_ ?_ val_pos_sign val_neg_sign
    · rw [abs_val]; exact RoundsTo.self h
    · rcases signBit_cases N with h' | h' <;> omega
  rwa [← pat_split hN] at key

theorem val_zero {N : ℕ} (h : IsZero N) : val N = 0 := by
  rw [val_eq, ← mag_abs, (isZero_iff N).mp h, mag_zero, Nat.cast_zero, zero_div, mul_zero]

theorem val_eq_zero_iff {N : ℕ} (hf : IsFin N) : val N = 0 ↔ IsZero N := by
  refine ⟨fun h => ?_, val_zero⟩
  rw [isZero_iff]
  by_contra hne
  have h1 := mag_pos (Nat.pos_of_ne_zero hne) ((fin_iff N).mp hf)
  rw [mag_abs] at h1
  have h2 := abs_val N
  rw [h, abs_zero, zero_mul] at h2
  have : (0 : ℝ) < mag N := by exact_mod_cast h1
  linarith

/-- Two finite patterns with the same value are equal up to the sign of zero. -/
theorem eq_of_val {N M : ℕ} (hN : N < 2 ^ 256) (hM : M < 2 ^ 256) (fN : IsFin N) (fM : IsFin M)
    (h : val N = val M) : N = M ∨ (IsZero N ∧ IsZero M) := by
  rw [val_eq_iff] at h
  have h1 := smag_lt_iff fN fM
  have h2 := smag_lt_iff fM fN
  have : spos N = spos M := by omega
  rw [isZero_iff, isZero_iff]
  unfold spos at this
  have a := pat_split hN
  have b := pat_split hM
  rcases signBit_cases N with h3 | h3 <;> rcases signBit_cases M with h4 | h4 <;>
    simp only [h3, h4, if_true, if_false, one_ne_zero] at this a b <;> omega

/-- The rounded result is unique (up to the sign of a zero result of an exactly zero value). -/
theorem IsRNE.unique {q : ℝ} {N M : ℕ} (h1 : IsRNE q N) (h2 : IsRNE q M) (hq : q ≠ 0) :
    N = M := by
  have hs : signBit N = signBit M := by
    rcases lt_or_gt_of_ne hq with h | h
    · rw [h1.neg h, h2.neg h]
    · rw [h1.pos h, h2.pos h]
  have a := pat_split h1.lt
  have b := pat_split h2.lt
  rcases lt_or_ge |q| overflowThreshold with hlt | hge
  · have f1 := h1.fin hlt
    have f2 := h2.fin hlt
    have n1 := h1.nearest hlt M h2.lt f2
    have n2 := h2.nearest hlt N h1.lt f1
    have hne : |val M - q| = |val N - q| := le_antisymm n2 n1
    by_cases hv : val N = val M
    · rcases eq_of_val h1.lt h2.lt f1 f2 hv with h | ⟨h, h'⟩
      · exact h
      · rw [isZero_iff] at h h'
        rw [a, b, hs, h, h']
    · exfalso
      have e1 := h1.even hlt M h2.lt f2 hne (fun h => hv h.symm)
      have e2 := h2.even hlt N h1.lt f1 hne.symm hv
      -- the neighbours of an even pattern are odd: compare with the pattern in between
      have hmid : (N : ℤ) ≠ M := fun h => hv (by rw [Int.ofNat_inj.mp h])
      have key : ∀ A B : ℕ, IsFin A → IsFin B → A < 2 ^ 256 → B < 2 ^ 256 →
          signBit A = signBit B → A % 2 = 0 → B % 2 = 0 → A < B →
          |val A - q| = |val B - q| → (∀ C, C < 2 ^ 256 → IsFin C → |val A - q| ≤ |val C - q|) →
          False := by
        intro A B fA fB lA lB hsAB eA eB hAB hd hn
        have pA := pat_split lA
        have pB := pat_split lB
        have fC : IsFin (A + 1) := by rw [fin_iff] at *; omega
        have lC : A + 1 < 2 ^ 256 := by omega
        have hsC : signBit (A + 1) = signBit A := by
          unfold signBit at *
          omega
        have sAC : A % 2 ^ 255 < (A + 1) % 2 ^ 255 := by
          rw [fin_iff] at fC
          unfold signBit at *
          have := INF_lt
          omega
        have sCB : (A + 1) % 2 ^ 255 < B % 2 ^ 255 := by
          unfold signBit at *
          omega
        have hC := hn (A + 1) lC fC
        have m1 := mag_lt_of_lt sAC ((fin_iff _).mp fC)
        have m2 := mag_lt_of_lt sCB ((fin_iff _).mp fB)
        rw [mag_abs, mag_abs] at m1 m2
        have hbetween : (val A < val (A + 1) ∧ val (A + 1) < val B) ∨
            (val B < val (A + 1) ∧ val (A + 1) < val A) := by
          rw [val_lt_iff, val_lt_iff, val_lt_iff, val_lt_iff]
          unfold smag
          rw [hsC, ← hsAB]
          rcases signBit_cases A with h | h
          · left; simp only [h, if_true]; omega
          · right; simp only [h, one_ne_zero, if_false]; omega
        generalize val A = α at *
        generalize val B = β at *
        generalize val (A + 1) = γ at *
        rcases hbetween with ⟨h1, h2⟩ | ⟨h1, h2⟩
        · rcases abs_eq_abs.mp hd with h | h
          · linarith
          · have : γ - q < β - q := by linarith
            have : α - q < γ - q := by linarith
            have hb : |γ - q| < |β - q| := by
              rw [abs_of_pos (a := β - q) (by linarith), abs_lt]
              constructor <;> linarith
            rw [← hd] at hb
            linarith
        · rcases abs_eq_abs.mp hd with h | h
          · linarith
          · have hb : |γ - q| < |α - q| := by
              rw [abs_of_pos (a := α - q) (by linarith), abs_lt]
              constructor <;> linarith
            linarith
      rcases lt_or_gt_of_ne (fun h => hv (by rw [h]) : N ≠ M) with h | h
      · exact key N M f1 f2 h1.lt h2.lt hs e1 e2 h hne.symm (h1.nearest hlt)
      · exact key M N f2 f1 h2.lt h1.lt hs.symm e2 e1 h hne (h2.nearest hlt)
  · have i1 := (isInf_iff N).mp (h1.inf hge)
    have i2 := (isInf_iff M).mp (h2.inf hge)
    rw [a, b, hs, i1, i2]

/-- Attaching a sign to a result. -/
theorem nat_or_sign {z : U256} {h : BitVec 128} {s : ℕ} (hz : nat256 z < 2 ^ 255)
    (hs : h.toNat = s * 2 ^ 127) : nat256 ⟨z.hi ||| h, z.lo⟩ = s * 2 ^ 255 + nat256 z := by
  have h1 := z.lo.isLt
  have h2 : z.hi.toNat < 2 ^ 127 := by unfold nat256 at hz; omega
  rw [nat256_mk, BitVec.toNat_or, hs, or_disjoint' h2, nat256]
  ring

end Verif
