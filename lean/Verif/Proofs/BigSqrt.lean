import Verif.Proofs.BigDiv
import Verif.Proofs.Sqrt

/-!
# Square roots of `BigFloat`
-/

set_option exponentiation.threshold 2000

namespace Verif.BigFloat

open BigUInt LawfulBigUInt

theorem nat_ofSub (m : U256) : UInt.nat (UInt.ofSub m : U512) = nat256 m := by
  rw [nat512]
  show nat256 (UInt.zero : U256) * 2 ^ 256 + nat256 m = _
  rw [zero256, Nat.zero_mul, Nat.zero_add]

theorem add512 {x y : U512} (h : UInt.nat x + UInt.nat y < 2 ^ 512) :
    ∃ r, UInt.add x y = some r ∧ UInt.nat r = UInt.nat x + UInt.nat y := UInt.add_some h

theorem sub512 {x y : U512} (h : UInt.nat y ≤ UInt.nat x) :
    ∃ r, UInt.sub x y = some r ∧ UInt.nat r = UInt.nat x - UInt.nat y := UInt.sub_some h

theorem isZero512 (x : U512) : BigUInt.isZero x = decide (UInt.nat x = 0) := isZero_eq (α := U512) x

theorem lt512 (x y : U512) : BigUInt.lt x y = decide (UInt.nat x < UInt.nat y) := lt_eq (α := U512) x y

/-- The loop computes the integer square root `q` of `N`; the remainder is zero exactly if `N` is a square. -/
theorem sqrtLoop_spec {N : ℕ} (hN : N < 2 ^ 512) : ∀ (n : ℕ) (q : U256) (r : U512) (s : U256),
    n ≤ 255 → nat256 s = 2 ^ n → nat256 q * nat256 q + UInt.nat r * 2 ^ n = N →
    N < (nat256 q + 2 ^ n) * (nat256 q + 2 ^ n) →
    ∃ q' r', sqrtLoop n q r s = some (q', r') ∧ nat256 q' * nat256 q' ≤ N ∧
      N < (nat256 q' + 1) * (nat256 q' + 1) ∧ (UInt.nat r' = 0 ↔ nat256 q' * nat256 q' = N) := by
  intro n
  induction n with
  | zero =>
    intro q r s hn hs h1 h2
    rw [pow_zero] at h1 h2
    exact ⟨q, r, rfl, by omega, h2, by omega⟩
  | succ n ih =>
    intro q r s hn hs h1 h2
    rw [sqrtLoop, isZero512]
    have hq : nat256 q < 2 ^ 256 := nat256_lt q
    have hp : 2 ^ n ≤ 2 ^ 254 := Nat.pow_le_pow_right (by norm_num) (by omega)
    have hp0 : 0 < 2 ^ n := Nat.two_pow_pos n
    by_cases hr : UInt.nat r = 0
    · rw [hr, decide_eq_true rfl, if_pos rfl]
      rw [hr, Nat.zero_mul, Nat.add_zero] at h1
      refine ⟨q, r, rfl, by omega, ?_, by simp [hr, h1]⟩
      rw [← h1]; exact Nat.mul_lt_mul'' (by omega) (by omega)
    · rw [decide_eq_false hr, if_neg (by decide)]
      rw [pow_succ] at h1 h2 hs
      -- remainder bound
      have hrb : UInt.nat r < 2 * nat256 q + 2 ^ n * 2 := by
        by_contra hc
        have : (2 * nat256 q + 2 ^ n * 2) * (2 ^ n * 2) ≤ UInt.nat r * (2 ^ n * 2) :=
          Nat.mul_le_mul_right _ (not_lt.mp hc)
        nlinarith
      have s1 : nat256 (UInt.shr s 1) = 2 ^ n := by
        rw [nat_shr256 s (by norm_num), hs, pow_one, Nat.mul_div_cancel _ (by norm_num)]
      have r1 : UInt.nat (UInt.shl r 1) = UInt.nat r * 2 := by
        rw [nat_shl512 r (by norm_num), pow_one, Nat.mod_eq_of_lt (by omega)]
      have q1 : UInt.nat (UInt.shl (UInt.ofSub q : U512) 1) = nat256 q * 2 := by
        rw [nat_shl512 _ (by norm_num), pow_one, nat_ofSub, Nat.mod_eq_of_lt (by omega)]
      have s2 : UInt.nat (UInt.ofSub (UInt.shr s 1) : U512) = 2 ^ n := by rw [nat_ofSub, s1]
      obtain ⟨u, hu, hu'⟩ := add512 (x := UInt.shl (UInt.ofSub q) 1) (y := UInt.ofSub (UInt.shr s 1)) (by omega)
      dsimp only
      rw [hu, Option.bind_eq_bind, Option.bind_some, lt512]
      have hqs : nat256 q + 2 ^ n < 2 ^ 256 ∨ UInt.nat (UInt.shl r 1) < UInt.nat u := by
        by_contra hc
        rw [not_or, not_lt, not_lt] at hc
        rw [hu', r1, q1, s2] at hc
        obtain ⟨k, hk⟩ := Nat.exists_eq_add_of_le hc.2
        have e : N = (nat256 q + 2 ^ n) * (nat256 q + 2 ^ n) + k * 2 ^ n := by
          rw [← h1]
          have e : UInt.nat r * (2 ^ n * 2) = (UInt.nat r * 2) * 2 ^ n := by ring
          rw [e, hk]; ring
        have : 2 ^ 256 * 2 ^ 256 ≤ (nat256 q + 2 ^ n) * (nat256 q + 2 ^ n) := Nat.mul_le_mul hc.1 hc.1
        have e2 : (2 : ℕ) ^ 256 * 2 ^ 256 = 2 ^ 512 := by rw [← pow_add]
        have : (nat256 q + 2 ^ n) * (nat256 q + 2 ^ n) ≤ N := by rw [e]; exact Nat.le_add_right _ _
        omega
      by_cases hc : UInt.nat (UInt.shl r 1) < UInt.nat u
      · rw [if_pos (decide_eq_true hc)]
        rw [hu', s2, r1, q1] at hc
        refine ih q (UInt.shl r 1) (UInt.shr s 1) (by omega) s1 ?_ ?_
        · rw [r1, ← h1]; ring
        · have : UInt.nat r * 2 * 2 ^ n < (nat256 q * 2 + 2 ^ n) * 2 ^ n :=
            Nat.mul_lt_mul_of_pos_right hc hp0
          nlinarith
      · rw [if_neg (by rw [decide_eq_true_iff]; exact hc)]
        have hqs := hqs.resolve_right hc
        obtain ⟨q2, hq2, hq2'⟩ := add256 (x := q) (y := UInt.shr s 1) (by rw [s1]; exact hqs)
        obtain ⟨r2, hr2, hr2'⟩ := sub512 (x := UInt.shl r 1) (y := u) (by omega)
        rw [hq2, hr2]
        simp only [Option.bind_eq_bind, Option.bind_some]
        rw [r1, hu', q1, s2] at hr2' hc
        rw [s1] at hq2'
        refine ih q2 r2 (UInt.shr s 1) (by omega) s1 ?_ ?_
        · obtain ⟨k, hk⟩ := Nat.exists_eq_add_of_le (not_lt.mp hc)
          have : UInt.nat r2 = k := by rw [hr2']; omega
          rw [hq2', this, ← h1]
          have e : UInt.nat r * (2 ^ n * 2) = (UInt.nat r * 2) * 2 ^ n := by ring
          rw [e, hk]; ring
        · rw [hq2']
          have e : nat256 q + 2 ^ n + 2 ^ n = nat256 q + 2 ^ n * 2 := by ring
          rw [e]; exact h2

theorem signifOne_nat : nat256 (UInt.shl SIGNIF_ONE 1) = 2 ^ 255 := by decide +kernel

theorem and_three (b : BitVec 128) : (b &&& 3#128).toNat = b.toNat % 4 := by
  rw [BitVec.toNat_and]
  exact Nat.and_two_pow_sub_one_eq_mod b.toNat 2

/-- The significand of a square root: the integer square root with one extra bit, rounded -/
theorem sqrt_signif {x : BigFloat} (hx : Norm x) : ∃ s : U256, ∃ M : ℕ,
    sqrt x = some ⟨1, (x.exp - x.exp % 2) / 2, s⟩ ∧ nat256 s = M ∧ 2 ^ 254 ≤ M ∧ M < 2 ^ 255 ∧
    |Real.sqrt ((nat256 x.signif * 2 ^ (256 + (x.exp % 2).toNat) : ℕ) : ℝ) / 2 - M| ≤ 1 / 2 := by
  obtain ⟨hs, h1, h2⟩ := hx
  have hsg : x.signum ≠ 0 := by rcases hs with h | h <;> rw [h] <;> decide
  obtain ⟨o, ho⟩ : ∃ o, o = (x.exp % 2).toNat := ⟨_, rfl⟩
  have ho1 : o ≤ 1 := by omega
  have hpo : 2 ^ o = 1 ∨ 2 ^ o = 2 := by
    rcases (by omega : o = 0 ∨ o = 1) with g | g <;> rw [g]
    · exact Or.inl rfl
    · exact Or.inr rfl
  unfold sqrt
  rw [if_neg hsg]
  dsimp only
  rw [← ho]
  have l1 : UInt.nat (UInt.shl (UInt.ofSub x.signif : U512) (1 + o)) = nat256 x.signif * 2 * 2 ^ o := by
    rw [nat_shl512 _ (by omega), nat_ofSub, Nat.pow_add, pow_one, ← Nat.mul_assoc, Nat.mod_eq_of_lt]
    rcases hpo with g | g <;> rw [g] <;> omega
  obtain ⟨q, hq⟩ : ∃ q : U256, q = UInt.shl SIGNIF_ONE 1 := ⟨_, rfl⟩
  have hqn : nat256 q = 2 ^ 255 := by rw [hq, signifOne_nat]
  rw [← hq]
  have hge : 2 ^ 255 ≤ nat256 x.signif * 2 * 2 ^ o := by rcases hpo with g | g <;> rw [g] <;> omega
  obtain ⟨r, hr, hr'⟩ := sub512 (x := UInt.shl (UInt.ofSub x.signif : U512) (1 + o)) (y := UInt.ofSub q) (by
    rw [l1, nat_ofSub, hqn]
    exact hge)
  rw [l1, nat_ofSub, hqn] at hr'
  rw [hr, Option.bind_eq_bind, Option.bind_some]
  obtain ⟨N, hN⟩ : ∃ N, N = nat256 x.signif * 2 ^ (256 + o) := ⟨_, rfl⟩
  have hN' : N = nat256 x.signif * 2 * 2 ^ o * 2 ^ 255 := by
    rw [hN, Nat.pow_add, show (2 : ℕ) ^ 256 = 2 * 2 ^ 255 by rw [← pow_succ']]
    ring
  have hNu : N ≤ (2 ^ 255 - 1) * 2 ^ 257 := by
    rw [hN]
    refine Nat.mul_le_mul (by omega) (Nat.pow_le_pow_right (by norm_num) (by omega))
  have hNl : 2 ^ 254 * 2 ^ 256 ≤ N := by
    rw [hN]
    refine Nat.mul_le_mul h1 (Nat.pow_le_pow_right (by norm_num) (by omega))
  rw [← hN]
  have c1 : (2 ^ 255 - 1) * 2 ^ 257 < 2 ^ 512 := by norm_num
  have c2 : (2 : ℕ) ^ 512 = (2 ^ 255 + 2 ^ 255) * (2 ^ 255 + 2 ^ 255) := by norm_num
  obtain ⟨Q, R, hl, g1, g2, g3⟩ := sqrtLoop_spec (N := N) (by omega) 255 q r q (le_refl _) hqn (by
    rw [hr', hqn, hN', ← Nat.add_mul]
    exact congrArg (· * 2 ^ 255) (Nat.add_sub_cancel' hge)) (by
    rw [hqn, ← c2]; omega)
  rw [hl, Option.bind_eq_bind, Option.bind_some]
  dsimp only
  have hround := sqrt_round g1 g2 g3
  have hQlt : nat256 Q ≤ 2 ^ 256 - 2 := by
    by_contra hc
    have h3 : (2 ^ 256 - 1) * (2 ^ 256 - 1) ≤ nat256 Q * nat256 Q := Nat.mul_le_mul (by omega) (by omega)
    have h5 : (2 ^ 255 - 1) * 2 ^ 257 < (2 ^ 256 - 1) * (2 ^ 256 - 1) := by norm_num
    omega
  have hQge : 2 ^ 255 ≤ nat256 Q := by
    by_contra hc
    have h3 : (nat256 Q + 1) * (nat256 Q + 1) ≤ 2 ^ 255 * 2 ^ 255 := Nat.mul_le_mul (by omega) (by omega)
    have h5 : (2 : ℕ) ^ 255 * 2 ^ 255 = 2 ^ 254 * 2 ^ 256 := by rw [← pow_add, ← pow_add]
    omega
  have hm : Q.lo.toNat % 4 = nat256 Q % 4 := by
    have : nat256 Q = Q.hi.toNat * 2 ^ 128 + Q.lo.toNat := rfl
    omega
  rw [and_three, hm, isZero512]
  obtain ⟨b, hb⟩ : ∃ b, b = (decide (nat256 Q % 4 = 3) || (decide (nat256 Q % 4 = 1) && !decide (UInt.nat R = 0))) := ⟨_, rfl⟩
  rw [← hb] at hround ⊢
  have hbt : b.toNat ≤ 1 := by cases b <;> decide
  have hM : nat256 (UInt.shr (incrIf Q b) 1) = (nat256 Q + b.toNat) / 2 := by
    rw [nat_shr256 _ (by norm_num), nat_incrIf256, Nat.mod_eq_of_lt (by omega), pow_one]
  exact ⟨_, _, rfl, hM, by omega, by omega, hround.1⟩

/-- Square roots have a relative error of at most `2^-254`. -/
theorem sqrt_spec {x : BigFloat} (hx : Norm x) (hp : x.signum = 1) : ∃ s, sqrt x = some s ∧ Norm s ∧ s.signum = 1 ∧
    |bval s - Real.sqrt (bval x)| ≤ Real.sqrt (bval x) / 2 ^ 254 := by
  obtain ⟨s, M, e1, e2, e3, e4, e5⟩ := sqrt_signif hx
  refine ⟨_, e1, ⟨Or.inl rfl, by rw [e2]; exact e3, by rw [e2]; exact e4⟩, rfl, ?_⟩
  obtain ⟨e, he⟩ : ∃ e, e = (x.exp - x.exp % 2) / 2 := ⟨_, rfl⟩
  obtain ⟨o, ho⟩ : ∃ o, o = (x.exp % 2).toNat := ⟨_, rfl⟩
  have hexp : x.exp = 2 * e + o := by omega
  rw [← ho] at e5
  rw [← he]
  have hv : bval x = ((nat256 x.signif * 2 ^ (256 + o) : ℕ) : ℝ) * ((2 : ℝ) ^ (e - 255)) ^ 2 := by
    unfold bval
    rw [hp, hexp, Int.cast_one, one_mul, Nat.cast_mul, Nat.cast_pow, Nat.cast_ofNat, pow_two, ← zpow_add₀ (by norm_num),
      mul_assoc, ← zpow_natCast (2 : ℝ) (256 + o), ← zpow_add₀ (by norm_num)]
    congr 2
    push_cast
    ring
  have hb : bval ⟨1, e, s⟩ = M * (2 * (2 : ℝ) ^ (e - 255)) := by
    unfold bval
    dsimp only
    rw [e2, Int.cast_one, one_mul, ← zpow_one_add₀ (by norm_num)]
    congr 2
    ring
  rw [hv, hb, Real.sqrt_mul (Nat.cast_nonneg _), Real.sqrt_sq (zpow_pos (by norm_num) _).le]
  have hP := two_zpow (e - 255)
  generalize (2 : ℝ) ^ (e - 255) = P at *
  generalize Real.sqrt ((nat256 x.signif * 2 ^ (256 + o) : ℕ) : ℝ) = T at *
  have hM : (2 : ℝ) ^ 254 ≤ M := by exact_mod_cast e3
  have hT : (2 : ℝ) ^ 254 ≤ T / 2 + 1 / 2 := by
    rw [abs_le] at e5
    linarith
  have e6 : |M * (2 * P) - T * P| = 2 * |T / 2 - M| * P := by
    have : (M : ℝ) * (2 * P) - T * P = 2 * (-(T / 2 - M)) * P := by ring
    rw [this, abs_mul, abs_mul, abs_neg, abs_two, abs_of_pos hP]
  rw [e6, mul_div_right_comm]
  refine mul_le_mul_of_nonneg_right ?_ hP.le
  have h1 : (1 : ℝ) ≤ T / 2 ^ 254 := by
    rw [le_div_iff₀ (by positivity)]
    have : (1 : ℝ) ≤ 2 ^ 254 := by norm_num
    linarith
  linarith

end Verif.BigFloat
