import Verif.Proofs.ToStrConv

/-!
# Proofs about formatting, part 5: the decimal number is read back as the number it was made from
-/

namespace Verif

open BigUInt LawfulBigUInt

theorem rescale {w V ρ X : ℝ} (hX : 0 < X) (h : |w - V| ≤ 2 * ρ) : |w * X - V * X| ≤ 2 * (ρ * X) := by
  rw [← sub_mul, abs_mul, abs_of_pos hX, ← mul_assoc]
  exact mul_le_mul_of_nonneg_right h hX.le

theorem rescale_lt {w V ρ X : ℝ} (hX : 0 < X) (h : |w - V| < 2 * ρ) : |w * X - V * X| < 2 * (ρ * X) := by
  rw [← sub_mul, abs_mul, abs_of_pos hX, ← mul_assoc]
  exact mul_lt_mul_of_pos_right h hX

/-- The decimal number is not farther from the number than half a unit in the last place. -/
theorem shortest_spec {sig : U256} {N : ℕ} {q : ℤ} (h : nat256 sig = N) (hN0 : 0 < N) (hN : N < 2 ^ 237) (hq : -707 ≤ q)
    (hq' : q ≤ 367) :
    ∃ (w : U256) (j : ℤ), shortestFromBinRepr sig q = some (w, j) ∧ nat256 w ≤ 2 ^ 250 ∧
      |(nat256 w : ℝ) * 10 ^ j - N * 2 ^ q| ≤ 2 ^ (q - 1) ∧
      (N % 2 = 1 → (2 ≤ q → ¬BadMid N) → |(nat256 w : ℝ) * 10 ^ j - N * 2 ^ q| < 2 ^ (q - 1)) ∧
      (∀ (c : ℕ) (J : ℤ), (N : ℝ) * 2 ^ q ≤ c * 10 ^ J ∨
          (q < 0 ∧ ¬2 ^ (-q).toNat ∣ N ∧ (N : ℝ) * 2 ^ q - 2 ^ (q - 1) < c * 10 ^ J) →
        c * 10 ^ J < (N : ℝ) * 2 ^ q + 2 ^ (q - 1) → J ≤ j) := by
  have hsig : nat256 (UInt.shl sig 2) = 4 * N := by
    rw [nat_shl256_of_lt sig (by norm_num) (by rw [h]; omega), h]; ring
  have hev : UInt.isEven sig = true ↔ N % 2 = 0 := by
    rw [show UInt.isEven sig = decide (nat256 sig % 2 = 0) from LawfulBigUInt.isEven_eq (α := U256) sig, h, decide_eq_true_iff]
  generalize hab : UInt.isEven sig = ab at hev
  generalize hs : UInt.shl sig 2 = sig2 at hsig
  generalize hni : decide (q - 2 < -(UInt.trailingZeros sig2 : Int)) = ni
  obtain ⟨k, hk, hk', hkn, hkb⟩ : ∃ k : ℕ, 1 ≤ k ∧ k ≤ 2 ∧ (ni = true → k = 2) ∧
      nat256 (U256.new 0 (1 + boolU128 ni)) = k := by
    cases ni
    · exact ⟨1, by norm_num, by norm_num, by simp, by decide⟩
    · exact ⟨2, by norm_num, by norm_num, by simp, by decide⟩
  have hkf : q < 0 → ¬2 ^ (-q).toNat ∣ N → k = 2 := by
    intro h1 h2
    apply hkn
    rw [← hni, decide_eq_true_iff]
    by_contra hc
    have htz : UInt.trailingZeros sig2 = U128.ctz 256 (nat256 sig2) := UInt.trailingZeros_eq sig2
    obtain ⟨o, e1, -⟩ := ctz_spec 256 (nat256 sig2) (by omega) (nat256_lt sig2)
    rw [← htz, hsig] at e1
    apply h2
    have h3 : 2 ^ ((-q).toNat + 2) ∣ 4 * N := by
      rw [e1]
      exact Dvd.dvd.mul_left (pow_dvd_pow 2 (by omega)) _
    rw [pow_add, Nat.mul_comm] at h3
    exact Nat.dvd_of_mul_dvd_mul_left (by norm_num) h3
  obtain ⟨lo, hlo, hlo'⟩ := sub256 (x := sig2) (y := U256.new 0 (1 + boolU128 ni)) (by rw [hkb, hsig]; omega)
  obtain ⟨up, hup, hup'⟩ := add256 (x := sig2) (y := UInt.two) (by
    rw [hsig, show nat256 UInt.two = 2 by decide]; omega)
  rw [hsig, hkb] at hlo'
  rw [hsig, show nat256 UInt.two = 2 by decide] at hup'
  have hB : ∀ ρ : ℝ, ((4 * N + 2 : ℕ) : ℝ) * ρ = ((4 * N : ℕ) : ℝ) * ρ + 2 * ρ := by intro ρ; push_cast; ring
  have code : ∀ (E : ℤ) (t : Trim) (n : ℕ) (w : U256),
      (if q - 2 ≥ 0 then toDec10Nonneg ab (q - 2) sig2 lo up
        else some (toDec10Neg ab ni (q - 2) sig2 lo up)) = some (E, t) →
      trim t = some (w, (n : ℤ)) → shortestFromBinRepr sig q = some (w, E + n) := by
    intro E t n w h1 h2
    unfold shortestFromBinRepr
    dsimp only
    rw [hs, hni, hab, hlo, Option.bind_eq_bind, Option.bind_some, hup, Option.bind_some]
    split at h1
    · rw [if_pos ‹_›, h1, Option.bind_eq_bind, Option.bind_some]
      dsimp only
      rw [h2]
      rfl
    · rw [if_neg ‹_›, h1, Option.bind_eq_bind, Option.bind_some]
      dsimp only
      rw [h2]
      rfl
  have two : (2 : ℝ) ^ (q - 1) = 2 * 2 ^ (q - 2) := by
    rw [show q - 1 = q - 2 + 1 by ring, zpow_add_one₀ (by norm_num), mul_comm]
  have four : (N : ℝ) * 2 ^ q = ((4 * N : ℕ) : ℝ) * 2 ^ (q - 2) := by
    rw [show q = q - 2 + 2 by ring, zpow_add₀ (by norm_num), show q - 2 + 2 - 2 = q - 2 by ring]
    push_cast
    norm_num
    ring
  have fin : ∀ (O : Prop) (_ : N % 2 = 1 → (2 ≤ q → ¬BadMid N) → O) (ρ : ℝ) (E : ℤ) (n : ℕ) (w : U256), ρ * 10 ^ E = 2 ^ (q - 2) →
      (∀ i c : ℕ, ((4 * N - k : ℕ) : ℝ) * ρ < (c : ℝ) * 10 ^ i → (c : ℝ) * 10 ^ i < ((4 * N + 2 : ℕ) : ℝ) * ρ → i ≤ n) ∧
      |(nat256 w : ℝ) * 10 ^ n - ((4 * N : ℕ) : ℝ) * ρ| ≤ 2 * ρ ∧
      (O → |(nat256 w : ℝ) * 10 ^ n - ((4 * N : ℕ) : ℝ) * ρ| < 2 * ρ) →
      |(nat256 w : ℝ) * 10 ^ (E + n) - N * 2 ^ q| ≤ 2 ^ (q - 1) ∧
      (N % 2 = 1 → (2 ≤ q → ¬BadMid N) → |(nat256 w : ℝ) * 10 ^ (E + n) - N * 2 ^ q| < 2 ^ (q - 1)) ∧
      (∀ (c : ℕ) (J : ℤ), (N : ℝ) * 2 ^ q ≤ c * 10 ^ J ∨
          (q < 0 ∧ ¬2 ^ (-q).toNat ∣ N ∧ (N : ℝ) * 2 ^ q - 2 ^ (q - 1) < c * 10 ^ J) →
        c * 10 ^ J < (N : ℝ) * 2 ^ q + 2 ^ (q - 1) → J ≤ E + n) := by
    rintro O hO ρ E n w hρ ⟨hm, h1, h2⟩
    have hX : (0 : ℝ) < 10 ^ E := zpow_pos (by norm_num) _
    have e1 : (nat256 w : ℝ) * 10 ^ (E + n) = nat256 w * 10 ^ n * 10 ^ E := by
      rw [zpow_add₀ (by norm_num), zpow_natCast]; ring
    have e2 : (N : ℝ) * 2 ^ q = ((4 * N : ℕ) : ℝ) * ρ * 10 ^ E := by rw [four, mul_assoc, hρ]
    rw [e1, e2, two, ← hρ]
    refine ⟨rescale hX h1, fun ho ho' => rescale_lt hX (h2 (hO ho ho')), fun c J hlow hup => ?_⟩
    by_cases hJ : J < E
    · omega
    obtain ⟨i, hi⟩ : ∃ i : ℕ, J = E + i := ⟨(J - E).toNat, by omega⟩
    have e3 : (c : ℝ) * 10 ^ J = c * 10 ^ i * 10 ^ E := by
      rw [hi, zpow_add₀ (by norm_num), zpow_natCast]; ring
    rw [e3] at hlow hup
    have hρ0 : 0 < ρ := by
      by_contra hc
      have := mul_nonpos_of_nonpos_of_nonneg (not_lt.mp hc) hX.le
      rw [hρ] at this
      exact absurd this (not_le.mpr (zpow_pos (by norm_num) _))
    have hk4 : ((4 * N - k : ℕ) : ℝ) = ((4 * N : ℕ) : ℝ) - k := by
      rw [Nat.cast_sub (by omega)]
    have hk1 : (1 : ℝ) ≤ k := by exact_mod_cast hk
    have hin : i ≤ n := by
      refine hm i c (lt_of_mul_lt_mul_right ?_ hX.le) (lt_of_mul_lt_mul_right ?_ hX.le)
      · rw [hk4]
        rcases hlow with hlow | ⟨a1, a2, hlow⟩
        · refine lt_of_lt_of_le (mul_lt_mul_of_pos_right ?_ hX) hlow
          nlinarith
        · rw [hkf a1 a2]
          refine lt_of_le_of_lt (le_of_eq ?_) hlow
          push_cast
          ring
      · refine lt_of_lt_of_le hup (le_of_eq ?_)
        push_cast
        ring
    rw [hi]
    omega
  rcases le_or_gt 0 (q - 2) with h0 | h0
  · obtain ⟨e, he⟩ := Int.eq_ofNat_of_zero_le h0
    obtain ⟨t, h1, h2⟩ := pos_spec (ab := ab) (e := e) (by omega) hN hN0 hsig hlo' hk hk' hup' hev
    obtain ⟨n, w, g1, gw, g2⟩ := h2.trim (hB _)
    have h1' : toDec10Nonneg ab (q - 2) sig2 lo up = some ((posG e : ℤ), t) := by rw [he]; exact h1
    have hle := (pos_table ⟨e, by omega⟩).2.2.1
    dsimp only at hle
    refine ⟨w, _, code _ t n w (by rw [if_pos h0]; exact h1') g1, gw, fin _ (fun a b => ⟨a, b (by omega)⟩) _ _ _ _ ?_ g2⟩
    rw [he, zpow_natCast, zpow_natCast]
    obtain ⟨d, hd⟩ := Nat.exists_eq_add_of_le hle
    generalize posG e = g at *
    rw [hd, Nat.add_sub_cancel_left, show (10 : ℝ) = 2 * 5 by norm_num, mul_pow]
    push_cast
    field_simp
    rw [pow_add]; ring
  · obtain ⟨m, hm⟩ : ∃ m : ℕ, q - 2 = -(m : ℤ) := ⟨(2 - q).toNat, by omega⟩
    have hm0 : 0 < m := by omega
    have hm1 : m ≤ 709 := by omega
    obtain ⟨t, h1, h2⟩ := neg_spec (ab := ab) (ni := ni) hm0 hm1 hN hN0 hsig hlo' hk hk' hup' hev hkn
    obtain ⟨n, w, g1, gw, g2⟩ := h2.trim (hB _)
    have h1' : toDec10Neg ab ni (q - 2) sig2 lo up = (-(m : ℤ) + negG m, t) := by rw [hm]; exact h1
    have hle : negG m ≤ m := by
      have h := neg_table ⟨m - 1, by omega⟩
      rw [show ((⟨m - 1, by omega⟩ : Fin 709).val + 1) = m from Nat.sub_add_cancel hm0] at h
      exact h.2.1
    refine ⟨w, _, code _ t n w (by rw [if_neg (not_le.mpr h0)]; rw [h1']) g1, gw, fin _ (fun a _ => a) _ _ _ _ ?_ g2⟩
    rw [hm]
    obtain ⟨d, hd⟩ := Nat.exists_eq_add_of_le hle
    generalize negG m = g at *
    rw [hd, Nat.add_sub_cancel_left, show -((g + d : ℕ) : ℤ) + g = -(d : ℤ) by push_cast; ring, zpow_neg, zpow_neg, zpow_natCast,
      zpow_natCast, show (10 : ℝ) = 2 * 5 by norm_num, mul_pow]
    push_cast
    field_simp
    rw [pow_add]

end Verif
