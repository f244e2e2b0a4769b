import Verif.Proofs.ToStrTrim
import Mathlib.Data.Real.Basic
import Mathlib.Tactic.Linarith

/-!
# Proofs about formatting, part 3: the decimal number lies in the interval that is read back
-/

namespace Verif

/-- The first branch, when digits are removed -/
theorem round_exact {s l u T : ℕ} {V A B ρ : ℝ} (hT : 0 < T) (hTe : T % 2 = 0)
    (hsV : (s : ℝ) ≤ V) (hVs : V ≤ s + 1) (hA : A < V) (hAV : V ≤ A + 2 * ρ) (hlA : (l : ℝ) ≤ A) (hAl : A < l + 1)
    (hB : B = V + 2 * ρ) (hu : (u : ℝ) ≤ B) (hls : l ≤ s) {lrz : Prop} (hlrz : lrz → (l : ℝ) = A)
    (h : (lrz ∧ l % T = 0) ∨ l / T < u / T) :
    |((s / T + (if T ≤ 2 * (s % T) then 1 else 0) : ℕ) : ℝ) * T - V| ≤ 2 * ρ ∧
      (¬lrz → ¬T ∣ u ∨ (u : ℝ) < B →
        |((s / T + (if T ≤ 2 * (s % T) then 1 else 0) : ℕ) : ℝ) * T - V| < 2 * ρ) := by
  have e1 := Nat.div_add_mod s T
  have e2 := Nat.div_add_mod l T
  have m1 := Nat.mod_lt s hT
  have m2 := Nat.mod_lt l hT
  have hsl : l / T ≤ s / T := Nat.div_le_div_right hls
  generalize s / T = σ at *
  generalize l / T = L at *
  generalize s % T = r at *
  generalize l % T = k at *
  have f1 : (T : ℝ) * σ + r = s := by exact_mod_cast e1
  have f2 : (T : ℝ) * L + k = l := by exact_mod_cast e2
  have g1 : (r : ℝ) + 1 ≤ T := by exact_mod_cast m1
  have g2 : (k : ℝ) + 1 ≤ T := by exact_mod_cast m2
  have hr0 : (0 : ℝ) ≤ r := Nat.cast_nonneg r
  have hk0 : (0 : ℝ) ≤ k := Nat.cast_nonneg k
  have hσ : L = σ ∨ (T : ℝ) * L + T ≤ T * σ := by
    rcases Nat.lt_or_ge L σ with h | h
    · right
      have : T * L + T ≤ T * σ := by
        rw [← Nat.mul_succ]; exact Nat.mul_le_mul_left T h
      exact_mod_cast this
    · exact Or.inl (by omega)
  have hu' : L < u / T → (T : ℝ) * L + T ≤ u ∧ (¬T ∣ u ∨ (u : ℝ) < B → (T : ℝ) * L + T < B) := by
    intro hh
    have hd : T * L + T ≤ u := by
      rw [← Nat.mul_succ]
      exact le_trans (Nat.mul_le_mul_left T hh) (Nat.mul_div_le u T)
    have hd' : (T : ℝ) * L + T ≤ u := by exact_mod_cast hd
    refine ⟨hd', ?_⟩
    rintro (hc | hc)
    · have : T * L + T ≠ u := fun hh => hc ⟨L + 1, by rw [← hh]; ring⟩
      have : T * L + T < u := lt_of_le_of_ne hd this
      have : (T : ℝ) * L + T < u := by exact_mod_cast this
      linarith
    · linarith
  clear e1 e2
  by_cases hup : T ≤ 2 * r
  · rw [if_pos hup]
    have hup' : (T : ℝ) ≤ 2 * r := by exact_mod_cast hup
    push_cast
    rw [show ((σ : ℝ) + 1) * T - V = T * σ + T - V by ring]
    have p0 : 0 ≤ (T : ℝ) * σ + T - V := by linarith
    rw [abs_of_nonneg p0]
    have p1 : (T : ℝ) * σ + T - V ≤ V - T * σ := by linarith
    rcases hσ with rfl | hσ
    · rcases h with ⟨h1, h2⟩ | h
      · subst h2
        have := hlrz h1
        refine ⟨?_, fun hh => absurd h1 hh⟩
        push_cast at f2
        linarith
      · obtain ⟨h1, h2⟩ := hu' h
        exact ⟨by linarith, fun _ hh => by have := h2 hh; linarith⟩
    · exact ⟨by linarith, fun _ _ => by linarith⟩
  · rw [if_neg hup]
    have hup2 : 2 * r + 2 ≤ T := by omega
    have hup' : 2 * (r : ℝ) + 2 ≤ T := by exact_mod_cast hup2
    push_cast
    rw [show ((σ : ℝ) + 0) * T - V = -(V - T * σ) by ring, abs_neg]
    have p0 : 0 ≤ V - (T : ℝ) * σ := by linarith
    rw [abs_of_nonneg p0]
    rcases hσ with rfl | hσ
    · rcases h with ⟨h1, h2⟩ | h
      · subst h2
        have := hlrz h1
        refine ⟨?_, fun hh => absurd h1 hh⟩
        push_cast at f2
        linarith
      · obtain ⟨h1, h2⟩ := hu' h
        exact ⟨by linarith, fun _ hh => by have := h2 hh; linarith⟩
    · exact ⟨by linarith, fun _ _ => by linarith⟩

/-- The second branch, when digits are removed; the number is never below the lower bound -/
theorem round_common {s l u T : ℕ} {V A B ρ : ℝ} (hT : 0 < T)
    (hsV : (s : ℝ) ≤ V) (hVs : V ≤ s + 1) (hA : A < V) (hAV : V ≤ A + 2 * ρ) (hAl : A < l + 1)
    (hB : B = V + 2 * ρ) (hu : (u : ℝ) ≤ B) (hls : l ≤ s)
    (h : l / T < u / T) :
    let w := s / T + (if T ≤ 2 * (s % T) ∨ s / T = l / T then 1 else 0)
    |(w : ℝ) * T - V| ≤ 2 * ρ ∧ (¬T ∣ u ∨ (u : ℝ) < B → |(w : ℝ) * T - V| < 2 * ρ) ∧ A < (w : ℝ) * T := by
  intro w
  have hw : w = s / T + (if T ≤ 2 * (s % T) ∨ s / T = l / T then 1 else 0) := rfl
  clear_value w
  have e1 := Nat.div_add_mod s T
  have e2 := Nat.div_add_mod l T
  have m1 := Nat.mod_lt s hT
  have m2 := Nat.mod_lt l hT
  have hsl : l / T ≤ s / T := Nat.div_le_div_right hls
  generalize s / T = σ at *
  generalize l / T = L at *
  generalize s % T = r at *
  generalize l % T = k at *
  have f1 : (T : ℝ) * σ + r = s := by exact_mod_cast e1
  have f2 : (T : ℝ) * L + k = l := by exact_mod_cast e2
  have g1 : (r : ℝ) + 1 ≤ T := by exact_mod_cast m1
  have g2 : (k : ℝ) + 1 ≤ T := by exact_mod_cast m2
  have hr0 : (0 : ℝ) ≤ r := Nat.cast_nonneg r
  have hk0 : (0 : ℝ) ≤ k := Nat.cast_nonneg k
  have hσ : σ = L ∨ (T : ℝ) * L + T ≤ T * σ := by
    rcases Nat.lt_or_ge L σ with h | h
    · right
      have : T * L + T ≤ T * σ := by
        rw [← Nat.mul_succ]; exact Nat.mul_le_mul_left T h
      exact_mod_cast this
    · exact Or.inl (by omega)
  obtain ⟨h1, h2⟩ : (T : ℝ) * L + T ≤ u ∧ (¬T ∣ u ∨ (u : ℝ) < B → (T : ℝ) * L + T < B) := by
    have hd : T * L + T ≤ u := by
      rw [← Nat.mul_succ]
      exact le_trans (Nat.mul_le_mul_left T h) (Nat.mul_div_le u T)
    have hd' : (T : ℝ) * L + T ≤ u := by exact_mod_cast hd
    refine ⟨hd', ?_⟩
    rintro (hc | hc)
    · have : T * L + T ≠ u := fun hh => hc ⟨L + 1, by rw [← hh]; ring⟩
      have : T * L + T < u := lt_of_le_of_ne hd this
      have : (T : ℝ) * L + T < u := by exact_mod_cast this
      linarith
    · linarith
  clear e1 e2
  have up : w = σ + 1 → T ≤ 2 * r ∨ σ = L → |(w : ℝ) * T - V| ≤ 2 * ρ ∧ (¬T ∣ u ∨ (u : ℝ) < B → |(w : ℝ) * T - V| < 2 * ρ) ∧ A < (w : ℝ) * T := by
    rintro rfl hor
    push_cast
    rw [show ((σ : ℝ) + 1) * T - V = T * σ + T - V by ring]
    have p0 : 0 ≤ (T : ℝ) * σ + T - V := by linarith
    rw [abs_of_nonneg p0]
    rcases hσ with rfl | hσ
    · exact ⟨by linarith, fun hh => by have := h2 hh; linarith, by linarith⟩
    · rcases hor with hor | rfl
      · have hup' : (T : ℝ) ≤ 2 * r := by exact_mod_cast hor
        exact ⟨by linarith, fun _ => by linarith, by linarith⟩
      · exact ⟨by linarith, fun hh => by have := h2 hh; linarith, by linarith⟩
  by_cases hc : T ≤ 2 * r ∨ σ = L
  · rw [if_pos hc] at hw
    exact up hw hc
  · rw [if_neg hc, Nat.add_zero] at hw
    subst hw
    have hσ' := hσ.resolve_left (fun h => hc (Or.inr h))
    rw [show (w : ℝ) * T - V = -(V - T * w) by ring, abs_neg]
    have p0 : 0 ≤ V - (T : ℝ) * w := by linarith
    rw [abs_of_nonneg p0]
    exact ⟨by linarith, fun _ => by linarith, by linarith⟩

open BigUInt LawfulBigUInt

/-- Both branches -/
theorem trim_round {t : Trim} {V A B ρ : ℝ} (hd : t.digit = 0) (hr : t.roundUp = false) (hi : t.i = 0)
    (hls' : nat256 t.lower < 10 ^ 80) (hus : nat256 t.upper < 10 ^ 80) (hs : nat256 t.signif < 2 ^ 256 - 1)
    (hsV : (nat256 t.signif : ℝ) ≤ V) (hVs : V ≤ nat256 t.signif + 1) (hA : A < V) (hAV : V ≤ A + 2 * ρ)
    (hlA : (nat256 t.lower : ℝ) ≤ A) (hAl : A < nat256 t.lower + 1)
    (hB : B = V + 2 * ρ) (hu : (nat256 t.upper : ℝ) ≤ B) (hls : nat256 t.lower ≤ nat256 t.signif) (hρ : 1 ≤ ρ)
    (hlrz : t.lowerRemZero = true → (nat256 t.lower : ℝ) = A) :
    ∃ (n : ℕ) (w : U256), trim t = some (w, (n : ℤ)) ∧ nat256 w ≤ nat256 t.signif + 1 ∧
      (∀ k, nat256 t.lower / 10 ^ k < nat256 t.upper / 10 ^ k → k ≤ n) ∧ |(nat256 w : ℝ) * 10 ^ n - V| ≤ 2 * ρ ∧
      (t.lowerRemZero = false → (0 < n → ¬10 ^ n ∣ nat256 t.upper ∨ (nat256 t.upper : ℝ) < B ∨
          (n = 1 ∧ nat256 t.signif % 10 = 9 ∧ V = nat256 t.signif + 1)) →
        |(nat256 w : ℝ) * 10 ^ n - V| < 2 * ρ) := by
  have sharp : ∀ (n : ℕ) (w : ℕ), (10 ^ n ≤ 2 * (nat256 t.signif % 10 ^ n) → w = nat256 t.signif / 10 ^ n + 1) →
      n = 1 ∧ nat256 t.signif % 10 = 9 ∧ V = nat256 t.signif + 1 → |(w : ℝ) * 10 ^ n - V| < 2 * ρ := by
    rintro n w hw ⟨rfl, h9, hV⟩
    have := hw (by rw [pow_one, h9]; norm_num)
    have e : w * 10 ^ 1 = nat256 t.signif + 1 := by
      rw [this, pow_one]
      omega
    have e' : (w : ℝ) * 10 ^ 1 = nat256 t.signif + 1 := by exact_mod_cast e
    rw [e', hV, sub_self, abs_zero]
    linarith
  have even : ∀ n : ℕ, 0 < n → 10 ^ n % 2 = 0 := by
    intro n hn
    obtain ⟨k, rfl⟩ : ∃ k, n = k + 1 := ⟨n - 1, by omega⟩
    rw [pow_succ]
    omega
  by_cases hb : (t.lowerRemZero || t.remZero) = true
  · obtain ⟨n, w, h1, h2, h3, hmax⟩ := trim_exact hb hd hi hls' hus hs
    have hdiv : nat256 t.signif / 10 ^ n ≤ nat256 t.signif := Nat.div_le_self _ _
    refine ⟨n, w, h1, by rw [h2]; split <;> omega, hmax, ?_⟩
    rcases Nat.eq_zero_or_pos n with rfl | hn
    · rw [pow_zero, Nat.mod_one, Nat.div_one, if_neg (by norm_num), Nat.add_zero] at h2
      rw [h2, pow_zero, mul_one]
      have : |(nat256 t.signif : ℝ) - V| ≤ 1 := abs_le.mpr ⟨by linarith, by linarith⟩
      exact ⟨by linarith, fun _ _ => by linarith⟩
    · have := round_exact (lrz := t.lowerRemZero = true) (show 0 < 10 ^ n by positivity) (even n hn) hsV hVs hA hAV hlA hAl hB hu hls hlrz
        (h3.resolve_left (by omega))
      rw [← h2] at this
      push_cast at this
      refine ⟨this.1, fun hf hh => ?_⟩
      rcases hh hn with hh | hh | hh
      · exact this.2 (by rw [hf]; simp) (Or.inl hh)
      · exact this.2 (by rw [hf]; simp) (Or.inr hh)
      · exact sharp n _ (fun hle => by rw [h2, if_pos hle]) hh
  · obtain ⟨n, w, h1, h2, h3, hmax⟩ := trim_common (by simpa using hb) hr hi hus hs
    have hdiv : nat256 t.signif / 10 ^ n ≤ nat256 t.signif := Nat.div_le_self _ _
    refine ⟨n, w, h1, by rw [h2]; split <;> omega, hmax, ?_⟩
    rcases Nat.eq_zero_or_pos n with rfl | hn
    · rw [pow_zero, Nat.mod_one, Nat.div_one] at h2
      have h4 : nat256 w = nat256 t.signif ∨ nat256 w = nat256 t.signif + 1 := by
        rw [h2]; split <;> simp
      rw [pow_zero, mul_one]
      have : |(nat256 w : ℝ) - V| ≤ 1 := by
        rcases h4 with h4 | h4
        · rw [h4]; exact abs_le.mpr ⟨by linarith, by linarith⟩
        · rw [h4]; push_cast; exact abs_le.mpr ⟨by linarith, by linarith⟩
      exact ⟨by linarith, fun _ _ => by linarith⟩
    · have := round_common (show 0 < 10 ^ n by positivity) hsV hVs hA hAV hAl hB hu hls
        (h3.resolve_left (by omega))
      dsimp only at this
      rw [← h2] at this
      push_cast at this
      refine ⟨this.1, fun hf hh => ?_⟩
      rcases hh hn with hh | hh | hh
      · exact this.2.1 (Or.inl hh)
      · exact this.2.1 (Or.inr hh)
      · exact sharp n _ (fun hle => by rw [h2, if_pos (Or.inl hle)]) hh

end Verif
