import Verif.Proofs.ParseDec
import Verif.Proofs.FastExact
import Verif.Proofs.FastApprox
import Verif.Props.Compare

/-!
# Combination of the paths from literal to number
-/

namespace Verif

open Spec Props

/-- `N` is nearest to a number slightly below `u`. -/
def ApproxTo (u : ℝ) (N : ℕ) : Prop :=
  ∃ A, 0 < A ∧ NearTo A N ∧ A ≤ u ∧ u < A * (1 + 1 / 2 ^ 252)

theorem ApproxTo.le {u : ℝ} {N : ℕ} (h : ApproxTo u N) : N ≤ INF := by
  obtain ⟨A, -, h, -⟩ := h
  exact h.le

theorem RoundsTo.approx {u : ℝ} {N : ℕ} (hu : 0 < u) (h : RoundsTo u N) : ApproxTo u N := by
  refine ⟨u, hu, h.near, le_rfl, ?_⟩
  have : (1 : ℝ) < 1 + 1 / 2 ^ 252 := by norm_num
  nlinarith

/-- Both ends of an interval give the same pattern. -/
theorem ApproxTo.between {u u' v : ℝ} {N : ℕ} (h : ApproxTo u N) (h' : ApproxTo u' N) (h1 : u ≤ v)
    (h2 : v ≤ u') (hc : MidClearU v) : RoundsTo v N := by
  obtain ⟨A, a1, a2, a3, a4⟩ := h
  obtain ⟨B, b1, b2, b3, b4⟩ := h'
  exact near_rne a1.le a2 b2 (a3.trans h1) (lt_of_le_of_lt h2 b4) hc

theorem decU_pos {w : ℕ} (h : w ≠ 0) (e : ℤ) : 0 < decU w e := by
  unfold decU
  have : (0 : ℝ) < w := by exact_mod_cast Nat.pos_of_ne_zero h
  exact mul_pos (mul_pos this (zpow_pos (by norm_num) _)) (pow_pos (by norm_num) _)

theorem decU_mono {w w' : ℕ} (h : w ≤ w') (e : ℤ) : decU w e ≤ decU w' e := by
  unfold decU
  have h1 : (w : ℝ) ≤ w' := by exact_mod_cast h
  exact mul_le_mul_of_nonneg_right (mul_le_mul_of_nonneg_right h1 (zpow_pos (by norm_num) _).le)
    (pow_pos (by norm_num) _).le

theorem eq_pat {f g : F256} {s N M : ℕ} (hs : s ≤ 1) (hf : f.pat = s * 2 ^ 255 + N)
    (hg : g.pat = s * 2 ^ 255 + M) (hN : N ≤ INF) (hM : M ≤ INF) (h : F256.eq f g = true) : N = M := by
  obtain ⟨h1, h2, h3⟩ := (C12_eq_iff f g).mp h
  rw [extVal_eq_iff h1 h2, hf, hg] at h3
  unfold INF at hN hM
  unfold spos signBit at h3
  have e1 : (s * 2 ^ 255 + N) / 2 ^ 255 % 2 = s := by omega
  have e2 : (s * 2 ^ 255 + M) / 2 ^ 255 % 2 = s := by omega
  have e3 : (s * 2 ^ 255 + N) % 2 ^ 255 = N := by omega
  have e4 : (s * 2 ^ 255 + M) % 2 ^ 255 = M := by omega
  rw [e3, e4] at h3
  split_ifs at h3 <;> omega

/-- What the slow path gives -/
def SlowOk (lit : List (BitVec 8)) (sign : ℕ) (v : ℝ) : Prop :=
  ∃ g N, f256Exact lit = some g ∧ g.pat = sign * 2 ^ 255 + N ∧ RoundsTo v N

theorem fastApproxFalse_spec {lit : List (BitVec 8)} {sign : ℕ} {e : ℤ} {w : U256} {v : ℝ} (hs : sign ≤ 1)
    (h0 : nat256 w ≠ 0) (hex : SlowOk lit sign v) :
    ∃ g N, fastApproxFalse lit sign e w = some g ∧ g.pat = sign * 2 ^ 255 + N ∧
      (ApproxTo (decU (nat256 w) e) N ∨ RoundsTo v N) := by
  obtain ⟨g, N, h1, h2, h3⟩ := hex
  unfold fastApproxFalse
  split_ifs with he
  · obtain ⟨r, hr, hA, -⟩ := approxCore_spec hs h0 he
    rw [hr]
    cases r with
    | none => exact ⟨g, N, h1, h2, Or.inr h3⟩
    | some f =>
      obtain ⟨A, N, a1, a2, a3, a4, a5⟩ := hA f rfl
      exact ⟨f, N, rfl, a1, Or.inl ⟨A, a2, a3, a4, a5⟩⟩
  · exact ⟨g, N, h1, h2, Or.inr h3⟩

theorem fastExactFalse_spec {lit : List (BitVec 8)} {sign : ℕ} {e : ℤ} {w : U256} {v : ℝ} (hs : sign ≤ 1)
    (h0 : nat256 w ≠ 0) (hex : SlowOk lit sign v) :
    ∃ g N, fastExactFalse lit sign e w = some g ∧ g.pat = sign * 2 ^ 255 + N ∧
      (ApproxTo (decU (nat256 w) e) N ∨ RoundsTo v N) := by
  unfold fastExactFalse
  split_ifs with hok
  · rw [fastExactOk_iff] at hok
    obtain ⟨f, N, h1, h2, h3⟩ := exactCore_spec hs h0 hok.1 hok.2
    exact ⟨f, N, h1, h2, Or.inl (h3.approx (decU_pos h0 e))⟩
  · unfold fastApprox
    rw [if_neg (by simp)]
    exact fastApproxFalse_spec hs h0 hex

/-- The shifted significand, incremented -/
theorem shifted_incr {w : U256} (h0 : nat256 w ≠ 0) (hw : nat256 w < 10 ^ 77) :
    nat256 w + 1 ≤ nat256 (UInt.incr (UInt.shl w (BigUInt.leadingZeros w))) := by
  have hwlt := nat256_lt w
  have hlog1 := Nat.log2_self_le h0
  have hlog2 := Nat.lt_log2_self (n := nat256 w)
  have hl : (nat256 w).log2 < 256 := (Nat.log2_lt h0).mpr hwlt
  rw [leadingZeros256 h0]
  obtain ⟨n, hn⟩ : ∃ n, 255 - (nat256 w).log2 = n := ⟨_, rfl⟩
  rw [hn]
  have hlt : nat256 w * 2 ^ n < 2 ^ 256 := by
    calc nat256 w * 2 ^ n < 2 ^ ((nat256 w).log2 + 1) * 2 ^ n := Nat.mul_lt_mul_of_pos_right hlog2 (by positivity)
      _ = 2 ^ 256 := by rw [← pow_add]; congr 1; omega
  rw [nat_incr256, nat_shl256_of_lt _ (by omega) hlt]
  have hge : nat256 w ≤ nat256 w * 2 ^ n := Nat.le_mul_of_pos_right _ (by positivity)
  have hlt2 : nat256 w * 2 ^ n + 1 < 2 ^ 256 := by
    rcases Nat.eq_zero_or_pos n with rfl | hn0
    · have := pow77
      have : (10 : ℕ) ^ 77 + 1 < 2 ^ 256 := by norm_num
      omega
    · obtain ⟨m, rfl⟩ := Nat.exists_eq_add_of_le' hn0
      have e : nat256 w * 2 ^ (m + 1) = 2 * (nat256 w * 2 ^ m) := by ring
      change nat256 w * 2 ^ (m + 1) < 2 ^ 256 at hlt
      change nat256 w * 2 ^ (m + 1) + 1 < 2 ^ 256
      rw [e] at hlt ⊢
      generalize nat256 w * 2 ^ m = y at hlt ⊢
      omega
  rw [Nat.mod_eq_of_lt hlt2]
  omega

/-- The paths for truncated and not truncated significands -/
theorem fastApprox_spec {lit : List (BitVec 8)} {sign : ℕ} {e : ℤ} {w : U256} {v : ℝ} {tr : Bool}
    (hs : sign ≤ 1) (h0 : nat256 w ≠ 0) (hw : nat256 w < 10 ^ 77) (hex : SlowOk lit sign v)
    (hc : MidClearU v) (h1 : tr = false → v = decU (nat256 w) e) (h2 : decU (nat256 w) e ≤ v)
    (h3 : v ≤ decU (nat256 w + 1) e) :
    ∃ g N, fastApprox lit sign e w tr = some g ∧ g.pat = sign * 2 ^ 255 + N ∧ RoundsTo v N := by
  unfold fastApprox
  cases tr with
  | false =>
    rw [if_neg (by simp)]
    obtain ⟨g, N, g1, g2, g3⟩ := fastApproxFalse_spec (e := e) hs h0 hex
    refine ⟨g, N, g1, g2, ?_⟩
    rcases g3 with g3 | g3
    · exact g3.between g3 (h1 rfl).ge (h1 rfl).le hc
    · exact g3
  | true =>
    rw [if_pos rfl]
    obtain ⟨x, X, x1, x2, x3⟩ := id hex
    split_ifs with he
    · obtain ⟨r, hr, hA, -⟩ := approxCore_spec hs h0 he
      rw [hr]
      cases r with
      | none => exact ⟨x, X, x1, x2, x3⟩
      | some f =>
        obtain ⟨A, N, a1, a2, a3, a4, a5⟩ := hA f rfl
        have hA : ApproxTo (decU (nat256 w) e) N := ⟨A, a2, a3, a4, a5⟩
        have hsh := shifted_incr h0 hw
        obtain ⟨g, M, g1, g2, g3⟩ := fastApproxFalse_spec (e := e)
          (w := UInt.incr (UInt.shl w (BigUInt.leadingZeros w))) hs (by omega) hex
        dsimp only
        rw [g1]
        dsimp only
        split_ifs with heq
        · refine ⟨f, N, rfl, a1, ?_⟩
          have hM : M ≤ INF := by
            rcases g3 with g3 | g3
            · exact g3.le
            · exact g3.near.le
          have hNM := eq_pat hs a1 g2 hA.le hM heq
          subst hNM
          rcases g3 with g3 | g3
          · exact hA.between g3 h2 (h3.trans (decU_mono hsh e)) hc
          · exact g3
        · exact ⟨x, X, x1, x2, x3⟩
    · exact ⟨x, X, x1, x2, x3⟩

theorem fastExact_spec {lit : List (BitVec 8)} {sign : ℕ} {e : ℤ} {w : U256} {v : ℝ} {tr : Bool}
    (hs : sign ≤ 1) (h0 : nat256 w ≠ 0) (hw : nat256 w < 10 ^ 77) (hex : SlowOk lit sign v)
    (hc : MidClearU v) (h1 : tr = false → v = decU (nat256 w) e) (h2 : decU (nat256 w) e ≤ v)
    (h3 : v ≤ decU (nat256 w + 1) e) :
    ∃ g N, fastExact lit sign e w tr = some g ∧ g.pat = sign * 2 ^ 255 + N ∧ RoundsTo v N := by
  unfold fastExact
  split_ifs with hok htr
  · rw [fastExactOk_iff] at hok
    obtain ⟨f, N, f1, f2, f3⟩ := exactCore_spec hs h0 hok.1 hok.2
    have hA := f3.approx (decU_pos h0 e)
    have hinc : nat256 (UInt.incr w) = nat256 w + 1 := by
      have : (10 : ℕ) ^ 77 + 1 < 2 ^ 256 := by norm_num
      rw [nat_incr256, Nat.mod_eq_of_lt (by omega)]
    obtain ⟨g, M, g1, g2, g3⟩ := fastExactFalse_spec (e := e) (w := UInt.incr w) hs (by omega) hex
    rw [f1]
    simp only [Option.bind_eq_bind, Option.bind_some, Option.pure_def]
    rw [g1]
    simp only [Option.bind_some]
    split_ifs with heq
    · refine ⟨f, N, rfl, f2, ?_⟩
      have hM : M ≤ INF := by
        rcases g3 with g3 | g3
        · exact g3.le
        · exact g3.near.le
      have hNM := eq_pat hs f2 g2 hA.le hM heq
      subst hNM
      rcases g3 with g3 | g3
      · rw [hinc] at g3
        exact hA.between g3 h2 h3 hc
      · exact g3
    · exact hex
  · rw [fastExactOk_iff] at hok
    obtain ⟨f, N, f1, f2, f3⟩ := exactCore_spec hs h0 hok.1 hok.2
    rw [f1]
    refine ⟨f, N, rfl, f2, ?_⟩
    rw [h1 (by simpa using htr)]
    exact f3
  · exact fastApprox_spec hs h0 hw hex hc h1 h2 h3

/-- Significands of up to 77 digits and small exponents: the slow path is only taken for numbers close to
the middle between two numbers. -/
theorem fastExact_small {lit : List (BitVec 8)} {sign : ℕ} {e : ℤ} {w : U256}
    (hs : sign ≤ 1) (h0 : nat256 w ≠ 0) (he : e.natAbs ≤ 1024)
    (hc : MidClearU (decU (nat256 w) e) ∨ (nat256 w < 2 ^ 237 ∧ e.natAbs ≤ 102))
    (hex : ClearU (decU (nat256 w) e) → SlowOk lit sign (decU (nat256 w) e)) :
    ∃ g N, fastExact lit sign e w false = some g ∧ g.pat = sign * 2 ^ 255 + N ∧
      RoundsTo (decU (nat256 w) e) N := by
  unfold fastExact
  split_ifs with hok htr
  · cases htr
  · rw [fastExactOk_iff] at hok
    obtain ⟨f, N, f1, f2, f3⟩ := exactCore_spec hs h0 hok.1 hok.2
    exact ⟨f, N, by rw [f1]; rfl, f2, f3⟩
  · unfold fastApprox
    rw [if_neg (by simp)]
    unfold fastApproxFalse
    replace hc : MidClearU (decU (nat256 w) e) :=
      hc.resolve_right fun h => hok ((fastExactOk_iff e w).mpr h)
    rw [if_pos he]
    obtain ⟨r, hr, hA, hB⟩ := approxCore_spec hs h0 he
    rw [hr]
    cases r with
    | none => exact hex fun N hN => ⟨(hB rfl).clear hN, hc N hN⟩
    | some f =>
      obtain ⟨A, N, a1, a2, a3, a4, a5⟩ := hA f rfl
      have : ApproxTo (decU (nat256 w) e) N := ⟨A, a2, a3, a4, a5⟩
      exact ⟨f, N, rfl, a1, this.between this le_rfl le_rfl hc⟩

/-- None of the paths panics. -/
theorem fastExact_total {lit : List (BitVec 8)} {sign : ℕ} {e : ℤ} {w : U256} {tr : Bool}
    (hs : sign ≤ 1) (h0 : nat256 w ≠ 0) (hw : nat256 w < 10 ^ 77) (hex : ∃ g, f256Exact lit = some g) :
    ∃ g, fastExact lit sign e w tr = some g := by
  have happ : ∀ w : U256, nat256 w ≠ 0 → ∃ g, fastApproxFalse lit sign e w = some g := by
    intro w h0
    unfold fastApproxFalse
    split_ifs with he
    · obtain ⟨r, hr, -⟩ := approxCore_spec hs h0 he
      rw [hr]
      cases r with
      | none => exact hex
      | some f => exact ⟨f, rfl⟩
    · exact hex
  have happ2 : ∃ g, fastApprox lit sign e w tr = some g := by
    unfold fastApprox
    split_ifs with h1 h2
    · obtain ⟨r, hr, -⟩ := approxCore_spec hs h0 h2
      rw [hr]
      cases r with
      | none => exact hex
      | some f =>
        have hsh := shifted_incr h0 hw
        obtain ⟨g, hg⟩ := happ (UInt.incr (UInt.shl w (BigUInt.leadingZeros w))) (by omega)
        dsimp only
        rw [hg]
        dsimp only
        split_ifs
        · exact ⟨_, rfl⟩
        · exact hex
    · exact hex
    · exact happ w h0
  unfold fastExact
  split_ifs with h1 h2
  · rw [fastExactOk_iff] at h1
    obtain ⟨f, N, f1, -⟩ := exactCore_spec hs h0 h1.1 h1.2
    have hinc : nat256 (UInt.incr w) = nat256 w + 1 := by
      have : (10 : ℕ) ^ 77 + 1 < 2 ^ 256 := by norm_num
      rw [nat_incr256, Nat.mod_eq_of_lt (by omega)]
    have h2 : ∃ g, fastExactFalse lit sign e (UInt.incr w) = some g := by
      unfold fastExactFalse
      split_ifs with hok
      · rw [fastExactOk_iff] at hok
        obtain ⟨f, N, f1, -⟩ := exactCore_spec hs (by omega : nat256 (UInt.incr w) ≠ 0) hok.1 hok.2
        exact ⟨f, f1⟩
      · unfold fastApprox
        rw [if_neg (by simp)]
        exact happ _ (by omega)
    obtain ⟨g, hg⟩ := h2
    rw [f1]
    simp only [Option.bind_eq_bind, Option.bind_some, Option.pure_def]
    rw [hg]
    simp only [Option.bind_some]
    split_ifs
    · exact ⟨_, rfl⟩
    · exact hex
  · rw [fastExactOk_iff] at h1
    obtain ⟨f, N, f1, -⟩ := exactCore_spec hs h0 h1.1 h1.2
    rw [f1]
    exact ⟨f, rfl⟩
  · exact happ2

end Verif
