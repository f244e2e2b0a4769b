import Verif.Proofs.BigFloat
import Mathlib.Data.Real.Basic
import Mathlib.Tactic.Positivity
import Mathlib.Tactic.Ring
import Mathlib.Tactic.LinearCombination

/-!
# Values and errors of the fused operation of `BigFloat`
-/

set_option exponentiation.threshold 2000

namespace Verif.BigFloat

open BigUInt LawfulBigUInt

/-- `r` is `w` rounded: half a unit in the last place, or 4/5 of one if the exponent exceeds `E` -/
def Res (r : BigFloat) (w : ℝ) (E : ℤ) : Prop :=
  (r = ZERO ∧ w = 0) ∨ (Norm' r ∧ |bval r - w| ≤ 4 / 5 * (2 : ℝ) ^ (r.exp - 254) ∧
    (r.exp ≤ E → |bval r - w| ≤ 5001 / 10000 * (2 : ℝ) ^ (r.exp - 254)) ∧
    (nat256 r.signif = 2 ^ 255 → |w| < (2 : ℝ) ^ (r.exp + 1)))

theorem two_zpow (e : ℤ) : 0 < (2 : ℝ) ^ e := zpow_pos (by norm_num) e

theorem sgn_abs {s : ℤ} (h : Sgn s) : |(s : ℝ)| = 1 := by
  rcases h with rfl | rfl <;> norm_num

theorem zpow_add_nat (e : ℤ) (n : ℕ) : (2 : ℝ) ^ (e + n) = (2 : ℝ) ^ e * (2 : ℝ) ^ n := by
  rw [zpow_add₀ (by norm_num), zpow_natCast]

theorem err_bound {sg : ℤ} {A X B : ℕ} {Xr F : ℝ} (hsg : Sgn sg) (h1 : A ≤ X + B) (h2 : X ≤ A + B)
    (h : |(X : ℝ) - Xr| < 1) (hF : 0 < F) : |sg * (A : ℝ) * F - sg * Xr * F| ≤ (B + 1) * F := by
  have e : (sg : ℝ) * A * F - sg * Xr * F = sg * ((A - Xr) * F) := by ring
  rw [e, abs_mul, sgn_abs hsg, one_mul, abs_mul, abs_of_pos hF]
  refine mul_le_mul_of_nonneg_right ?_ hF.le
  have h1' : (A : ℝ) ≤ X + B := by exact_mod_cast h1
  have h2' : (X : ℝ) ≤ A + B := by exact_mod_cast h2
  rw [abs_lt] at h
  rw [abs_le]
  constructor <;> linarith [h.1, h.2]

theorem pow_mono2 {a b : ℤ} (h : a ≤ b) : (2 : ℝ) ^ a ≤ (2 : ℝ) ^ b := zpow_le_zpow_right₀ (by norm_num) h

/-- Addition of magnitudes -/
theorem fma_add {T S : U512} {sg e : ℤ} {Se : ℝ} (hsg : Sgn sg) (hT : 2 ^ 510 ≤ UInt.nat T)
    (hsum : UInt.nat T + UInt.nat S < 2 ^ 512) (hS : |(UInt.nat S : ℝ) - Se| < 1) :
    ∃ r, fmaAdd sg e T S = some r ∧ Res r (sg * (UInt.nat T + Se) * (2 : ℝ) ^ (e - 510)) e := by
  obtain ⟨c, s, hr, h1, h2, hc, h0, h3, h4⟩ := fmaAdd_spec (T := T) (S := S) sg e rfl hsum
    (le_trans hT (Nat.le_add_right _ _))
  have hX : |((UInt.nat T + UInt.nat S : ℕ) : ℝ) - (UInt.nat T + Se)| < 1 := by
    rw [Nat.cast_add, add_sub_add_left_eq_sub]; exact hS
  have hb : bval ⟨sg, e + c, s⟩ = sg * ((nat256 s * 2 ^ (256 + c) : ℕ) : ℝ) * (2 : ℝ) ^ (e - 510) := by
    unfold bval
    dsimp only
    rw [show e + c - 254 = e - 510 + ((256 + c : ℕ) : ℤ) by push_cast; ring, zpow_add_nat]
    push_cast
    ring
  have hF := two_zpow (e - 510)
  have hu : (2 : ℝ) ^ (e + c - 254) = (2 : ℝ) ^ (256 + c) * (2 : ℝ) ^ (e - 510) := by
    rw [show e + c - 254 = e - 510 + ((256 + c : ℕ) : ℤ) by push_cast; ring, zpow_add_nat, mul_comm]
  have hsmall : c = 0 → |bval ⟨sg, e + c, s⟩ - sg * (UInt.nat T + Se) * (2 : ℝ) ^ (e - 510)| ≤
      5001 / 10000 * (2 : ℝ) ^ (e + c - 254) := by
    intro hc0
    obtain ⟨g1, g2⟩ := h0 hc0
    rw [hb, hu, hc0]
    refine (err_bound hsg g1 g2 hX hF).trans ?_
    rw [← mul_assoc]
    refine mul_le_mul_of_nonneg_right ?_ hF.le
    norm_num
  refine ⟨_, hr, Or.inr ⟨⟨hsg, h1, h2.le⟩, ?_, ?_, ?_⟩⟩
  all_goals dsimp only
  · rcases Nat.eq_zero_or_pos c with hc0 | hc0
    · refine (hsmall hc0).trans ?_
      exact mul_le_mul_of_nonneg_right (by norm_num) (two_zpow _).le
    · rw [hb, hu]
      refine (err_bound hsg h3 h4 hX hF).trans ?_
      rw [← mul_assoc]
      refine mul_le_mul_of_nonneg_right ?_ hF.le
      have : (2 : ℝ) ^ 257 ≤ 2 ^ (256 + c) := pow_le_pow_right₀ (by norm_num) (Nat.add_le_add_left hc0 256)
      refine le_trans ?_ (mul_le_mul_of_nonneg_left this (by norm_num))
      norm_num
  · intro h
    exact hsmall (by clear * - h; omega)
  · intro h; exact absurd h h2.ne

theorem sub_err {X s d : ℕ} (hn : Spec.NearestEven X d s) : 2 * (s * d) ≤ 2 * X + d ∧ 2 * X ≤ 2 * (s * d) + d := by
  obtain ⟨l, u, -⟩ := hn
  constructor <;> omega

/-- Subtraction of magnitudes -/
theorem fma_sub {T S : U512} {sg e : ℤ} {Se : ℝ} (hsg : Sgn sg) (hT : 2 ^ 510 ≤ UInt.nat T) (hT2 : UInt.nat T ≤ 2 ^ 511)
    (hS0 : 0 < UInt.nat S) (hST : UInt.nat S ≤ UInt.nat T) (hS : |(UInt.nat S : ℝ) - Se| < 1)
    (hl : (UInt.nat S : ℝ) = Se ∨ UInt.nat S ≤ 2 ^ 509) :
    ∃ r, fmaSub sg e T S = some r ∧ Res r (sg * (UInt.nat T - Se) * (2 : ℝ) ^ (e - 510)) e := by
  obtain ⟨X, hX⟩ : ∃ X, UInt.nat T = UInt.nat S + X := Nat.exists_eq_add_of_le hST
  have hXlt : X < 2 ^ 511 := by clear hT hS hl; omega
  have hXT : (X : ℝ) = UInt.nat T - UInt.nat S := by rw [hX]; push_cast; ring
  have hXr : |(X : ℝ) - (UInt.nat T - Se)| < 1 := by
    rw [hXT, show (UInt.nat T : ℝ) - UInt.nat S - (UInt.nat T - Se) = -(UInt.nat S - Se) by ring, abs_neg]
    exact hS
  have hl' : (X : ℝ) = UInt.nat T - Se ∨ 2 ^ 509 ≤ X := by
    rcases hl with h | h
    · left; rw [hXT, h]
    · right; clear hXr hXT hS; omega
  generalize (UInt.nat T : ℝ) - Se = Y at hXr hl'
  have hF := two_zpow (e - 510)
  rcases fmaSub_spec sg e hX hXlt with ⟨h0, hz⟩ | ⟨k, s, hk, k1, k2, hr, h1, h2, h3, h4⟩
  · refine ⟨_, hz, Or.inl ⟨rfl, ?_⟩⟩
    rcases hl' with h | h
    · rw [← h, h0]; simp
    · exact absurd h0 (by clear * - h; omega)
  · refine ⟨_, hr, Or.inr ⟨⟨hsg, h1, h2⟩, ?_⟩⟩
    dsimp only
    have main : |bval ⟨sg, e - ((510 - k : ℕ) : ℤ), s⟩ - sg * Y * (2 : ℝ) ^ (e - 510)| ≤
        5001 / 10000 * (2 : ℝ) ^ (e - ((510 - k : ℕ) : ℤ) - 254) := by
      rcases Nat.lt_or_ge k 255 with hk5 | hk5
      · have hY : (X : ℝ) = Y := by
          rcases hl' with h | h
          · exact h
          · exfalso
            have : 2 ^ (k + 1) ≤ 2 ^ 255 := Nat.pow_le_pow_right (by norm_num) (by omega)
            clear h1 h2 h3 h4 k1 hXlt hX hT hT2
            omega
        have : bval ⟨sg, e - ((510 - k : ℕ) : ℤ), s⟩ = sg * Y * (2 : ℝ) ^ (e - 510) := by
          unfold bval
          dsimp only
          rw [h3 (by omega), ← hY, show e - 510 = e - ((510 - k : ℕ) : ℤ) - 254 + ((254 - k : ℕ) : ℤ) by
            clear * - hk5; omega, zpow_add_nat]
          push_cast
          ring
        rw [this, sub_self, abs_zero]
        exact mul_nonneg (by norm_num) (two_zpow _).le
      · have hu : (2 : ℝ) ^ (e - ((510 - k : ℕ) : ℤ) - 254) = (2 : ℝ) ^ (k - 254) * (2 : ℝ) ^ (e - 510) := by
          rw [show e - ((510 - k : ℕ) : ℤ) - 254 = e - 510 + ((k - 254 : ℕ) : ℤ) by clear * - hk5 hk; omega,
            zpow_add_nat, mul_comm]
        have hb : bval ⟨sg, e - ((510 - k : ℕ) : ℤ), s⟩ =
            sg * ((nat256 s * 2 ^ (k - 254) : ℕ) : ℝ) * (2 : ℝ) ^ (e - 510) := by
          unfold bval
          dsimp only
          rw [hu]
          push_cast
          ring
        obtain ⟨g1, g2⟩ := sub_err (h4 (by omega))
        rw [hb, hu]
        have e1 : (sg : ℝ) * ((nat256 s * 2 ^ (k - 254) : ℕ) : ℝ) * (2 : ℝ) ^ (e - 510) - sg * Y * (2 : ℝ) ^ (e - 510) =
          sg * ((((nat256 s * 2 ^ (k - 254) : ℕ) : ℝ) - Y) * (2 : ℝ) ^ (e - 510)) := by ring
        rw [e1, abs_mul, sgn_abs hsg, one_mul, abs_mul, abs_of_pos hF, ← mul_assoc]
        refine mul_le_mul_of_nonneg_right ?_ hF.le
        have hc : ((2 ^ (k - 254) : ℕ) : ℝ) = (2 : ℝ) ^ (k - 254) := by push_cast; rfl
        rw [← hc]
        have g1' : 2 * ((nat256 s * 2 ^ (k - 254) : ℕ) : ℝ) ≤ 2 * X + ((2 ^ (k - 254) : ℕ) : ℝ) := by exact_mod_cast g1
        have g2' : 2 * (X : ℝ) ≤ 2 * ((nat256 s * 2 ^ (k - 254) : ℕ) : ℝ) + ((2 ^ (k - 254) : ℕ) : ℝ) := by exact_mod_cast g2
        have hYX : |(X : ℝ) - Y| ≤ 1 / 10000 * ((2 ^ (k - 254) : ℕ) : ℝ) := by
          rcases hl' with h | h
          · rw [h, sub_self, abs_zero]
            exact mul_nonneg (by norm_num) (Nat.cast_nonneg _)
          · have hk9 : 509 ≤ k := by
              by_contra hc
              have : 2 ^ (k + 1) ≤ 2 ^ 509 := Nat.pow_le_pow_right (by norm_num) (by omega)
              exact absurd (lt_of_lt_of_le k2 this) (not_lt.mpr h)
            have : (2 : ℕ) ^ 255 ≤ 2 ^ (k - 254) := Nat.pow_le_pow_right (by norm_num) (by omega)
            have h' : ((2 ^ 255 : ℕ) : ℝ) ≤ ((2 ^ (k - 254) : ℕ) : ℝ) := Nat.cast_le.mpr this
            refine hXr.le.trans (le_trans ?_ (mul_le_mul_of_nonneg_left h' (by norm_num)))
            push_cast
            norm_num
        clear hc e1 hb hu h3 h4 g1 g2 hXlt hX hT hT2 k1 k2 h1 h2 hl' hXr
        generalize ((2 ^ (k - 254) : ℕ) : ℝ) = U at *
        generalize ((nat256 s * 2 ^ (k - 254) : ℕ) : ℝ) = A at *
        rw [abs_le] at *
        constructor <;> linarith [hYX.1, hYX.2]
    refine ⟨main.trans (mul_le_mul_of_nonneg_right (by norm_num) (two_zpow _).le), fun _ => main, ?_⟩
    intro _
    rw [abs_mul, abs_mul, sgn_abs hsg, one_mul, abs_of_pos hF,
      show e - ((510 - k : ℕ) : ℤ) + 1 = e - 510 + ((k + 1 : ℕ) : ℤ) by clear * - hk; omega, zpow_add_nat, mul_comm]
    refine mul_lt_mul_of_pos_left ?_ hF
    have hc : ((2 ^ (k + 1) : ℕ) : ℝ) = (2 : ℝ) ^ (k + 1) := by push_cast; rfl
    rw [← hc]
    have hX1 : (X : ℝ) + 1 ≤ ((2 ^ (k + 1) : ℕ) : ℝ) := by exact_mod_cast k2
    have hX0 : (0 : ℝ) < X := by
      have : 0 < X := lt_of_lt_of_le (Nat.two_pow_pos k) k1
      exact_mod_cast this
    have hX2 : (1 : ℝ) ≤ X := by
      have : 1 ≤ X := lt_of_lt_of_le (Nat.two_pow_pos k) k1
      exact_mod_cast this
    clear main hc h3 h4 hXlt hX hT hT2 k1 k2 h1 h2 hl'
    generalize ((2 ^ (k + 1) : ℕ) : ℝ) = U at *
    rw [abs_lt] at *
    constructor <;> linarith [hXr.1, hXr.2]

theorem Res.mono {r : BigFloat} {w : ℝ} {E E' : ℤ} (h : Res r w E) (hE : E' ≤ E) : Res r w E' := by
  rcases h with h | ⟨h1, h2, h3, h4⟩
  · exact Or.inl h
  · exact Or.inr ⟨h1, h2, fun h => h3 (h.trans hE), h4⟩

theorem fma_op {T S : U512} {sT sS e : ℤ} {Se : ℝ} (hsT : Sgn sT) (hsS : Sgn sS) (hT : 2 ^ 510 ≤ UInt.nat T)
    (hT2 : UInt.nat T ≤ 2 ^ 511) (hS0 : 0 < UInt.nat S) (hST : UInt.nat S ≤ UInt.nat T)
    (hsum : UInt.nat T + UInt.nat S < 2 ^ 512)
    (hS : |(UInt.nat S : ℝ) - Se| < 1) (hl : (UInt.nat S : ℝ) = Se ∨ UInt.nat S ≤ 2 ^ 509) :
    ∃ r, (if sT = sS then fmaAdd else fmaSub) sT e T S = some r ∧
      Res r (sT * (UInt.nat T : ℝ) * (2 : ℝ) ^ (e - 510) + sS * Se * (2 : ℝ) ^ (e - 510)) e := by
  by_cases h : sT = sS
  · rw [if_pos h, ← h, show (sT : ℝ) * (UInt.nat T : ℝ) * (2 : ℝ) ^ (e - 510) + sT * Se * (2 : ℝ) ^ (e - 510) =
      sT * (UInt.nat T + Se) * (2 : ℝ) ^ (e - 510) by ring]
    exact fma_add hsT hT hsum hS
  · have hn : sS = - sT := by
      rcases hsT with rfl | rfl <;> rcases hsS with rfl | rfl <;> first | rfl | exact absurd rfl h
    rw [if_neg h, hn, show (sT : ℝ) * (UInt.nat T : ℝ) * (2 : ℝ) ^ (e - 510) + ((-sT : ℤ) : ℝ) * Se * (2 : ℝ) ^ (e - 510) =
      sT * (UInt.nat T - Se) * (2 : ℝ) ^ (e - 510) by push_cast; ring]
    exact fma_sub hsT hT hT2 hS0 hST hS hl

theorem isZero_false {x : BigFloat} (h : Sgn x.signum) : x.isZero = false := by
  unfold isZero
  rcases h with h | h <;> rw [h] <;> decide

theorem shift_le {S N n b : ℕ} (h : S * 2 ^ n < N + 2 ^ n) (hN : N ≤ 2 ^ (b + n)) : S ≤ 2 ^ b := by
  by_contra hc
  have h1 : (2 ^ b + 1) * 2 ^ n ≤ S * 2 ^ n := Nat.mul_le_mul_right _ (by omega)
  rw [Nat.add_mul, Nat.one_mul, ← Nat.pow_add] at h1
  generalize 2 ^ (b + n) = B at *
  omega

/-- A shifted operand -/
theorem sticky_real (x : U512) {n : ℕ} (h1 : 1 ≤ n) (h2 : n < 512) (h0 : 0 < UInt.nat x) (hx : UInt.nat x ≤ 2 ^ 511)
    (hp : n = 1 → UInt.nat x % 2 = 0) :
    0 < UInt.nat (shrSticky x n) ∧ UInt.nat (shrSticky x n) ≤ 2 ^ 510 ∧
    |(UInt.nat (shrSticky x n) : ℝ) - UInt.nat x / 2 ^ n| < 1 ∧
    ((UInt.nat (shrSticky x n) : ℝ) = UInt.nat x / 2 ^ n ∨ UInt.nat (shrSticky x n) ≤ 2 ^ 509) := by
  obtain ⟨g1, g2, g3, g4⟩ := shrSticky_spec x h1 h2
  generalize UInt.nat (shrSticky x n) = S at *
  generalize UInt.nat x = N at *
  have hp0 : (0 : ℝ) < 2 ^ n := by positivity
  refine ⟨Nat.pos_of_ne_zero (g4 h0.ne'), ?_, ?_, ?_⟩
  · exact shift_le g2 (hx.trans (Nat.pow_le_pow_right (by norm_num) (by clear * - h1; omega)))
  · have e : (S : ℝ) - N / 2 ^ n = (S * 2 ^ n - N) / 2 ^ n := by field_simp
    rw [e, abs_div, abs_of_pos hp0, div_lt_one hp0, abs_lt]
    have g1' : (N : ℝ) < S * 2 ^ n + 2 ^ n := by exact_mod_cast g1
    have g2' : (S : ℝ) * 2 ^ n < N + 2 ^ n := by exact_mod_cast g2
    constructor <;> linarith
  · rcases Nat.lt_or_ge n 2 with hn | hn
    · left
      have hn1 : n = 1 := by clear * - hn h1; omega
      subst hn1
      have := g3 (by rw [pow_one]; exact hp rfl)
      rw [← this]
      push_cast
      field_simp
    · right
      exact shift_le g2 (hx.trans (Nat.pow_le_pow_right (by norm_num) (by clear * - hn; omega)))

theorem mulAdd_spec {x f a : BigFloat} (hx : Norm x) (hf : Norm f) (ha : Norm' a)
    (hd : -255 ≤ x.exp + f.exp - a.exp) (hd2 : x.exp + f.exp - a.exp < 511) :
    ∃ r, mulAdd x f a = some r ∧ Res r (bval x * bval f + bval a) a.exp := by
  obtain ⟨p, adj, hm, hadj, hp, p1, p2⟩ := mulSignifs_spec hx.2.1 hx.2.2 hf.2.1 hf.2.2
  have hps : Sgn (x.signum * f.signum) := by
    rcases hx.1 with h | h <;> rcases hf.1 with h' | h' <;> rw [h, h'] <;> first | exact Or.inl rfl | exact Or.inr rfl
  have hpv : bval x * bval f = ((x.signum * f.signum : ℤ) : ℝ) * (UInt.nat p : ℝ) *
      (2 : ℝ) ^ (x.exp + f.exp + adj - 510) := by
    unfold bval
    rw [hp, show x.exp + f.exp + adj - 510 = (x.exp - 254) + (f.exp - 254) + adj - 2 by ring]
    generalize x.exp - 254 = A
    generalize f.exp - 254 = B
    rw [zpow_sub₀ (by norm_num), zpow_add₀ (by norm_num), zpow_add₀ (by norm_num)]
    have : adj = 0 ∨ adj = 1 := by clear * - hadj; omega
    rcases this with h | h <;> rw [h] <;> push_cast <;> norm_num <;> ring
  obtain ⟨add, hadd⟩ : ∃ add : U512, (⟨a.signif, UInt.zero⟩ : U512) = add := ⟨_, rfl⟩
  have hadv : UInt.nat add = nat256 a.signif * 2 ^ 256 := by
    rw [← hadd, nat512]
    show nat256 a.signif * 2 ^ 256 + nat256 UInt.zero = _
    rw [zero256, Nat.add_zero]
  have hav : bval a = (a.signum : ℝ) * (UInt.nat add : ℝ) * (2 : ℝ) ^ (a.exp - 510) := by
    unfold bval
    rw [hadv, show a.exp - 254 = a.exp - 510 + ((256 : ℕ) : ℤ) by push_cast; ring, zpow_add_nat]
    push_cast
    ring
  have a1 : 2 ^ 510 ≤ UInt.nat add := by
    rw [hadv, ← pow_split (a := 254) (b := 256) (c := 510) rfl]
    exact Nat.mul_le_mul_right _ ha.2.1
  have a2 : UInt.nat add ≤ 2 ^ 511 := by
    rw [hadv, ← pow_split (a := 255) (b := 256) (c := 511) rfl]
    exact Nat.mul_le_mul_right _ ha.2.2
  have hpe : UInt.nat p % 2 = 0 := by
    have : adj = 0 ∨ adj = 1 := by clear * - hadj; omega
    rcases this with h | h <;> rw [hp, h]
    · rw [show 2 ^ (2 - 0) = 2 * 2 by norm_num, ← Nat.mul_assoc, Nat.mul_mod_left]
    · rw [show 2 ^ (2 - 1) = 2 by norm_num, Nat.mul_mod_left]
  have hae : UInt.nat add % 2 = 0 := by
    rw [hadv, show 2 ^ 256 = 2 ^ 255 * 2 by norm_num, ← Nat.mul_assoc, Nat.mul_mod_left]
  unfold mulAdd
  rw [isZero_false hx.1, isZero_false hf.1, isZero_false ha.1, hm]
  dsimp only
  rw [if_neg (by decide), if_neg (by decide), if_neg (by clear * - hd; omega), if_neg (by clear * - hd2; omega), hadd]
  rw [hpv, hav]
  clear hm hadd hpv hav hadv hp
  obtain ⟨pe, hpe'⟩ : ∃ pe : ℤ, x.exp + f.exp + adj = pe := ⟨_, rfl⟩
  obtain ⟨d, hd'⟩ : ∃ d : ℤ, x.exp + f.exp - a.exp + adj = d := ⟨_, rfl⟩
  rw [hpe', hd']
  have hdd : pe = a.exp + d := by rw [← hpe', ← hd']; ring
  have hd3 : -255 ≤ d := by clear * - hd hd'; omega
  have hd4 : d ≤ 511 := by clear * - hd2 hd' hadj; omega
  clear hpe' hd' hd hd2
  generalize x.signum * f.signum = ps at *
  have self_close : ∀ n : ℕ, |(n : ℝ) - n| < 1 := fun n => by simp
  by_cases h0 : d = 0
  · rw [if_pos h0]
    have hpa : pe = a.exp := by rw [hdd, h0, add_zero]
    rw [hpa, ge512]
    by_cases hc : UInt.nat add ≤ UInt.nat p
    · rw [if_pos (decide_eq_true hc)]
      exact fma_op hps ha.1 p1 p2.le (lt_of_lt_of_le (by norm_num) a1) hc (by clear * - p2 a2; omega) (self_close _) (Or.inl rfl)
    · rw [if_neg (by rw [decide_eq_false hc]; decide), add_comm]
      rw [show (if ps = a.signum then fmaAdd else fmaSub) = (if a.signum = ps then fmaAdd else fmaSub) by
        simp only [eq_comm]]
      exact fma_op ha.1 hps a1 a2 (lt_of_lt_of_le (by norm_num) p1) (not_le.mp hc).le (by clear * - p2 a2; omega)
        (self_close _) (Or.inl rfl)
  · rw [if_neg h0]
    by_cases h1 : 1 ≤ d
    · rw [if_pos h1]
      obtain ⟨n, rfl⟩ : ∃ n : ℕ, d = n := ⟨d.toNat, by clear * - h1; omega⟩
      rw [Int.toNat_natCast]
      obtain ⟨s1, s2, s3, s4⟩ := sticky_real add (n := n) (by clear * - h1; omega) (by clear * - hd4; omega)
        (lt_of_lt_of_le (by norm_num) a1) a2 (fun _ => hae)
      obtain ⟨r, hr, hres⟩ := fma_op (e := pe) hps ha.1 p1 p2.le s1 (s2.trans p1) (by clear * - p2 s2; omega) s3 s4
      refine ⟨r, hr, ?_⟩
      have e1 : (a.signum : ℝ) * (UInt.nat add / 2 ^ n) * (2 : ℝ) ^ (pe - 510) =
          a.signum * UInt.nat add * (2 : ℝ) ^ (a.exp - 510) := by
        rw [hdd, show a.exp + n - 510 = a.exp - 510 + n by ring, zpow_add_nat]
        field_simp
      rw [e1] at hres
      exact hres.mono (by clear * - hdd h1; omega)
    · rw [if_neg h1]
      obtain ⟨n, rfl⟩ : ∃ n : ℕ, d = -n := ⟨(-d).toNat, by clear * - h1; omega⟩
      rw [show (-(n : ℤ)).natAbs = n by omega]
      obtain ⟨s1, s2, s3, s4⟩ := sticky_real p (n := n) (by clear * - h0; omega) (by clear * - hd3; omega)
        (lt_of_lt_of_le (by norm_num) p1) p2.le (fun _ => hpe)
      obtain ⟨r, hr, hres⟩ := fma_op (e := a.exp) ha.1 hps a1 a2 s1 (s2.trans a1) (by clear * - a2 s2; omega) s3 s4
      rw [show (if ps = a.signum then fmaAdd else fmaSub) = (if a.signum = ps then fmaAdd else fmaSub) by
        simp only [eq_comm]]
      refine ⟨r, hr, ?_⟩
      have e1 : (ps : ℝ) * (UInt.nat p / 2 ^ n) * (2 : ℝ) ^ (a.exp - 510) =
          ps * UInt.nat p * (2 : ℝ) ^ (pe - 510) := by
        rw [show a.exp - 510 = pe - 510 + n by rw [hdd]; ring, zpow_add_nat]
        field_simp
      rw [e1, add_comm] at hres
      exact hres

end Verif.BigFloat
