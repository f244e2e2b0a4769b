import Verif.Proofs.BigAdd
import Verif.Model.Trig
import Mathlib.Tactic.NormNum

/-!
# The compensated tail of the reduction with `BigFloat`
-/

set_option exponentiation.threshold 2000

namespace Verif.BigFloat

open BigUInt LawfulBigUInt

/-- Normalised, or large if rounding carried into the highest bit -/
def Nice (L : ℝ) (x : BigFloat) : Prop := x = ZERO ∨ Norm x ∨ (Norm' x ∧ L ≤ |bval x|)

theorem Nice.weak {L : ℝ} {x : BigFloat} (h : Nice L x) : x = ZERO ∨ Norm' x := by
  rcases h with h | h | ⟨h, -⟩
  · exact Or.inl h
  · exact Or.inr h.weaken
  · exact Or.inr h

theorem Nice.big {L : ℝ} {x : BigFloat} (h : Nice L x) (hs : nat256 x.signif = 2 ^ 255) : Norm' x ∧ L ≤ |bval x| := by
  rcases h with rfl | h | h
  · exact absurd hs (by decide)
  · exact absurd hs h.2.2.ne
  · exact h

theorem Nice.strict {L : ℝ} {x : BigFloat} (h : Nice L x) (hs : |bval x| < L) : nat256 x.signif ≠ 2 ^ 255 :=
  fun hc => absurd (h.big hc).2 (not_le.mpr hs)

theorem bval_neg (x : BigFloat) : bval (neg x) = -bval x := by
  unfold bval neg
  push_cast
  ring

theorem neg_zero' : neg ZERO = ZERO := by decide

theorem Sgn.neg {s : ℤ} (h : Sgn s) : Sgn (s * -1) := by
  rcases h with rfl | rfl
  · exact Or.inr rfl
  · exact Or.inl rfl

theorem Norm.neg {x : BigFloat} (h : Norm x) : Norm (neg x) := ⟨h.1.neg, h.2⟩

theorem Norm'.neg {x : BigFloat} (h : Norm' x) : Norm' (BigFloat.neg x) := ⟨h.1.neg, h.2⟩

theorem Nice.neg {L : ℝ} {x : BigFloat} (h : Nice L x) : Nice L (neg x) := by
  rcases h with rfl | h | ⟨h, h'⟩
  · rw [neg_zero']; exact Or.inl rfl
  · exact Or.inr (Or.inl h.neg)
  · exact Or.inr (Or.inr ⟨h.neg, by rw [bval_neg, abs_neg]; exact h'⟩)

theorem same_sign {x y : BigFloat} (hx : Norm' x) (hy : Norm' y) (h : x.signum = y.signum) : 0 < bval x * bval y := by
  have h1 : (0 : ℝ) < nat256 x.signif := by
    have : 0 < nat256 x.signif := lt_of_lt_of_le (by norm_num) hx.2.1
    exact_mod_cast this
  have h2 : (0 : ℝ) < nat256 y.signif := by
    have : 0 < nat256 y.signif := lt_of_lt_of_le (by norm_num) hy.2.1
    exact_mod_cast this
  have h3 : (x.signum : ℝ) * y.signum = 1 := by
    rw [← h]
    rcases hx.1 with h | h <;> rw [h] <;> norm_num
  unfold bval
  have e : (x.signum : ℝ) * (nat256 x.signif : ℝ) * (2 : ℝ) ^ (x.exp - 254) *
      (y.signum * (nat256 y.signif : ℝ) * (2 : ℝ) ^ (y.exp - 254)) =
      (x.signum * y.signum) * ((nat256 x.signif : ℝ) * (2 : ℝ) ^ (x.exp - 254) *
        ((nat256 y.signif : ℝ) * (2 : ℝ) ^ (y.exp - 254))) := by ring
  rw [e, h3, one_mul]
  exact mul_pos (mul_pos h1 (two_zpow _)) (mul_pos h2 (two_zpow _))

theorem add_nice {L : ℝ} {x y : BigFloat} (hx : Nice L x) (hy : Nice L y)
    (hc : bval x * bval y ≤ 0 ∨ |bval x| < L ∨ |bval y| < L) :
    ∃ r, add x y = some r ∧ Nice L r ∧ |bval r| ≤ |bval x + bval y| + (|bval x| + |bval y|) / 2 ^ 253 ∧
      (bval x ≠ 0 → bval y ≠ 0 → |bval r - (bval x + bval y)| ≤ (|bval x| + |bval y|) / 2 ^ 253) := by
  obtain ⟨r, hr, hs, h1, h2⟩ := add_core hx.weak hy.weak (by
    rintro ⟨a1, a2, a3⟩
    obtain ⟨b1, b2⟩ := hx.big a1
    obtain ⟨c1, c2⟩ := hy.big a2
    rcases hc with h | h | h
    · exact absurd (same_sign b1 c1 a3) (not_lt.mpr h)
    · exact absurd b2 (not_le.mpr h)
    · exact absurd c2 (not_le.mpr h))
  refine ⟨r, hr, ?_, h1, h2⟩
  rcases hs with h | h | rfl | rfl
  · exact Or.inl h
  · exact Or.inr (Or.inl h)
  · exact hx
  · exact hy

theorem sub_nice {L : ℝ} {x y : BigFloat} (hx : Nice L x) (hy : Nice L y)
    (hc : 0 ≤ bval x * bval y ∨ |bval x| < L ∨ |bval y| < L) :
    ∃ r, sub x y = some r ∧ Nice L r ∧ |bval r| ≤ |bval x - bval y| + (|bval x| + |bval y|) / 2 ^ 253 ∧
      (bval x ≠ 0 → bval y ≠ 0 → |bval r - (bval x - bval y)| ≤ (|bval x| + |bval y|) / 2 ^ 253) := by
  unfold sub
  by_cases h : x = y
  · rw [if_pos h, h, sub_self]
    refine ⟨ZERO, rfl, Or.inl rfl, ?_, fun _ _ => ?_⟩
    · rw [bval_zero, abs_zero]; positivity
    · rw [bval_zero, sub_zero, abs_zero]; positivity
  · rw [if_neg h]
    obtain ⟨r, hr, hs, h1, h2⟩ := add_nice hx hy.neg (by
      rw [bval_neg, abs_neg, mul_neg]
      rcases hc with h | h
      · left; linarith
      · right; exact h)
    rw [bval_neg, abs_neg, ← sub_eq_add_neg] at h1 h2
    exact ⟨r, hr, hs, h1, fun a b => h2 a (neg_ne_zero.mpr b)⟩

/-! ## Products -/

theorem mul_spec {z c : BigFloat} (hz : Norm z) (hc : Norm c)
    (hov : ∀ a : ℕ, a ≤ 2 → nat256 z.signif * nat256 c.signif * 2 ^ a < 2 ^ 511 →
      nat256 z.signif * nat256 c.signif * 2 ^ a < 2 ^ 511 - 2 ^ 255) :
    Norm (mul z c) ∧ |bval (mul z c) - bval z * bval c| ≤ |bval z * bval c| / 2 ^ 253 ∧
      ((mul z c).exp = z.exp + c.exp ∨ (mul z c).exp = z.exp + c.exp + 1) := by
  obtain ⟨p, adj, hm, hadj, hp, p1, p2⟩ := mulSignifs_spec hz.2.1 hz.2.2 hc.2.1 hc.2.2
  have hps : Sgn (z.signum * c.signum) := by
    rcases hz.1 with h | h <;> rcases hc.1 with h' | h' <;> rw [h, h'] <;> first | exact Or.inl rfl | exact Or.inr rfl
  have hps0 : z.signum * c.signum ≠ 0 := by rcases hps with h | h <;> rw [h] <;> decide
  have hpv : bval z * bval c = ((z.signum * c.signum : ℤ) : ℝ) * (UInt.nat p : ℝ) *
      (2 : ℝ) ^ (z.exp + c.exp + adj - 510) := by
    unfold bval
    rw [hp, show z.exp + c.exp + adj - 510 = (z.exp - 254) + (c.exp - 254) + adj - 2 by ring]
    generalize z.exp - 254 = A
    generalize c.exp - 254 = B
    rw [zpow_sub₀ (by norm_num), zpow_add₀ (by norm_num), zpow_add₀ (by norm_num)]
    have : adj = 0 ∨ adj = 1 := by clear * - hadj; omega
    rcases this with h | h <;> rw [h] <;> push_cast <;> norm_num <;> ring
  have p3 : UInt.nat p < 2 ^ 511 - 2 ^ 255 := by
    rw [hp] at p2 ⊢
    exact hov _ (Nat.sub_le _ _) p2
  have hcat := (nat512 p).symm
  have hlo := nat256_lt p.lo
  obtain ⟨r, hr⟩ : ∃ r : Bool, (BigUInt.gt p.lo TIE || (BigUInt.beq p.lo TIE && BigUInt.isOdd p.hi)) = r := ⟨_, rfl⟩
  have hr' := hr
  rw [gt256, beq256, isOdd256, TIE_nat] at hr'
  have hrc : r.toNat = 0 ∧ nat256 p.lo ≤ 2 ^ 255 ∨ r.toNat = 1 ∧ 2 ^ 255 ≤ nat256 p.lo := by
    cases r
    · left
      refine ⟨rfl, not_lt.mp fun hc => ?_⟩
      rw [decide_eq_true hc] at hr'
      exact absurd hr' (by simp)
    · right
      refine ⟨rfl, not_lt.mp fun hc => ?_⟩
      rw [decide_eq_false hc.not_gt, decide_eq_false hc.ne] at hr'
      exact absurd hr' (by simp)
  obtain ⟨g1, g2⟩ := fmaAdd_core0 hcat hlo hrc
  have hb : 2 ^ 254 ≤ nat256 p.hi + r.toNat ∧ nat256 p.hi + r.toNat < 2 ^ 255 := by
    clear * - hrc hcat hlo p3 p1
    omega
  have hinc : nat256 (BigUInt.incrIf p.hi r) = nat256 p.hi + r.toNat := by
    rw [nat_incrIf256, Nat.mod_eq_of_lt]
    exact lt_trans hb.2 (by norm_num)
  have hl := lz256_of (z := BigUInt.incrIf p.hi r) (k := 254) (by rw [hinc]; exact hb.1) (by rw [hinc]; exact hb.2)
  have hmul : mul z c = ⟨z.signum * c.signum, z.exp + (c.exp + adj), UInt.shr (BigUInt.incrIf p.hi r) 0⟩ := by
    unfold mul
    dsimp only
    rw [if_neg hps0, hm]
    dsimp only
    rw [hr, hl]
    rfl
  have hsh : nat256 (UInt.shr (BigUInt.incrIf p.hi r) 0) = nat256 p.hi + r.toNat := by
    rw [nat_shr256 _ (by norm_num), pow_zero, Nat.div_one, hinc]
  rw [hmul]
  refine ⟨⟨hps, ?_, ?_⟩, ?_, ?_⟩
  · show 2 ^ 254 ≤ nat256 (UInt.shr (BigUInt.incrIf p.hi r) 0)
    rw [hsh]; exact hb.1
  · show nat256 (UInt.shr (BigUInt.incrIf p.hi r) 0) < 2 ^ 255
    rw [hsh]; exact hb.2
  · have hF := two_zpow (z.exp + c.exp + adj - 510)
    have hbv : bval ⟨z.signum * c.signum, z.exp + (c.exp + adj), UInt.shr (BigUInt.incrIf p.hi r) 0⟩ =
        ((z.signum * c.signum : ℤ) : ℝ) * (((nat256 p.hi + r.toNat) * 2 ^ 256 : ℕ) : ℝ) *
          (2 : ℝ) ^ (z.exp + c.exp + adj - 510) := by
      unfold bval
      dsimp only
      rw [hsh, show z.exp + (c.exp + adj) - 254 = z.exp + c.exp + adj - 510 + ((256 : ℕ) : ℤ) by push_cast; ring,
        zpow_add_nat]
      push_cast
      ring
    rw [hbv, hpv]
    refine (err_bound (B := 2 ^ 255) hps g1 g2 (by simp : |(UInt.nat p : ℝ) - UInt.nat p| < 1) hF).trans ?_
    rw [abs_mul, abs_mul, sgn_abs hps, one_mul, abs_of_pos hF, abs_of_nonneg (Nat.cast_nonneg _), mul_div_right_comm]
    refine mul_le_mul_of_nonneg_right ?_ hF.le
    have h1 : ((2 ^ 510 : ℕ) : ℝ) ≤ UInt.nat p := by exact_mod_cast p1
    rw [le_div_iff₀ (by positivity)]
    refine le_trans ?_ h1
    norm_num
  · have : adj = 0 ∨ adj = 1 := by clear * - hadj; omega
    rcases this with h | h <;> rw [h]
    · left; push_cast; ring
    · right; push_cast; ring

/-- No product of an integer and the significand `cs` is rounded up to a power of two -/
def noCarry (cs : ℕ) : Bool := (List.range 497).all fun K => decide (2 ^ K < 2 ^ K % cs * 2 ^ 256)

theorem noCarry_spec {cs n j a : ℕ} (hc : noCarry cs = true) (h1 : 2 ^ 254 ≤ cs) (h2 : cs < 2 ^ 255) (hn : 0 < n)
    (hn2 : n < 2 ^ 241) (hlt : n * 2 ^ j * cs * 2 ^ a < 2 ^ 511) : n * 2 ^ j * cs * 2 ^ a < 2 ^ 511 - 2 ^ 255 := by
  by_contra hcon
  push Not at hcon
  have e1 : n * 2 ^ j * cs * 2 ^ a = n * cs * 2 ^ (j + a) := by rw [Nat.pow_add]; ring
  rw [e1] at hlt hcon
  generalize j + a = t at *
  have hN1 : n * cs < 2 ^ 496 := by
    rw [← pow_split (a := 241) (b := 255) (c := 496) rfl]
    exact Nat.mul_lt_mul'' hn2 h2
  have hN2 : 2 ^ 254 ≤ n * cs := le_trans h1 (Nat.le_mul_of_pos_left _ hn)
  obtain ⟨N, hN⟩ : ∃ N, n * cs = N := ⟨_, rfl⟩
  rw [hN] at hlt hcon hN1 hN2
  have ht1 : 15 ≤ t := by
    by_contra h
    have a1 : 2 ^ t ≤ 2 ^ 14 := Nat.pow_le_pow_right (by norm_num) (by omega)
    have a2 : N * 2 ^ t < 2 ^ 496 * 2 ^ 14 := lt_of_le_of_lt (Nat.mul_le_mul_left _ a1) (Nat.mul_lt_mul_of_pos_right hN1 (by norm_num))
    have a3 : 2 ^ 511 - 2 ^ 255 < 2 ^ 496 * 2 ^ 14 := lt_of_le_of_lt hcon a2
    exact absurd a3 (by norm_num)
  have ht2 : t ≤ 256 := by
    by_contra h
    have a1 : 2 ^ 257 ≤ 2 ^ t := Nat.pow_le_pow_right (by norm_num) (by omega)
    have a2 : 2 ^ 254 * 2 ^ 257 ≤ N * 2 ^ t := Nat.mul_le_mul hN2 a1
    exact absurd (lt_of_le_of_lt a2 hlt) (by norm_num)
  obtain ⟨K, hK⟩ : ∃ K, K + t = 511 := ⟨511 - t, by omega⟩
  have hp := pow_split hK
  have hNK : N < 2 ^ K := by
    rw [← hp] at hlt
    exact Nat.lt_of_mul_lt_mul_right hlt
  obtain ⟨ρ, hρ⟩ := Nat.exists_eq_add_of_le hNK.le
  have hρ2 : ρ * 2 ^ t ≤ 2 ^ 255 := by
    have : N * 2 ^ t + ρ * 2 ^ t = 2 ^ 511 := by rw [← Nat.add_mul, ← hρ, hp]
    clear * - this hcon
    generalize N * 2 ^ t = A at *
    generalize ρ * 2 ^ t = B at *
    omega
  have hρ3 : ρ * 2 ^ 256 ≤ 2 ^ K := by
    have h1 : ρ * 2 ^ t * 2 ^ (256 - t) ≤ 2 ^ 255 * 2 ^ (256 - t) := Nat.mul_le_mul_right _ hρ2
    rw [Nat.mul_assoc, pow_split (c := 256) (by omega), pow_split (c := K) (by omega)] at h1
    exact h1
  have hρ4 : ρ < cs := by
    refine lt_of_lt_of_le ?_ h1
    by_contra h
    have a1 : 2 ^ 254 * 2 ^ 256 ≤ ρ * 2 ^ 256 := Nat.mul_le_mul_right _ (not_lt.mp h)
    have a2 : 2 ^ K ≤ 2 ^ 496 := Nat.pow_le_pow_right (by norm_num) (by omega)
    exact absurd (a1.trans (hρ3.trans a2)) (by norm_num)
  have hmod : 2 ^ K % cs = ρ := by
    rw [hρ, ← hN, Nat.mul_comm, Nat.mul_add_mod, Nat.mod_eq_of_lt hρ4]
  have hck := List.all_eq_true.mp hc K (List.mem_range.mpr (by omega))
  have := of_decide_eq_true hck
  rw [hmod] at this
  exact absurd hρ3 (not_le.mpr this)

/-! ## The tail -/

theorem unit_le {x : BigFloat} (h : Norm' x) : (2 : ℝ) ^ (x.exp - 254) ≤ |bval x| / 2 ^ 254 := by
  rw [zpow_sub₀ (by norm_num), show ((2 : ℝ) ^ (254 : ℤ)) = 2 ^ 254 from rfl]
  exact div_le_div_of_nonneg_right h.lower (by positivity)

/-- A rounded value that is not zero -/
theorem Res.rel {r : BigFloat} {w : ℝ} {E : ℤ} (h : Res r w E) (hw : w ≠ 0) :
    Norm' r ∧ |bval r - w| ≤ |bval r| / 2 ^ 254 ∧ |bval r - w| ≤ |w| / 2 ^ 253 := by
  rcases h with ⟨-, h⟩ | ⟨h, h1, -, -⟩
  · exact absurd h hw
  · have hu := unit_le h
    have h2 : |bval r - w| ≤ 4 / 5 * (|bval r| / 2 ^ 254) := h1.trans (mul_le_mul_of_nonneg_left hu (by norm_num))
    have h3 : 0 ≤ |bval r| / 2 ^ 254 := by positivity
    refine ⟨h, by linarith, ?_⟩
    have h4 := abs_sub_abs_le_abs_sub (bval r) w
    have h5 : |bval r| / 2 ^ 254 ≤ |bval r| / 5 :=
      div_le_div_of_nonneg_left (abs_nonneg _) (by norm_num) (by norm_num)
    have h6 : |bval r| ≤ 2 * |w| := by linarith [abs_nonneg w]
    have h7 : |bval r| / 2 ^ 254 ≤ 2 * |w| / 2 ^ 254 := div_le_div_of_nonneg_right h6 (by positivity)
    have h8 : 2 * |w| / 2 ^ 254 = |w| / 2 ^ 253 := by ring
    linarith

theorem Res.crude {r : BigFloat} {w : ℝ} {E : ℤ} (h : Res r w E) :
    (r = ZERO ∨ Norm' r) ∧ |bval r| ≤ 2 * |w| := by
  by_cases hw : w = 0
  · rcases h with ⟨h, -⟩ | ⟨h, h1, -, -⟩
    · rw [h, bval_zero, abs_zero]
      exact ⟨Or.inl rfl, by positivity⟩
    · exfalso
      rw [hw, sub_zero] at h1
      have h2 := unit_le h
      have h3 := abs_pos.mpr h.ne_zero
      have h5 : |bval r| / 2 ^ 254 ≤ |bval r| / 5 :=
        div_le_div_of_nonneg_left (abs_nonneg _) (by norm_num) (by norm_num)
      linarith
  · obtain ⟨h1, -, h2⟩ := h.rel hw
    refine ⟨Or.inr h1, ?_⟩
    have h4 := abs_sub_abs_le_abs_sub (bval r) w
    have h5 : |w| / 2 ^ 253 ≤ |w| / 1 := div_le_div_of_nonneg_left (abs_nonneg _) (by norm_num) (by norm_num)
    linarith

/-- The fused operation if the product is small -/
theorem fused_small {z c u : BigFloat} (hz : Norm z) (hc : Norm c) (hu : Norm' u) (hP : |bval z * bval c| ≤ |bval u| / 5)
    (he : z.exp + c.exp - u.exp < 511) : ∃ v, mulAdd z c u = some v ∧ Norm' v ∧
      |bval v - (bval z * bval c + bval u)| ≤ 2 * (|bval u| / 2 ^ 253) := by
  have hU := abs_pos.mpr hu.ne_zero
  by_cases hl : -255 ≤ z.exp + c.exp - u.exp
  · obtain ⟨v, hv, hr⟩ := mulAdd_spec hz hc hu hl he
    have hw : |bval u| * (4 / 5) ≤ |bval z * bval c + bval u| := by
      have := abs_sub_abs_le_abs_sub (bval u) (-(bval z * bval c))
      rw [abs_neg, sub_neg_eq_add, add_comm (bval u)] at this
      linarith
    have hw2 : |bval z * bval c + bval u| ≤ 2 * |bval u| := by
      have := abs_add_le (bval z * bval c) (bval u)
      linarith
    obtain ⟨h1, -, h2⟩ := hr.rel (abs_pos.mp (lt_of_lt_of_le (by positivity) hw))
    refine ⟨v, hv, h1, h2.trans ?_⟩
    rw [← mul_div_assoc]
    exact div_le_div_of_nonneg_right hw2 (by positivity)
  · refine ⟨u, ?_, hu, ?_⟩
    · unfold mulAdd
      dsimp only
      rw [isZero_false hz.1, isZero_false hc.1, isZero_false hu.1, if_neg (by decide), if_neg (by decide),
        if_pos (by omega)]
    · rw [show bval u - (bval z * bval c + bval u) = -(bval z * bval c) by ring, abs_neg, abs_mul]
      have h1 := hz.upper
      have h2 := hc.upper
      have h3 : |bval z| * |bval c| ≤ (2 : ℝ) ^ (z.exp + 1) * (2 : ℝ) ^ (c.exp + 1) :=
        mul_le_mul h1.le h2.le (abs_nonneg _) (two_zpow _).le
      rw [← zpow_add₀ (by norm_num)] at h3
      have h4 : (2 : ℝ) ^ (z.exp + 1 + (c.exp + 1)) ≤ (2 : ℝ) ^ (u.exp - 254) := pow_mono2 (by omega)
      have h5 := unit_le hu
      have h6 : |bval u| / 2 ^ 254 ≤ |bval u| / 2 ^ 253 :=
        div_le_div_of_nonneg_left (abs_nonneg _) (by positivity) (by norm_num)
      have h7 : 0 ≤ |bval u| / 2 ^ 253 := by positivity
      linarith

theorem div_bound {a b U : ℝ} {k : ℝ} (h : a + b ≤ k * U) : (a + b) / 2 ^ 253 ≤ k * (U / 2 ^ 253) := by
  rw [← mul_div_assoc]
  exact div_le_div_of_nonneg_right h (by positivity)

theorem prod_nonneg {a b u : ℝ} (ha : |a - u| ≤ |u|) (hb : |b - u| ≤ |u|) : 0 ≤ a * b := by
  rcases le_total 0 u with h | h
  · rw [abs_of_nonneg h, abs_le] at ha hb
    exact mul_nonneg (by linarith [ha.1]) (by linarith [hb.1])
  · rw [abs_of_nonpos h, abs_le] at ha hb
    exact mul_nonneg_of_nonpos_of_nonpos (by linarith [ha.2]) (by linarith [hb.2])

/-- The values computed by the tail -/
theorem fmaTail_spec {z c u : BigFloat} (hz : Norm z) (hc : Norm c) (hu : Norm' u)
    (hP : |bval z * bval c| ≤ |bval u| / 5) (he : z.exp + c.exp - u.exp < 511) (hm1 : Norm (mul z c))
    (hm2 : |bval (mul z c) - bval z * bval c| ≤ |bval z * bval c| / 2 ^ 253)
    (hm3 : (mul z c).exp = z.exp + c.exp ∨ (mul z c).exp = z.exp + c.exp + 1) :
    ∃ v1 v2, Trig.fmaTail z c u = some (v1, v2) ∧ Norm' v1 ∧ (v2 = ZERO ∨ Norm' v2) ∧
      |bval v1 - (bval u - bval z * bval c)| ≤ 2 * (|bval u| / 2 ^ 253) ∧ |bval v2| ≤ 30 * (|bval u| / 2 ^ 253) := by
  have hU := abs_pos.mpr hu.ne_zero
  obtain ⟨v1, hv1, hn1, hd1⟩ := fused_small (z := neg z) hz.neg hc hu (by
    rw [bval_neg, neg_mul, abs_neg]; exact hP) he
  rw [bval_neg, neg_mul, neg_add_eq_sub] at hd1
  obtain ⟨p2, hp2_eq, hr2⟩ := mulAdd_spec (a := neg (mul z c)) hz hc hm1.weaken.neg (by
    show -255 ≤ z.exp + c.exp - (mul z c).exp
    omega) (by
    show z.exp + c.exp - (mul z c).exp < 511
    omega)
  obtain ⟨hp2s, hp2b⟩ := hr2.crude
  rw [bval_neg, ← sub_eq_add_neg, abs_sub_comm] at hp2b
  have hq0 : bval (mul z c) ≠ 0 := hm1.weaken.ne_zero
  have hnq : Nice (|bval u| / 2) (mul z c) := Or.inr (Or.inl hm1)
  generalize hpp : mul z c = p1 at *
  generalize hPP : bval z * bval c = P at *
  obtain ⟨L, hL⟩ : ∃ L, |bval u| / 2 = L := ⟨_, rfl⟩
  obtain ⟨D, hD⟩ : ∃ D, |bval u| / 2 ^ 253 = D := ⟨_, rfl⟩
  have hD0 : 0 < D := by rw [← hD]; positivity
  have hD1 : D ≤ |bval u| / 1000 := by
    rw [← hD]
    exact div_le_div_of_nonneg_left (abs_nonneg _) (by norm_num) (by norm_num)
  rw [hL] at hnq
  have hnu : Nice L u := Or.inr (Or.inr ⟨hu, by rw [← hL]; linarith⟩)
  have hqP : |bval p1 - P| ≤ D := by
    refine hm2.trans ?_
    rw [← hD]
    exact div_le_div_of_nonneg_right (by linarith) (by positivity)
  have hq : |bval p1| ≤ |bval u| / 4 := by
    have := abs_sub_abs_le_abs_sub (bval p1) P
    linarith
  have hqL : |bval p1| < L := by rw [← hL]; linarith
  -- the sum
  obtain ⟨s, es, ns, -, bs⟩ := add_nice (y := neg p1) hnu hnq.neg (by
    rw [bval_neg, abs_neg]; exact Or.inr (Or.inr hqL))
  have bs := bs hu.ne_zero (by rw [bval_neg]; exact neg_ne_zero.mpr hq0)
  rw [bval_neg, abs_neg, ← sub_eq_add_neg] at bs
  have bs := bs.trans (div_bound (k := 2) (U := |bval u|) (by linarith))
  rw [hD] at bs
  have hsu : |bval s - bval u| ≤ |bval u| * (3 / 10) := by
    have := abs_add_le (bval s - (bval u - bval p1)) (-bval p1)
    rw [abs_neg, show bval s - (bval u - bval p1) + -bval p1 = bval s - bval u by ring] at this
    linarith
  have hsU : |bval s| ≤ |bval u| * (13 / 10) := by
    have := abs_sub_abs_le_abs_sub (bval s) (bval u)
    linarith
  have hs0 : bval s ≠ 0 := by
    intro h
    rw [h, zero_sub, abs_neg] at hsu
    linarith
  obtain ⟨d, ed, nd, -, bd⟩ := sub_nice (y := neg p1) ns hnq.neg (by
    rw [bval_neg, abs_neg]; exact Or.inr (Or.inr hqL))
  have bd := bd hs0 (by rw [bval_neg]; exact neg_ne_zero.mpr hq0)
  rw [bval_neg, abs_neg, sub_neg_eq_add] at bd
  have bd := bd.trans (div_bound (k := 2) (U := |bval u|) (by linarith))
  rw [hD] at bd
  have hdu : |bval d - bval u| ≤ 4 * D := by
    have := abs_add_le (bval d - (bval s + bval p1)) (bval s - (bval u - bval p1))
    rw [show bval d - (bval s + bval p1) + (bval s - (bval u - bval p1)) = bval d - bval u by ring] at this
    linarith
  have hdU : |bval d| ≤ |bval u| * (11 / 10) := by
    have := abs_sub_abs_le_abs_sub (bval d) (bval u)
    linarith
  have hd0 : bval d ≠ 0 := by
    intro h
    rw [h, zero_sub, abs_neg] at hdu
    linarith
  obtain ⟨t1, et1, nt1, -, bt1⟩ := sub_nice hnu nd (Or.inl (prod_nonneg (u := bval u) (by
    rw [sub_self, abs_zero]; exact hU.le) (by linarith)))
  have bt1 := (bt1 hu.ne_zero hd0).trans (div_bound (k := 3) (U := |bval u|) (by linarith))
  rw [hD] at bt1
  have ht1 : |bval t1| ≤ 7 * D := by
    have := abs_add_le (bval t1 - (bval u - bval d)) (bval u - bval d)
    rw [sub_add_cancel, abs_sub_comm (bval u)] at this
    linarith
  obtain ⟨sd, esd, nsd, -, bsd⟩ := sub_nice ns nd (Or.inl (prod_nonneg (u := bval u) (by linarith) (by linarith)))
  have bsd := (bsd hs0 hd0).trans (div_bound (k := 3) (U := |bval u|) (by linarith))
  rw [hD] at bsd
  have hsd : |-bval p1 - bval sd| ≤ 5 * D := by
    have := abs_add_le (bval d - (bval s + bval p1)) (-(bval sd - (bval s - bval d)))
    rw [abs_neg, show bval d - (bval s + bval p1) + -(bval sd - (bval s - bval d)) = -bval p1 - bval sd by ring] at this
    linarith
  have hsdU : |bval sd| ≤ |bval u| / 2 := by
    have := abs_sub_abs_le_abs_sub (bval sd) (-bval p1)
    rw [abs_neg, abs_sub_comm] at this
    linarith
  obtain ⟨t2, et2, nt2, bt2, -⟩ := sub_nice (x := neg p1) hnq.neg nsd (by
    rw [bval_neg, abs_neg]; exact Or.inr (Or.inl hqL))
  rw [bval_neg, abs_neg] at bt2
  have bt2' := div_bound (a := |bval p1|) (b := |bval sd|) (k := 1) (U := |bval u|) (by linarith)
  rw [hD] at bt2'
  have ht2 : |bval t2| ≤ 6 * D := by linarith
  obtain ⟨r, er, nr, br, -⟩ := add_nice nt1 nt2 (Or.inr (Or.inl (by rw [← hL]; linarith)))
  have br' := div_bound (a := |bval t1|) (b := |bval t2|) (k := 1) (U := |bval u|) (by linarith)
  rw [hD] at br'
  have hr : |bval r| ≤ 14 * D := by
    have := abs_add_le (bval t1) (bval t2)
    linarith
  -- the correction
  have hv1u : |bval v1 - bval u| ≤ |bval u| * (3 / 10) := by
    have := abs_add_le (bval v1 - (bval u - P)) (-P)
    rw [abs_neg, show bval v1 - (bval u - P) + -P = bval v1 - bval u by ring] at this
    linarith
  have hv1U : |bval v1| ≤ |bval u| * (13 / 10) := by
    have := abs_sub_abs_le_abs_sub (bval v1) (bval u)
    linarith
  have nv1 : Nice L v1 := Or.inr (Or.inr ⟨hn1, by
    have := abs_sub_abs_le_abs_sub (bval u) (bval v1)
    rw [abs_sub_comm] at this
    rw [← hL]; linarith⟩)
  obtain ⟨d', ed', nd', bd', -⟩ := sub_nice ns nv1 (Or.inl (prod_nonneg (u := bval u) (by linarith) (by linarith)))
  have bd'' := div_bound (a := |bval s|) (b := |bval v1|) (k := 3) (U := |bval u|) (by linarith)
  rw [hD] at bd''
  have hd' : |bval d'| ≤ 9 * D := by
    have h1 := abs_add_le (bval s - (bval u - bval p1)) (-(bval v1 - (bval u - P)))
    have h2 := abs_add_le (bval s - (bval u - bval p1) + -(bval v1 - (bval u - P))) (-(bval p1 - P))
    rw [abs_neg] at h1 h2
    rw [show bval s - (bval u - bval p1) + -(bval v1 - (bval u - P)) + -(bval p1 - P) = bval s - bval v1 by ring] at h2
    linarith
  obtain ⟨s', es', ns', bs', -⟩ := add_nice nd' nr (Or.inr (Or.inl (by rw [← hL]; linarith)))
  have bs'' := div_bound (a := |bval d'|) (b := |bval r|) (k := 1) (U := |bval u|) (by linarith)
  rw [hD] at bs''
  have hs' : |bval s'| ≤ 24 * D := by
    have := abs_add_le (bval d') (bval r)
    linarith
  have hp2 : |bval p2| ≤ 2 * D := by linarith
  have last : ∃ v2, sub s' p2 = some v2 ∧ (v2 = ZERO ∨ Norm' v2) ∧ |bval v2| ≤ 30 * D := by
    unfold sub
    by_cases h : s' = p2
    · rw [if_pos h]
      exact ⟨ZERO, rfl, Or.inl rfl, by rw [bval_zero, abs_zero]; linarith⟩
    · rw [if_neg h]
      have np2 : neg p2 = ZERO ∨ Norm' (neg p2) := by
        rcases hp2s with h | h
        · left; rw [h, neg_zero']
        · right; exact h.neg
      obtain ⟨v2, ev2, sv2, bv2, -⟩ := add_core (y := neg p2) ns'.weak np2 (by
        rintro ⟨h1, -, -⟩
        exact ns'.strict (by rw [← hL]; linarith) h1)
      rw [bval_neg, abs_neg, ← sub_eq_add_neg] at bv2
      have bv2' := div_bound (a := |bval s'|) (b := |bval p2|) (k := 1) (U := |bval u|) (by linarith)
      rw [hD] at bv2'
      refine ⟨v2, ev2, ?_, ?_⟩
      · rcases sv2 with h | h | rfl | rfl
        · exact Or.inl h
        · exact Or.inr h.weaken
        · exact ns'.weak
        · exact np2
      · have := abs_sub (bval s') (bval p2)
        linarith
  obtain ⟨v2, ev2, sv2, bv2⟩ := last
  refine ⟨v1, v2, ?_, hn1, sv2, ?_, ?_⟩
  · unfold Trig.fmaTail mulExact sumExact
    dsimp only
    rw [hpp, hv1, hp2_eq]
    simp only [Option.bind_eq_bind, Option.bind_some, Option.pure_def, es, ed, et1, esd, et2, er, ed', es', ev2]
  · exact hd1
  · rw [hD]; exact bv2

end Verif.BigFloat
