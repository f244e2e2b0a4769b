import Verif.Proofs.ErrorFree
import Verif.Proofs.ToStrExact
import Verif.Props.Fma
import Verif.Props.Laws

/-!
# C69, C70: the rounding errors of a sum and of a product can be recovered exactly
-/

namespace Verif.Props

open Verif Spec

theorem can_of_fin {N : ℕ} (h : IsFin N) : ∃ t M, Can (smag N) t M := by
  obtain ⟨t, M, h1, h2, -, h3, h4, -⟩ := fin_asm h
  refine ⟨t, M, ?_, h2, h3, h1⟩
  have : |smag N| = (mag N : ℤ) := by
    unfold smag
    split
    · exact abs_of_nonneg (by positivity)
    · rw [abs_neg]; exact abs_of_nonneg (by positivity)
  rw [this, h4]
  push_cast
  rfl

/-- Representable numbers are values of patterns. -/
theorem pat_of_rep {Z : ℤ} (h : Rep Z) : ∃ M, M < 2 ^ 256 ∧ IsFin M ∧ val M = (Z : ℝ) / 2 ^ 262378 := by
  obtain ⟨k, t, h1, h2, h3⟩ := h
  have hk : ((k * 2 ^ t : ℕ) : ℤ) = |Z| := by rw [h3]; push_cast; rfl
  have hkr : ((k * 2 ^ t : ℕ) : ℝ) = ((|Z| : ℤ) : ℝ) := by rw [← hk, Int.cast_natCast]
  rcases le_or_gt 0 Z with hz | hz
  · obtain ⟨M, m1, m2, -, m4⟩ := exists_val h1 h2 0 (by norm_num)
    refine ⟨M, m1, m2, ?_⟩
    rw [m4, pow_zero, one_mul, hkr, abs_of_nonneg hz]
  · obtain ⟨M, m1, m2, -, m4⟩ := exists_val h1 h2 1 (by norm_num)
    refine ⟨M, m1, m2, ?_⟩
    rw [m4, pow_one, hkr, abs_of_neg hz]
    push_cast
    ring

/-- A finite rounding of an integer (in units of `2^-262378`) -/
theorem near_of_rne {Z : ℤ} {N : ℕ} (h : IsRNE ((Z : ℝ) / 2 ^ 262378) N) (hf : IsFin N) :
    (∀ W, Rep W → |smag N - Z| ≤ |W - Z|) ∧ |Z| < 2 ^ 237 * 2 ^ 524285 := by
  have hK : (0 : ℝ) < 2 ^ 262378 := by positivity
  have hlt : |(Z : ℝ) / 2 ^ 262378| < overflowThreshold := by
    by_contra hc
    exact hf (h.inf (not_lt.mp hc)).1
  refine ⟨fun W hW => ?_, ?_⟩
  · obtain ⟨M, m1, m2, m3⟩ := pat_of_rep hW
    have := h.nearest hlt M m1 m2
    rw [val_smag, m3, ← sub_div, ← sub_div, abs_div, abs_div, div_le_div_iff_of_pos_right (by rw [abs_of_pos hK]; exact hK)] at this
    exact_mod_cast this
  · have h1 : |(Z : ℝ)| < overflowThreshold * 2 ^ 262378 := by
      rwa [abs_div, abs_of_pos hK, div_lt_iff₀ hK] at hlt
    rw [threshold_eq] at h1
    have h2 : ((|Z| : ℤ) : ℝ) < 2 ^ 237 * 2 ^ 524285 := by
      rw [Int.cast_abs]
      refine lt_of_lt_of_le h1 (mul_le_mul_of_nonneg_right (by linarith) (by positivity))
    exact_mod_cast h2

theorem rep_exact {Z : ℤ} {N : ℕ} (h : IsRNE ((Z : ℝ) / 2 ^ 262378) N) (hZ : Rep Z) : IsFin N ∧ smag N = Z := by
  obtain ⟨M, m1, m2, m3⟩ := pat_of_rep hZ
  obtain ⟨f, e⟩ := IsRNE.exact h m1 m2 m3
  refine ⟨f, ?_⟩
  rw [val_smag, div_left_inj' (by positivity)] at e
  exact_mod_cast e

theorem add_smag (x y : F256) (hx : IsFin x.pat) (hy : IsFin y.pat) :
    ∃ z, F256.add x y = some z ∧ IsRNE (((smag x.pat + smag y.pat : ℤ) : ℝ) / 2 ^ 262378) z.pat := by
  obtain ⟨z, h1, h2⟩ := C01_add x y hx hy
  refine ⟨z, h1, ?_⟩
  rwa [val_smag, val_smag, ← add_div, ← Int.cast_add] at h2

theorem sub_smag (x y : F256) (hx : IsFin x.pat) (hy : IsFin y.pat) :
    ∃ z, F256.sub x y = some z ∧ IsRNE (((smag x.pat - smag y.pat : ℤ) : ℝ) / 2 ^ 262378) z.pat := by
  obtain ⟨z, h1, h2⟩ := C02_sub x y hx hy
  refine ⟨z, h1, ?_⟩
  rwa [val_smag, val_smag, ← sub_div, ← Int.cast_sub] at h2

theorem smag_le {N M : ℕ} (h : |val N| ≤ |val M|) : |smag N| ≤ |smag M| := by
  rw [val_smag, val_smag, abs_div, abs_div, div_le_div_iff_of_pos_right (by rw [abs_of_pos] <;> positivity)] at h
  exact_mod_cast h

theorem val_of_smag {N M L K : ℕ} (h : smag N = smag M + smag L - smag K) : val K + val N = val M + val L := by
  simp only [val_smag]
  rw [← add_div, ← add_div, h]
  congr 1
  push_cast
  ring

/-- C69: with `|b| ≤ |a|`, three operations give the sum and its rounding error, exactly (Dekker). -/
theorem C69_fast_two_sum (a b : F256) (ha : IsFin a.pat) (hb : IsFin b.pat) (h : |val b.pat| ≤ |val a.pat|) :
    ∃ s, F256.add a b = some s ∧ (IsFin s.pat → ∃ z t, F256.sub s a = some z ∧ F256.sub b z = some t ∧
      IsFin t.pat ∧ val s.pat + val t.pat = val a.pat + val b.pat) := by
  obtain ⟨s, hs, rs⟩ := add_smag a b ha hb
  refine ⟨s, hs, fun fs => ?_⟩
  obtain ⟨ns, ls⟩ := near_of_rne rs fs
  obtain ⟨_, _, ca⟩ := can_of_fin ha
  obtain ⟨_, _, cb⟩ := can_of_fin hb
  obtain ⟨_, _, cs⟩ := can_of_fin fs
  obtain ⟨r1, r2⟩ := fast_two_sum ca cb cs ns ls (smag_le h)
  obtain ⟨z, hz, rz⟩ := sub_smag s a fs ha
  obtain ⟨fz, ez⟩ := rep_exact rz r1
  obtain ⟨t, ht, rt⟩ := sub_smag b z hb fz
  rw [ez, show smag b.pat - (smag s.pat - smag a.pat) = smag a.pat + smag b.pat - smag s.pat by ring] at rt
  obtain ⟨ft, et⟩ := rep_exact rt r2
  exact ⟨z, t, hz, ht, ft, val_of_smag et⟩

/-- C69: in any order of magnitude, six operations give the sum and its rounding error, exactly (Møller, Knuth), unless the
sum or the difference `(a + b) - a` overflows. -/
theorem C69_two_sum (a b : F256) (ha : IsFin a.pat) (hb : IsFin b.pat) :
    ∃ s v, F256.add a b = some s ∧ F256.sub s a = some v ∧ (IsFin s.pat → IsFin v.pat →
      ∃ u da db t, F256.sub s v = some u ∧ F256.sub a u = some da ∧ F256.sub b v = some db ∧ F256.add da db = some t ∧
        IsFin t.pat ∧ val s.pat + val t.pat = val a.pat + val b.pat) := by
  obtain ⟨s, hs, rs⟩ := add_smag a b ha hb
  obtain ⟨v, hv⟩ : ∃ v, F256.sub s a = some v := Option.isSome_iff_exists.mp (C01_total s a).2
  refine ⟨s, v, hs, hv, fun fs fv => ?_⟩
  obtain ⟨v', hv', rv⟩ := sub_smag s a fs ha
  obtain rfl : v' = v := by rw [hv'] at hv; exact Option.some.inj hv
  obtain ⟨ns, ls⟩ := near_of_rne rs fs
  obtain ⟨nv, lv⟩ := near_of_rne rv fv
  obtain ⟨_, _, ca⟩ := can_of_fin ha
  obtain ⟨_, _, cb⟩ := can_of_fin hb
  obtain ⟨_, _, cs⟩ := can_of_fin fs
  obtain ⟨_, _, cv⟩ := can_of_fin fv
  have key : Rep (smag s.pat - smag v'.pat) ∧ Rep (smag a.pat - (smag s.pat - smag v'.pat)) ∧ Rep (smag b.pat - smag v'.pat) ∧
      Rep (smag a.pat + smag b.pat - smag s.pat) := by
    rcases le_total |smag a.pat| |smag b.pat| with h | h
    · exact two_sum ca cb cs cv ns ls nv lv h
    · obtain ⟨r1, r2⟩ := fast_two_sum ca cb cs ns ls h
      obtain ⟨-, ev⟩ := rep_exact rv r1
      rw [ev]
      refine ⟨?_, ?_, ?_, r2⟩
      · rw [sub_sub_cancel]; exact ca.rep
      · rw [sub_sub_cancel, sub_self]; exact rep_zero
      · rwa [show smag b.pat - (smag s.pat - smag a.pat) = smag a.pat + smag b.pat - smag s.pat by ring]
  obtain ⟨k1, k2, k3, k4⟩ := key
  obtain ⟨u, hu, ru⟩ := sub_smag s v' fs fv
  obtain ⟨fu, eu⟩ := rep_exact ru k1
  obtain ⟨da, hda, rda⟩ := sub_smag a u ha fu
  rw [eu] at rda
  obtain ⟨fda, eda⟩ := rep_exact rda k2
  obtain ⟨db, hdb, rdb⟩ := sub_smag b v' hb fv
  obtain ⟨fdb, edb⟩ := rep_exact rdb k3
  obtain ⟨t, ht, rt⟩ := add_smag da db fda fdb
  rw [eda, edb, show smag a.pat - (smag s.pat - smag v'.pat) + (smag b.pat - smag v'.pat) = smag a.pat + smag b.pat - smag s.pat by ring] at rt
  obtain ⟨ft, et⟩ := rep_exact rt k4
  exact ⟨u, da, db, t, hu, hda, hdb, ht, ft, val_of_smag et⟩

/-- `2^-300` -/
def tiny300 : F256 := ⟨U256.new 0x3fed3000000000000000000000000000#128 0#128⟩

/-- The sum of 1 and `2^-300` is rounded to 1; the error `2^-300` is recovered, in both orders. -/
example : IsFin F256.ONE.pat ∧ IsFin tiny300.pat ∧ |val tiny300.pat| ≤ |val F256.ONE.pat| ∧ F256.add F256.ONE tiny300 = some F256.ONE ∧
    F256.sub F256.ONE F256.ONE = some F256.ZERO ∧ F256.sub tiny300 F256.ZERO = some tiny300 ∧
    F256.add tiny300 F256.ONE = some F256.ONE ∧ F256.sub F256.ONE tiny300 = some F256.ONE ∧ F256.sub tiny300 F256.ZERO = some tiny300 := by
  refine ⟨by decide, by decide, ?_, by decide, by decide, by decide, by decide, by decide, by decide⟩
  rw [val_ONE, abs_one, abs_val', show significandOf tiny300.pat = 2 ^ 236 by decide,
    show quantumExp tiny300.pat = -((536 : ℕ) : ℤ) by decide, zpow_neg, zpow_natCast, ← div_eq_mul_inv, div_le_one (by positivity), Nat.cast_pow, Nat.cast_ofNat]
  exact pow_le_pow_right₀ (by norm_num) (by norm_num)

/-! ## C70: products -/

/-- The product of two integers with 237 bits, rounded to `P`: the error is representable, and it is zero or at least `2^t`. -/
theorem product_error {Z P : ℤ} {m t tp Mp : ℕ} (hZ : |Z| = m * 2 ^ t) (h0 : 2 ^ 472 ≤ m) (h1 : m < 2 ^ 474) (hP : Can P tp Mp)
    (hN : ∀ W, Rep W → |P - Z| ≤ |W - Z|) (hX : |Z| < 2 ^ 237 * 2 ^ 524285) :
    Rep (Z - P) ∧ (Z - P ≠ 0 → 2 ^ t ≤ |Z - P|) := by
  by_cases heq : P = Z
  · rw [heq, sub_self]; exact ⟨rep_zero, fun h => absurd rfl h⟩
  have hp : (0 : ℤ) < 2 ^ t := by positivity
  have dZ : (2 : ℤ) ^ t ∣ Z := by rw [← dvd_abs, hZ]; exact dvd_mul_left _ _
  -- the product cut to 237 bits
  obtain ⟨s, s1, s2, s3⟩ : ∃ s, s ≤ 237 ∧ 2 ^ (236 + s) ≤ m ∧ m < 2 ^ (237 + s) := by
    rcases Nat.lt_or_ge m (2 ^ 473) with h | h
    · refine ⟨236, by norm_num, ?_, ?_⟩ <;> simp only [Nat.reduceAdd] <;> assumption
    · refine ⟨237, le_rfl, ?_, ?_⟩ <;> simp only [Nat.reduceAdd] <;> assumption
  have hst : s + t ≤ 524285 := by
    have h2 : (2 : ℤ) ^ (236 + s + t) < 2 ^ (237 + 524285) := by
      rw [pow_add, pow_add 2 237 524285]
      refine lt_of_le_of_lt ?_ hX
      rw [hZ]
      exact mul_le_mul_of_nonneg_right (by exact_mod_cast s2) hp.le
    have := (pow_lt_pow_iff_right₀ (by norm_num : (1 : ℤ) < 2)).mp h2
    omega
  obtain ⟨k, hk⟩ : ∃ k, k = m / 2 ^ s := ⟨_, rfl⟩
  have hk2 : k < 2 ^ 237 := by
    rw [hk, Nat.div_lt_iff_lt_mul (by positivity), ← pow_add]
    exact s3
  have hdm := Nat.div_add_mod m (2 ^ s)
  have hml := Nat.mod_lt m (Nat.two_pow_pos s)
  have cut : ∃ W, Rep W ∧ |W - Z| = ((m % 2 ^ s : ℕ) : ℤ) * 2 ^ t := by
    have hz2 : |Z| = ((k * 2 ^ (s + t) : ℕ) : ℤ) + ((m % 2 ^ s : ℕ) : ℤ) * 2 ^ t := by
      have : ((m : ℕ) : ℤ) = 2 ^ s * (k : ℤ) + ((m % 2 ^ s : ℕ) : ℤ) := by rw [hk]; exact_mod_cast hdm.symm
      rw [hZ, this]
      push_cast
      ring
    have hn : (0 : ℤ) ≤ ((m % 2 ^ s : ℕ) : ℤ) * 2 ^ t := mul_nonneg (Int.natCast_nonneg _) hp.le
    have hn2 : (0 : ℤ) ≤ ((k * 2 ^ (s + t) : ℕ) : ℤ) := Int.natCast_nonneg _
    rcases le_or_gt 0 Z with hz | hz
    · refine ⟨((k * 2 ^ (s + t) : ℕ) : ℤ), ⟨k, s + t, hk2, hst, by rw [abs_of_nonneg hn2]; push_cast; rfl⟩, ?_⟩
      rw [abs_of_nonneg hz] at hz2
      rw [abs_of_nonpos (by linarith)]
      linarith
    · refine ⟨-((k * 2 ^ (s + t) : ℕ) : ℤ), ⟨k, s + t, hk2, hst, by rw [abs_neg, abs_of_nonneg hn2]; push_cast; rfl⟩, ?_⟩
      rw [abs_of_neg hz] at hz2
      rw [abs_of_nonneg (by linarith)]
      linarith
  obtain ⟨W, w1, w2⟩ := cut
  have hE := hN W w1
  rw [w2] at hE
  obtain ⟨-, ht, htp, -, -⟩ := inexact_quantum (by omega) dZ hP hN hX heq
  have dE : (2 : ℤ) ^ t ∣ Z - P := dvd_sub dZ (hP.dvd (by omega))
  have hlt : |Z - P| < 2 ^ 237 * 2 ^ t := by
    rw [abs_sub_comm]
    refine lt_of_le_of_lt hE (mul_lt_mul_of_pos_right ?_ hp)
    have : m % 2 ^ s < 2 ^ 237 := lt_of_lt_of_le hml (Nat.pow_le_pow_right (by norm_num) s1)
    exact_mod_cast this
  refine ⟨rep_of (by omega) dE hlt.le (lt_of_lt_of_le hlt ?_), fun h => ?_⟩
  · have := two_pow_bound ht
    have h3 : (0 : ℤ) < 2 ^ 237 * 2 ^ t := by positivity
    refine le_trans ?_ this
    linarith
  · exact Int.le_of_dvd (abs_pos.mpr h) ((dvd_abs _ _).mpr dE)

/-- C70: the fused multiply-add recovers the rounding error of a product exactly, if the product does not overflow and is at
least `2^-261668` (so that its last bits do not underflow). -/
theorem C70_two_product (x y : F256) (hx : IsNormal x.pat) (hy : IsNormal y.pat)
    (hv : (2 : ℝ) ^ (-261668 : ℤ) ≤ |val x.pat * val y.pat|) (hp : IsFin (F256.mul x y).pat) :
    ∃ e, F256.mulAdd x y (F256.mul x y).negated = some e ∧ IsFin e.pat ∧
      val (F256.mul x y).pat + val e.pat = val x.pat * val y.pat := by
  have hK : (0 : ℝ) < 2 ^ 262378 := by positivity
  have fx : IsFin x.pat := hx.2
  have fy : IsFin y.pat := hy.2
  obtain ⟨rp, -⟩ := C04_mul_partial x y fx fy (Or.inl (le_trans (zpow_le_zpow_right₀ (by norm_num) (by norm_num)) hv))
  generalize F256.mul x y = p at *
  -- the product as an integer
  have mx := signif_normal hx
  have my := signif_normal hy
  have hb : ∀ N, significandOf N < 2 ^ 237 := fun N => by
    have : fracField N < 2 ^ 236 := by unfold fracField; exact Nat.mod_lt _ (by norm_num)
    unfold significandOf
    split <;> omega
  obtain ⟨m, hm⟩ : ∃ m, m = significandOf x.pat * significandOf y.pat := ⟨_, rfl⟩
  have hm0 : 2 ^ 472 ≤ m := by rw [hm, show 472 = 236 + 236 from rfl, pow_add]; exact Nat.mul_le_mul mx my
  have hm1 : m < 2 ^ 474 := by
    rw [hm, show 474 = 237 + 237 from rfl, pow_add]
    exact Nat.mul_lt_mul'' (hb x.pat) (hb y.pat)
  have hab : |val x.pat * val y.pat| = (m : ℝ) * 2 ^ (quantumExp x.pat + quantumExp y.pat) := by
    rw [abs_mul, abs_val', abs_val', hm, zpow_add₀ (by norm_num), Nat.cast_mul]
    ring
  have hq : -262142 ≤ quantumExp x.pat + quantumExp y.pat := by
    rw [hab] at hv
    have h2 : (2 : ℝ) ^ (-261668 : ℤ) < 2 ^ (474 : ℤ) * 2 ^ (quantumExp x.pat + quantumExp y.pat) := by
      refine lt_of_le_of_lt hv (mul_lt_mul_of_pos_right ?_ (by positivity))
      rw [show (474 : ℤ) = ((474 : ℕ) : ℤ) by norm_num, zpow_natCast]
      exact_mod_cast hm1
    rw [← zpow_add₀ (by norm_num)] at h2
    have := (zpow_lt_zpow_iff_right₀ (by norm_num : (1 : ℝ) < 2)).mp h2
    omega
  obtain ⟨t, ht⟩ : ∃ t : ℕ, quantumExp x.pat + quantumExp y.pat = (t : ℤ) - ((262378 : ℕ) : ℤ) :=
    ⟨(quantumExp x.pat + quantumExp y.pat + 262378).toNat, by omega⟩
  have ht236 : 236 ≤ t := by omega
  rw [ht, zpow_sub₀ (by norm_num), zpow_natCast, zpow_natCast] at hab
  obtain ⟨Z, hZ1, hZ2⟩ : ∃ Z : ℤ, |Z| = m * 2 ^ t ∧ val x.pat * val y.pat = (Z : ℝ) / 2 ^ 262378 := by
    have hn : (0 : ℤ) ≤ (m : ℤ) * 2 ^ t := by positivity
    rcases le_or_gt 0 (val x.pat * val y.pat) with h | h
    · refine ⟨m * 2 ^ t, abs_of_nonneg hn, ?_⟩
      rw [abs_of_nonneg h] at hab
      rw [hab]; push_cast; ring
    · refine ⟨-(m * 2 ^ t), by rw [abs_neg]; exact abs_of_nonneg hn, ?_⟩
      rw [abs_of_neg h] at hab
      rw [← neg_neg (val x.pat * val y.pat), hab]; push_cast; ring
  rw [hZ2] at rp
  obtain ⟨np, lp⟩ := near_of_rne rp hp
  obtain ⟨_, _, cp⟩ := can_of_fin hp
  obtain ⟨r1, r2⟩ := product_error hZ1 hm0 hm1 cp np lp
  have hsum : val x.pat * val y.pat + val p.negated.pat = ((Z - smag p.pat : ℤ) : ℝ) / 2 ^ 262378 := by
    rw [C18_neg_val, hZ2, val_smag]; push_cast; ring
  have hZ0 : (Z : ℝ) / 2 ^ 262378 ≠ 0 := by
    rw [← hZ2]
    intro h
    rw [h, abs_zero] at hv
    exact absurd hv (not_le.mpr (by positivity))
  have fpn : IsFin p.negated.pat := (isFin_negated p).mpr hp
  have nz : ∀ {N}, IsNormal N → ¬IsZero N := fun h h0 => h.1 h0.1
  by_cases hE : Z - smag p.pat = 0
  · have hzero : val x.pat * val y.pat + val p.negated.pat = 0 := by rw [hsum, hE]; simp
    have hvp : val p.pat = (Z : ℝ) / 2 ^ 262378 := by
      rw [C18_neg_val, hZ2] at hzero
      linarith
    have hpn : ¬IsZero p.negated.pat := fun h => by
      have := val_zero h
      rw [C18_neg_val, hvp] at this
      exact hZ0 (by linarith)
    refine ⟨_, C09_cancel x y p.negated ⟨fx, nz hx⟩ ⟨fy, nz hy⟩ ⟨fpn, hpn⟩ hzero, by decide, ?_⟩
    rw [show val F256.ZERO.pat = 0 from val_zero (by decide), hvp, hZ2, add_zero]
  · have hbig := r2 hE
    obtain ⟨e, he, re⟩ := C09_mul_add_partial x y p.negated fx fy fpn (Or.inr (Or.inr (Or.inr (Or.inl ⟨hx, hy⟩)))) (by
      rw [hsum, abs_div, abs_of_pos hK, le_div_iff₀ hK]
      have e1 : (2 : ℝ) ^ (-262142 : ℤ) * 2 ^ 262378 = 2 ^ 236 := by
        rw [← zpow_natCast, ← zpow_add₀ (by norm_num)]
        norm_num
      rw [e1, ← Int.cast_abs]
      have h3 : (2 : ℤ) ^ 236 ≤ |Z - smag p.pat| := le_trans (pow_le_pow_right₀ (by norm_num) ht236) hbig
      exact_mod_cast h3)
    rw [hsum] at re
    obtain ⟨fe, ee⟩ := rep_exact re r1
    refine ⟨e, he, fe, ?_⟩
    rw [hZ2, val_smag, val_smag e.pat, ee, ← add_div, ← Int.cast_add, add_sub_cancel]

/-- `1 + 2^-200` squared is `1 + 2^-199 + 2^-400`, rounded to `1 + 2^-199`; the error is recovered. -/
def onePlus200 : F256 := ⟨U256.new 0x3ffff000000000000000000000000000#128 0x00000000000000000000001000000000#128⟩

/-- `1 + 2^-199` -/
def onePlus199 : F256 := ⟨U256.new 0x3ffff000000000000000000000000000#128 0x00000000000000000000002000000000#128⟩

/-- `2^-400` -/
def tiny400 : F256 := ⟨U256.new 0x3fe6f000000000000000000000000000#128 0#128⟩

theorem onePlus200_sq : (2 : ℝ) ^ (-261668 : ℤ) ≤ |val onePlus200.pat * val onePlus200.pat| := by
  have h1 : 1 ≤ |val onePlus200.pat| := by
    rw [abs_val', show significandOf onePlus200.pat = 2 ^ 236 + 2 ^ 36 by decide +kernel,
      show quantumExp onePlus200.pat = -((236 : ℕ) : ℤ) by decide +kernel, zpow_neg, zpow_natCast, ← div_eq_mul_inv, one_le_div (by positivity)]
    norm_num
  rw [abs_mul]
  refine le_trans ?_ (one_le_mul_of_one_le_of_one_le h1 h1)
  exact zpow_le_one_of_nonpos₀ (by norm_num) (by norm_num)

example : IsNormal onePlus200.pat ∧ (2 : ℝ) ^ (-261668 : ℤ) ≤ |val onePlus200.pat * val onePlus200.pat| ∧ F256.mul onePlus200 onePlus200 = onePlus199 ∧ IsFin onePlus199.pat ∧
    F256.mulAdd onePlus200 onePlus200 onePlus199.negated = some tiny400 :=
  ⟨by decide, onePlus200_sq, by decide +kernel, by decide, by decide +kernel⟩

end Verif.Props
