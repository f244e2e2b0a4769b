import Verif.Props.Integral

/-!
# C81: rounding to integers is monotone
-/

namespace Verif.Props

open Verif Spec

theorem truncReal_mono {v w : ℝ} (h : v ≤ w) : truncReal v ≤ truncReal w := by
  unfold truncReal
  split <;> split <;> rename_i h1 h2
  · exact Int.floor_le_floor h
  · exact absurd (h1.trans h) h2
  · exact (Int.ceil_le.mpr (by rw [Int.cast_zero]; exact (not_le.mp h1).le)).trans (Int.floor_nonneg.mpr h2)
  · exact Int.ceil_le_ceil h

/-- Nearest integers can only be out of order at the midpoint between them. -/
theorem nearest_order {v w : ℝ} {k l : ℤ} (h : v ≤ w) (hk : |v - k| ≤ 1 / 2) (hl : |w - l| ≤ 1 / 2) :
    k ≤ l ∨ (w = v ∧ v = l + 1 / 2 ∧ k = l + 1) := by
  rw [abs_le] at hk hl
  rcases le_or_gt k l with hc | hc
  · exact Or.inl hc
  · have h1 : (l : ℝ) + 1 ≤ k := by exact_mod_cast hc
    have h2 : (k : ℝ) = ((l + 1 : ℤ) : ℝ) := by push_cast; linarith
    exact Or.inr ⟨by linarith, by linarith, by exact_mod_cast h2⟩

theorem nearestAway_mono {v w : ℝ} {k l : ℤ} (h : v ≤ w) (hk : NearestAway v k) (hl : NearestAway w l) : k ≤ l := by
  rcases nearest_order h hk.1 hl.1 with hc | ⟨rfl, e, rfl⟩
  · exact hc
  · have h1 := hk.2 (by rw [e]; push_cast; rw [show (l : ℝ) + 1 / 2 - (l + 1) = -(1 / 2) by ring, abs_neg, abs_of_pos (by norm_num)])
    have h2 := hl.2 (by rw [e]; rw [show (l : ℝ) + 1 / 2 - l = 1 / 2 by ring, abs_of_pos (by norm_num)])
    rw [e] at h1 h2
    rw [← sq_lt_sq] at h1 h2
    push_cast at h1 h2
    have h3 : ((-1 : ℤ) : ℝ) < l := by push_cast; nlinarith
    have h4 : (l : ℝ) < ((0 : ℤ) : ℝ) := by push_cast; nlinarith
    have h5 := Int.cast_lt.mp h3
    have h6 := Int.cast_lt.mp h4
    omega

theorem nearestEven_mono {v w : ℝ} {k l : ℤ} (h : v ≤ w) (hk : NearestEvenInt v k) (hl : NearestEvenInt w l) : k ≤ l := by
  rcases nearest_order h hk.1 hl.1 with hc | ⟨rfl, e, rfl⟩
  · exact hc
  · have h1 := hk.2 (by rw [e]; push_cast; rw [show (l : ℝ) + 1 / 2 - (l + 1) = -(1 / 2) by ring, abs_neg, abs_of_pos (by norm_num)])
    have h2 := hl.2 (by rw [e]; rw [show (l : ℝ) + 1 / 2 - l = 1 / 2 by ring, abs_of_pos (by norm_num)])
    exact absurd h1 (Int.not_even_iff_odd.mpr h2.add_one)

/-- The magnitudes which `round_tie_even` rounds to zero by mistake -/
def NearHalf (e v : ℝ) : Prop := 1 / 2 < |v| ∧ |v| < 1 / 2 + e

theorem nearHalf_left {e v w : ℝ} {l : ℤ} (h : v ≤ w) (hv : NearHalf e v) (hw : ¬NearHalf e w) (hl : NearestEvenInt w l) : 0 ≤ l := by
  by_contra hc
  have hl1 : (l : ℝ) ≤ -1 := by exact_mod_cast (by omega : l ≤ -1)
  have h1 := (abs_le.mp hl.1).2
  obtain ⟨v1, v2⟩ := hv
  have hw1 : w ≤ -(1 / 2) := by linarith
  have hwa : |w| = -w := abs_of_neg (by linarith)
  have hva : |v| = -v := abs_of_neg (by linarith)
  have hw2 : w = -(1 / 2) := by
    by_contra hne
    exact hw ⟨by rw [hwa]; have := lt_of_le_of_ne hw1 hne; linarith, by rw [hwa]; linarith⟩
  have hl2 : l = -1 := by
    have : (-1 : ℝ) ≤ l := by rw [hw2] at h1 hl; have := (abs_le.mp hl.1).2; linarith
    have h3 : ((-1 : ℤ) : ℝ) ≤ l := by push_cast; exact this
    have := Int.cast_le.mp h3
    omega
  have := hl.2 (by rw [hw2, hl2]; push_cast; rw [show -(1 / 2 : ℝ) - -1 = 1 / 2 by norm_num, abs_of_pos (by norm_num)])
  rw [hl2] at this
  exact absurd this (by decide)

theorem nearEven_neg {v : ℝ} {k : ℤ} (h : NearestEvenInt v k) : NearestEvenInt (-v) (-k) := by
  have e : |-v - ((-k : ℤ) : ℝ)| = |v - k| := by push_cast; rw [← abs_neg]; congr 1; ring
  refine ⟨by rw [e]; exact h.1, fun g => ?_⟩
  rw [e] at g
  exact (h.2 g).neg

theorem nearHalf_neg {e v : ℝ} : NearHalf e (-v) ↔ NearHalf e v := by unfold NearHalf; rw [abs_neg]

theorem nearHalf_right {e v w : ℝ} {k : ℤ} (h : v ≤ w) (hv : ¬NearHalf e v) (hw : NearHalf e w) (hk : NearestEvenInt v k) : k ≤ 0 := by
  have := nearHalf_left (neg_le_neg h) (nearHalf_neg.mpr hw) (fun g => hv (nearHalf_neg.mp g)) (nearEven_neg hk)
  omega

/-- C81: `floor`, `ceil` and `trunc` are monotone. -/
theorem C81_directed (x y : F256) (hx : IsFin x.pat) (hy : IsFin y.pat) (h : val x.pat ≤ val y.pat) :
    (∃ a b, F256.floor x = some a ∧ F256.floor y = some b ∧ IsFin a.pat ∧ IsFin b.pat ∧ val a.pat ≤ val b.pat) ∧
    (∃ a b, F256.ceil x = some a ∧ F256.ceil y = some b ∧ IsFin a.pat ∧ IsFin b.pat ∧ val a.pat ≤ val b.pat) ∧
    (∃ a b, F256.trunc x = some a ∧ F256.trunc y = some b ∧ IsFin a.pat ∧ IsFin b.pat ∧ val a.pat ≤ val b.pat) := by
  refine ⟨?_, ?_, ?_⟩
  · obtain ⟨a, a1, a2, a3⟩ := C20_floor x hx
    obtain ⟨b, b1, b2, b3⟩ := C20_floor y hy
    exact ⟨a, b, a1, b1, a2, b2, by rw [a3, b3]; exact_mod_cast Int.floor_le_floor h⟩
  · obtain ⟨a, a1, a2, a3⟩ := C20_ceil x hx
    obtain ⟨b, b1, b2, b3⟩ := C20_ceil y hy
    exact ⟨a, b, a1, b1, a2, b2, by rw [a3, b3]; exact_mod_cast Int.ceil_le_ceil h⟩
  · obtain ⟨a, a1, a2, a3⟩ := C20_trunc x hx
    obtain ⟨b, b1, b2, b3⟩ := C20_trunc y hy
    exact ⟨a, b, a1, b1, a2, b2, by rw [a3, b3]; exact_mod_cast truncReal_mono h⟩

/-- C81: `round` and `round_tie_even` are monotone, the latter also where it does not give the nearest integer. -/
theorem C81_nearest (x y : F256) (hx : IsFin x.pat) (hy : IsFin y.pat) (h : val x.pat ≤ val y.pat) :
    val (F256.round x).pat ≤ val (F256.round y).pat ∧ val (F256.roundTieEven x).pat ≤ val (F256.roundTieEven y).pat := by
  refine ⟨?_, ?_⟩
  · obtain ⟨-, k, k1, k2⟩ := C21_round x hx
    obtain ⟨-, l, l1, l2⟩ := C21_round y hy
    rw [k1, l1]
    exact_mod_cast nearestAway_mono h k2 l2
  · have hz : val F256.ZERO.pat = 0 := val_zero (by decide)
    by_cases nx : NearHalf (2 ^ (-109 : ℤ)) (val x.pat) <;> by_cases ny : NearHalf (2 ^ (-109 : ℤ)) (val y.pat)
    · rw [(C22_near_half x hx nx).1, (C22_near_half y hy ny).1]
    · obtain ⟨-, l, l1, l2⟩ := C22_roundTieEven_partial y hy ny
      rw [(C22_near_half x hx nx).1, l1, hz]
      exact_mod_cast nearHalf_left h nx ny l2
    · obtain ⟨-, k, k1, k2⟩ := C22_roundTieEven_partial x hx nx
      rw [(C22_near_half y hy ny).1, k1, hz]
      exact_mod_cast nearHalf_right h nx ny k2
    · obtain ⟨-, k, k1, k2⟩ := C22_roundTieEven_partial x hx nx
      obtain ⟨-, l, l1, l2⟩ := C22_roundTieEven_partial y hy ny
      rw [k1, l1]
      exact_mod_cast nearestEven_mono h k2 l2

/-- C81: the results are ordered: `floor ≤ trunc ≤ ceil`, and `round` lies between `floor` and `ceil`. -/
theorem C81_order (x : F256) (hx : IsFin x.pat) : ∃ a t b, F256.floor x = some a ∧ F256.trunc x = some t ∧ F256.ceil x = some b ∧
    val a.pat ≤ val t.pat ∧ val t.pat ≤ val b.pat ∧ val a.pat ≤ val (F256.round x).pat ∧ val (F256.round x).pat ≤ val b.pat := by
  obtain ⟨a, a1, -, a3⟩ := C20_floor x hx
  obtain ⟨b, b1, -, b3⟩ := C20_ceil x hx
  obtain ⟨t, t1, -, t3⟩ := C20_trunc x hx
  obtain ⟨-, k, k1, k2, -⟩ := C21_round x hx
  refine ⟨a, t, b, a1, t1, b1, ?_, ?_, ?_, ?_⟩
  · rw [a3, t3]
    have : ⌊val x.pat⌋ ≤ truncReal (val x.pat) := by
      unfold truncReal; split
      · exact le_refl _
      · exact Int.floor_le_ceil _
    exact_mod_cast this
  · rw [b3, t3]
    have : truncReal (val x.pat) ≤ ⌈val x.pat⌉ := by
      unfold truncReal; split
      · exact Int.floor_le_ceil _
      · exact le_refl _
    exact_mod_cast this
  · rw [a3, k1]
    have h1 := Int.floor_le (val x.pat)
    have h2 := (abs_le.mp k2).2
    have : ((⌊val x.pat⌋ : ℤ) : ℝ) < ((k + 1 : ℤ) : ℝ) := by push_cast; linarith
    exact_mod_cast Int.lt_add_one_iff.mp (Int.cast_lt.mp this)
  · rw [b3, k1]
    have h1 := Int.le_ceil (val x.pat)
    have h2 := (abs_le.mp k2).1
    have : (k : ℝ) < ((⌈val x.pat⌉ + 1 : ℤ) : ℝ) := by push_cast; linarith
    exact_mod_cast Int.lt_add_one_iff.mp (Int.cast_lt.mp this)

/-- 1 and 2 are in order. -/
example : IsFin F256.ONE.pat ∧ IsFin F256.TWO.pat ∧ val F256.ONE.pat ≤ val F256.TWO.pat := by
  refine ⟨by decide, by decide, ?_⟩
  rw [val, val, show signBit F256.TWO.pat = 0 by decide, show significandOf F256.TWO.pat = 2 ^ 236 by decide,
    show quantumExp F256.TWO.pat = -235 by decide, show signBit F256.ONE.pat = 0 by decide,
    show significandOf F256.ONE.pat = 2 ^ 236 by decide, show quantumExp F256.ONE.pat = -236 by decide]
  norm_num

end Verif.Props
