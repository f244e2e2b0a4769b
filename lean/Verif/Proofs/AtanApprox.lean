import Verif.Proofs.AtanTable
import Verif.Proofs.DivRem
import Verif.Proofs.Ln
import Verif.Proofs.BigFloat
import Mathlib.Analysis.SpecialFunctions.Trigonometric.ArctanDeriv

/-!
# The accuracy of `approx_atan`
-/

set_option exponentiation.threshold 2000

namespace Verif.FP492

open BigUInt LawfulBigUInt

theorem quot_round {N y q : ℕ} (hy : 0 < y) (h1 : N / y ≤ q) (h2 : q ≤ N / y + 1) : |(q : ℝ) - (N : ℝ) / y| ≤ 1 := by
  have hy' : (0 : ℝ) < y := by exact_mod_cast hy
  have e := Nat.div_add_mod N y
  have l := Nat.mod_lt N hy
  have eR : (N : ℝ) = y * (N / y : ℕ) + (N % y : ℕ) := by exact_mod_cast e.symm
  have lR : ((N % y : ℕ) : ℝ) ≤ y := by exact_mod_cast l.le
  have pR : (0 : ℝ) ≤ (N % y : ℕ) := Nat.cast_nonneg _
  have a1 : ((N / y : ℕ) : ℝ) ≤ q := by exact_mod_cast h1
  have a2 : (q : ℝ) ≤ (N / y : ℕ) + 1 := by exact_mod_cast h2
  have e2 : (N : ℝ) / y = (N / y : ℕ) + (N % y : ℕ) / y := by
    rw [eR]; field_simp
  have h3 : ((N % y : ℕ) : ℝ) / y ≤ 1 := by rw [div_le_one hy']; exact lR
  have h4 : 0 ≤ ((N % y : ℕ) : ℝ) / y := by positivity
  rw [e2, abs_le]
  constructor <;> linarith

theorem div_spec {x y : FP492} (h : UInt.nat x < 2 ^ 492) (hy : 2 ^ 492 ≤ UInt.nat y) :
    ∃ r, div x y = some r ∧ |(UInt.nat r : ℝ) - (UInt.nat x : ℝ) * 2 ^ 492 / UInt.nat y| ≤ 1 ∧
      UInt.nat r ≤ UInt.nat x + 1 := by
  obtain ⟨n, hn⟩ : ∃ n : U1024, n = UInt.shl (⟨UInt.zero, x⟩ : U1024) 492 := ⟨_, rfl⟩
  have hnv : UInt.nat n = UInt.nat x * 2 ^ 492 := by
    rw [hn, UInt.nat_shl _ _ (by show 492 < 2 * 512; norm_num), show 2 * BITS U512 = 1024 from rfl]
    have : UInt.nat (⟨UInt.zero, x⟩ : U1024) = UInt.nat x := by
      show toNat (UInt.zero : U512) * 2 ^ 512 + UInt.nat x = _
      have : toNat (UInt.zero : U512) = 0 := by decide
      rw [this, Nat.zero_mul, Nat.zero_add]
    rw [this]
    exact Nat.mod_eq_of_lt (by
      calc UInt.nat x * 2 ^ 492 < 2 ^ 492 * 2 ^ 492 := Nat.mul_lt_mul_of_pos_right h (Nat.two_pow_pos _)
        _ ≤ 2 ^ 1024 := by norm_num)
  have hhi : toNat n.hi < toNat y := by
    have e : UInt.nat n = toNat n.hi * 2 ^ 512 + toNat n.lo := rfl
    have hy' : toNat y = UInt.nat y := rfl
    rw [hy']
    by_contra hc
    have h1 : 2 ^ 492 * 2 ^ 512 ≤ toNat n.hi * 2 ^ 512 := Nat.mul_le_mul_right _ (hy.trans (not_lt.mp hc))
    have h2 : UInt.nat x * 2 ^ 492 < 2 ^ 492 * 2 ^ 492 := Nat.mul_lt_mul_of_pos_right h (Nat.two_pow_pos _)
    have h3 : (2 : ℕ) ^ 492 * 2 ^ 492 ≤ 2 ^ 492 * 2 ^ 512 := by norm_num
    rw [hnv] at e
    omega
  have hs := UInt.divRemSubuintSpecial_spec n y hhi
  have hy0 : 0 < UInt.nat y := lt_of_lt_of_le (Nat.two_pow_pos _) hy
  have hq : UInt.nat n / UInt.nat y ≤ UInt.nat x := by
    rw [hnv]
    refine Nat.div_le_of_le_mul ?_
    rw [Nat.mul_comm (UInt.nat y)]
    exact Nat.mul_le_mul_left _ hy
  unfold div
  dsimp only
  rw [← hn, hs, Option.bind_eq_bind, Option.bind_some]
  dsimp only
  generalize (BigUInt.gt (_ : U512) _ || _) = c
  refine ⟨_, rfl, ?_⟩
  obtain ⟨Q, hQ⟩ : ∃ Q : U1024, Q = incrIf (⟨BigUInt.ZERO, LawfulBigUInt.ofNat (UInt.nat n / toNat y)⟩ : U1024) c := ⟨_, rfl⟩
  rw [← hQ]
  have hy' : toNat y = UInt.nat y := rfl
  have h512 : toNat (LawfulBigUInt.ofNat (UInt.nat n / toNat y) : U512) = UInt.nat n / UInt.nat y := by
    rw [toNat_ofNat_of_lt]
    · rfl
    · show UInt.nat n / UInt.nat y < 2 ^ 512
      refine lt_of_le_of_lt hq (h.trans (by norm_num))
  have hc1 : c.toNat ≤ 1 := bool_toNat_le c
  have hQv : toNat Q = UInt.nat n / UInt.nat y + c.toNat := by
    rw [hQ, toNat_incrIf]
    have e : toNat (⟨BigUInt.ZERO, LawfulBigUInt.ofNat (UInt.nat n / toNat y)⟩ : U1024) = UInt.nat n / UInt.nat y := by
      show toNat (BigUInt.ZERO : U512) * 2 ^ 512 + toNat (LawfulBigUInt.ofNat (UInt.nat n / toNat y) : U512) = _
      rw [h512, toNat_zero, Nat.zero_mul, Nat.zero_add]
    rw [e, show BITS U1024 = 1024 from rfl]
    refine Nat.mod_eq_of_lt ?_
    have : (2 : ℕ) ^ 492 + 1 < 2 ^ 1024 := by norm_num
    omega
  have hQlt : toNat Q < 2 ^ 512 := by
    rw [hQv]
    have : (2 : ℕ) ^ 492 + 1 < 2 ^ 512 := by norm_num
    omega
  have hlo : UInt.nat Q.lo = UInt.nat n / UInt.nat y + c.toNat := by
    have e : toNat Q = toNat Q.hi * 2 ^ 512 + UInt.nat Q.lo := rfl
    rw [← hQv, e]
    have : toNat Q.hi = 0 := by
      by_contra hc
      have : 1 * 2 ^ 512 ≤ toNat Q.hi * 2 ^ 512 := Nat.mul_le_mul_right _ (by omega)
      omega
    rw [this, Nat.zero_mul, Nat.zero_add]
  rw [hlo]
  refine ⟨?_, by omega⟩
  have := quot_round (N := UInt.nat n) (q := UInt.nat n / UInt.nat y + c.toNat) hy0 (by omega) (by omega)
  rwa [hnv, Nat.cast_mul (UInt.nat x), Nat.cast_pow, Nat.cast_ofNat, ← hnv] at this

theorem limb_top {a b c d N : ℕ} (hN : N = ((a * 2 ^ 128 + b) * 2 ^ 128 + c) * 2 ^ 128 + d) (hb : b < 2 ^ 128)
    (hc : c < 2 ^ 128) (hd : d < 2 ^ 128) : a / 2 ^ 100 = N / 2 ^ 484 := by omega

theorem sub_low {N A : ℕ} (h : N < 2 ^ 492) (hA : A = N / 2 ^ 484 * 2 ^ 484) :
    (N + (2 ^ 512 - A) % 2 ^ 512) % 2 ^ 512 = N % 2 ^ 484 := by omega

theorem top_pow (q : ℕ) : ((q * 2 ^ 100 * 2 ^ 128 + 0) * 2 ^ 128 + 0) * 2 ^ 128 + 0 = q * 2 ^ 484 := by omega

theorem divmod_spec {x : FP492} (h : UInt.nat x < 2 ^ 492) :
    ∃ c y, divmod1Over256 x = (UInt.nat x / 2 ^ 484, c, y) ∧ UInt.nat c = UInt.nat x / 2 ^ 484 * 2 ^ 484 ∧
      UInt.nat y = UInt.nat x % 2 ^ 484 := by
  have hsv : sval x = UInt.nat x := sval_of_lt (h.trans (by norm_num))
  by_cases h0 : UInt.nat x = 0
  · have : divmod1Over256 x = (0, x, x) := by
      unfold divmod1Over256
      rw [signum_eq, hsv, h0]
      rfl
    rw [this, h0]
    exact ⟨x, x, by rw [Nat.zero_div], by rw [h0, Nat.zero_div, Nat.zero_mul], by rw [h0, Nat.zero_mod]⟩
  · have hs : signum x = 1 := by
      rw [signum_eq, hsv]
      exact Int.sign_eq_one_of_pos (by exact_mod_cast Nat.pos_of_ne_zero h0)
    have hq : (x.hi.hi >>> 100).toNat = UInt.nat x / 2 ^ 484 := by
      rw [BitVec.toNat_ushiftRight, Nat.shiftRight_eq_div_pow]
      exact limb_top (nat_limbs x) x.hi.lo.isLt x.lo.hi.isLt x.lo.lo.isLt
    have hqc : (x.hi.hi >>> 100 <<< 100).toNat = UInt.nat x / 2 ^ 484 * 2 ^ 100 := by
      rw [BitVec.toNat_shiftLeft, hq, Nat.shiftLeft_eq]
      refine Nat.mod_eq_of_lt ?_
      have := x.hi.hi.isLt
      rw [← hq, BitVec.toNat_ushiftRight, Nat.shiftRight_eq_div_pow]
      generalize x.hi.hi.toNat = a at *
      omega
    have hc : UInt.nat (⟨⟨x.hi.hi >>> 100 <<< 100, 0#128⟩, ⟨0#128, 0#128⟩⟩ : FP492) = UInt.nat x / 2 ^ 484 * 2 ^ 484 := by
      rw [nat_limbs, hqc]
      exact top_pow _
    obtain ⟨c, hcd⟩ : ∃ c : FP492, c = ⟨⟨x.hi.hi >>> 100 <<< 100, 0#128⟩, ⟨0#128, 0#128⟩⟩ := ⟨_, rfl⟩
    rw [← hcd] at hc
    have hd : divmod1Over256 x = ((x.hi.hi >>> 100).toNat, c, sub x c) := by
      unfold divmod1Over256
      rw [hs, if_neg (by norm_num), if_neg (by norm_num), hcd]
    rw [hd, hq]
    refine ⟨_, _, rfl, hc, ?_⟩
    unfold sub
    rw [nat_add, nat_ineg]
    exact sub_low h hc

end Verif.FP492

namespace Verif.Trig

open FP492 Finset

theorem arctan_lip (a b : ℝ) : |Real.arctan a - Real.arctan b| ≤ |a - b| := by
  have h := Convex.norm_image_sub_le_of_norm_deriv_le (f := Real.arctan) (s := Set.univ) (C := 1) (x := b) (y := a)
    (fun x _ => Real.differentiableAt_arctan x) (fun x _ => by
      rw [Real.deriv_arctan, Real.norm_eq_abs, abs_of_pos (by positivity), div_le_one (by positivity)]
      nlinarith [sq_nonneg x]) convex_univ (Set.mem_univ _) (Set.mem_univ _)
  rwa [one_mul, Real.norm_eq_abs, Real.norm_eq_abs] at h

theorem arctan_split {a c : ℝ} (ha : 0 ≤ a) (hc : 0 ≤ c) :
    Real.arctan a = Real.arctan c + Real.arctan ((a - c) / (1 + a * c)) := by
  have h : 0 < 1 + a * c := by positivity
  rw [Real.arctan_add]
  · congr 1
    have e1 : c + (a - c) / (1 + a * c) = a * (1 + c * c) / (1 + a * c) := by field_simp; ring
    have e2 : 1 - c * ((a - c) / (1 + a * c)) = (1 + c * c) / (1 + a * c) := by field_simp; ring
    rw [e1, e2]
    have : 0 < 1 + c * c := by positivity
    field_simp
  · rw [mul_div_assoc', div_lt_one h]
    nlinarith [mul_nonneg hc hc]

/-- The error of the whole computation in real numbers, in units of the last place; `a`, `c`, `y` are the argument and
its parts, the others the computed values. -/
theorem atan_real {W a c y t y1 S H P T : ℝ} (hW : 2 ^ 60 ≤ W) (ha0 : 0 ≤ a) (hc0 : 0 ≤ c) 
    (hy0 : 0 ≤ y) (hay : a = c + y)
    (hy : y ≤ W / 256) (ht : |t - (a * c / W + W)| ≤ 1) (hy1 : |y1 - y * W / t| ≤ 1) (hy10 : 0 ≤ y1)
    (hS : |Real.arctan (y1 / W) - y1 / W * S| ≤ y1 / W / W)
    (hH : |H - S * W| ≤ 15) (hP : |P - H * y1 / W| ≤ 1)
    (hT : |T - Real.arctan (c / W) * W| ≤ 1) : |P + T - Real.arctan (a / W) * W| ≤ 4 := by
  have hW0 : 0 < W := lt_of_lt_of_le (by norm_num) hW
  have hWb : (2 : ℝ) ^ 60 = 1152921504606846976 := by norm_num
  rw [hWb] at hW
  have hac : 0 ≤ a * c / W := by positivity
  obtain ⟨D, hD⟩ : ∃ D, D = a * c / W + W := ⟨_, rfl⟩
  have hDW : W ≤ D := by rw [hD]; linarith
  rw [← hD] at ht
  have hD0 : 0 < D := by linarith
  have ht' := abs_le.mp ht
  have htW : W - 1 ≤ t := by linarith
  have ht0 : 0 < t := by linarith
  -- the quotient
  have hq : |y * W / t - y * W / D| ≤ 1 / 100 := by
    have e : y * W / t - y * W / D = y * W * (D - t) / (t * D) := by field_simp
    rw [e, abs_div, abs_mul, abs_of_nonneg (by positivity : 0 ≤ y * W), abs_of_pos (by positivity : 0 < t * D),
      div_le_iff₀ (by positivity)]
    have h1 : |D - t| ≤ 1 := by rw [abs_sub_comm]; exact ht
    have h2 : y * W * |D - t| ≤ W / 256 * W * 1 := by gcongr
    have h3 : (W - 1) * W ≤ t * D := mul_le_mul htW hDW hW0.le ht0.le
    nlinarith
  have hz : |y1 - y * W / D| ≤ 101 / 100 := by
    have := abs_add_le (y1 - y * W / t) (y * W / t - y * W / D)
    rw [sub_add_sub_cancel] at this
    linarith
  have hz1 : y * W / D ≤ W / 256 := by
    rw [div_le_iff₀ hD0]
    have : y * W ≤ W / 256 * W := mul_le_mul_of_nonneg_right hy hW0.le
    have : W / 256 * W ≤ W / 256 * D := mul_le_mul_of_nonneg_left hDW (by positivity)
    linarith
  have hy1b : y1 ≤ W / 200 := by
    have := (abs_le.mp hz).2
    linarith
  have hr : y1 / W ≤ 1 / 200 := by rw [div_le_iff₀ hW0]; linarith
  have hr0 : 0 ≤ y1 / W := by positivity
  -- the addition theorem
  have hsplit := arctan_split (a := a / W) (c := c / W) (by positivity) (by positivity)
  have earg : (a / W - c / W) / (1 + a / W * (c / W)) = y * W / D / W := by
    have hDm : D * W = a * c + W * W := by rw [hD]; field_simp
    have e1 : 1 + a / W * (c / W) = D / W := by
      rw [eq_div_iff hW0.ne']
      have : (1 + a / W * (c / W)) * W * W = D * W := by rw [hDm]; field_simp; ring
      exact mul_right_cancel₀ hW0.ne' this
    rw [e1, hay]
    field_simp
    ring
  rw [earg] at hsplit
  have hl := arctan_lip (y1 / W) (y * W / D / W)
  rw [← sub_div, abs_div, abs_of_pos hW0] at hl
  have hl2 : |Real.arctan (y1 / W) * W - Real.arctan (y * W / D / W) * W| ≤ 101 / 100 := by
    rw [← sub_mul, abs_mul, abs_of_pos hW0]
    refine le_trans (mul_le_mul_of_nonneg_right hl hW0.le) ?_
    rw [div_mul_cancel₀ _ hW0.ne']
    exact hz
  -- the product
  have hP2 : |H * y1 / W - y1 / W * S * W| ≤ 15 / 200 := by
    have e : H * y1 / W - y1 / W * S * W = (H - S * W) * (y1 / W) := by field_simp
    rw [e, abs_mul, abs_of_nonneg hr0]
    have : |H - S * W| * (y1 / W) ≤ 15 * (1 / 200) := mul_le_mul hH hr hr0 (by norm_num)
    linarith
  have hS2 : |y1 / W * S * W - Real.arctan (y1 / W) * W| ≤ 1 / 200 := by
    rw [← sub_mul, abs_mul, abs_of_pos hW0, abs_sub_comm]
    have := mul_le_mul_of_nonneg_right hS hW0.le
    rw [div_mul_cancel₀ _ hW0.ne'] at this
    linarith
  rw [hsplit]
  generalize Real.arctan (y1 / W) * W = A1 at *
  have e : P + T - (Real.arctan (c / W) + Real.arctan (y * W / D / W)) * W =
      (P - H * y1 / W) + (H * y1 / W - y1 / W * S * W) + (y1 / W * S * W - A1) +
      (A1 - Real.arctan (y * W / D / W) * W) + (T - Real.arctan (c / W) * W) := by ring
  rw [e]
  refine (abs_add_le _ _).trans ?_
  have i1 := abs_add_le ((P - H * y1 / W) + (H * y1 / W - y1 / W * S * W) + (y1 / W * S * W - A1))
    (A1 - Real.arctan (y * W / D / W) * W)
  have i2 := abs_add_le ((P - H * y1 / W) + (H * y1 / W - y1 / W * S * W)) (y1 / W * S * W - A1)
  have i3 := abs_add_le (P - H * y1 / W) (H * y1 / W - y1 / W * S * W)
  linarith

/-- The value computed before the sign is restored -/
def atanMag (a : FP492) : Option FP492 := do
  let (q, c, y) := FP492.divmod1Over256 a
  let t := FP492.add (FP492.imulRound a c) FP492.ONE
  let y ← FP492.div y t
  let y2 := FP492.imulRound y y
  let atan := FP492.imulRound (hornerAll atanCoeffs y2) y
  let tab ← ATANS[q]?
  return FP492.add atan tab

theorem approxAtan_eq (x : FP492) : approxAtan x =
    (atanMag (iabs x)).map fun r => if FP492.isSignNegative x then FP492.ineg r else r := by
  unfold approxAtan atanMag
  dsimp only
  generalize hornerAll atanCoeffs = F
  cases FP492.div (divmod1Over256 (iabs x)).2.2
    (FP492.add (FP492.imulRound (iabs x) (divmod1Over256 (iabs x)).2.1) FP492.ONE) with
  | none => rfl
  | some y =>
    rw [Option.bind_eq_bind, Option.bind_some, Option.bind_some]
    cases ATANS[(divmod1Over256 (iabs x)).1]? with
    | none => rfl
    | some t => rfl

theorem atanMag_of {a c y y1 tab : FP492} {q : ℕ} (hd : divmod1Over256 a = (q, c, y))
    (hdiv : FP492.div y (FP492.add (imulRound a c) FP492.ONE) = some y1) (ht : ATANS[q]? = some tab) :
    atanMag a = some (FP492.add (imulRound (hornerAll atanCoeffs (imulRound y1 y1)) y1) tab) := by
  unfold atanMag
  rw [hd]
  dsimp only
  generalize hornerAll atanCoeffs = F
  rw [hdiv, ht]
  generalize FP492.add = G
  generalize imulRound = G'
  rfl

theorem int_13 {u v : ℤ} (h1 : u.natAbs ≤ 1 * 2 ^ 492) (h2 : v.natAbs ≤ 3 * 2 ^ 492) :
    -2 ^ 511 ≤ u + v ∧ u + v < 2 ^ 511 := by omega

theorem sval_add_13 {x y : FP492} (h1 : (sval x).natAbs ≤ 1 * 2 ^ 492) (h2 : (sval y).natAbs ≤ 3 * 2 ^ 492) :
    sval (FP492.add x y) = sval x + sval y :=
  sval_add (int_13 h1 h2).1 (int_13 h1 h2).2

theorem one_sval : sval FP492.ONE = 2 ^ 492 := by decide +kernel

theorem mul_small {x y : FP492} (hx : (sval x).natAbs ≤ 2 ^ 494) (hy : (sval y).natAbs ≤ 2 ^ 494) :
    (sval x).natAbs * (sval y).natAbs < 2 ^ 1002 + 2 ^ 1001 :=
  lt_of_le_of_lt (Nat.mul_le_mul hx hy) (by norm_num)

theorem imulRound_nonneg {x y : FP492} (hx : (sval x).natAbs ≤ 2 ^ 494) (hy : (sval y).natAbs ≤ 2 ^ 494)
    (hx0 : 0 ≤ sval x) (hy0 : 0 ≤ sval y) : 0 ≤ sval (imulRound x y) := by
  obtain ⟨R, hR, -⟩ := imulRound_spec (mul_small hx hy)
  rw [hR]
  have h1 : 0 ≤ (sval x).sign := Int.sign_nonneg_iff.mpr hx0
  have h2 : 0 ≤ (sval y).sign := Int.sign_nonneg_iff.mpr hy0
  exact mul_nonneg (mul_nonneg h1 h2) (Int.natCast_nonneg _)

theorem nat_of_nonneg {x : FP492} (h : 0 ≤ sval x) : (UInt.nat x : ℤ) = sval x := by
  have h2 := nat_lt x
  unfold sval at h ⊢
  split at h <;> omega

theorem prod_abs {H y W p : ℝ} (hW : 2 ^ 60 ≤ W) (hH : |H| ≤ 15 + 3 * W) (hy0 : 0 ≤ y) (hy : y ≤ W / 256 + 1)
    (hp : |p - H * y / W| ≤ 1) : |p| ≤ W := by
  have hWb : (2 : ℝ) ^ 60 = 1152921504606846976 := by norm_num
  rw [hWb] at hW
  have hW0 : 0 < W := by linarith
  have h1 : |H * y / W| ≤ W / 2 := by
    rw [abs_div, abs_mul, abs_of_pos hW0, abs_of_nonneg hy0, div_le_iff₀ hW0]
    have : |H| * y ≤ (15 + 3 * W) * (W / 256 + 1) := mul_le_mul hH hy hy0 (by positivity)
    nlinarith
  have := abs_add_le (p - H * y / W) (H * y / W)
  rw [sub_add_cancel] at this
  linarith

theorem tab_abs {T A W : ℝ} (hW : 2 ^ 60 ≤ W) (h : |T - A * W| ≤ 1) (hA : |A| ≤ 2) : |T| ≤ 3 * W := by
  have hWb : (2 : ℝ) ^ 60 = 1152921504606846976 := by norm_num
  rw [hWb] at hW
  have hW0 : 0 < W := by linarith
  have := abs_add_le (T - A * W) (A * W)
  rw [sub_add_cancel, abs_mul A, abs_of_pos hW0] at this
  have := mul_le_mul_of_nonneg_right hA hW0.le
  linarith

theorem arctan_abs (x : ℝ) : |Real.arctan x| ≤ 2 := by
  have h1 := Real.arctan_lt_pi_div_two x
  have h2 := Real.neg_pi_div_two_lt_arctan x
  have h3 := Real.pi_le_four
  rw [abs_le]; constructor <;> linarith

theorem natAbs_lit {z : ℤ} {k : ℕ} (h : |(z : ℝ)| ≤ k * 2 ^ 492) : z.natAbs ≤ k * 2 ^ 492 := by
  refine natAbs_le_of h ?_
  rw [Nat.cast_mul, Nat.cast_pow, Nat.cast_ofNat]

theorem sq_real {y W : ℝ} (hW : 2 ^ 60 ≤ W) (hy0 : 0 ≤ y) (hy : y ≤ W / 256 + 1) :
    (y / W) ^ 2 * W = y * y / W ∧ 0 ≤ (y / W) ^ 2 ∧ (y / W) ^ 2 ≤ 16 / 25 ∧ 0 ≤ y / W ∧ y / W ≤ 1 / 200 := by
  have hWb : (2 : ℝ) ^ 60 = 1152921504606846976 := by norm_num
  rw [hWb] at hW
  have hW0 : 0 < W := by linarith
  have h1 : y / W ≤ 1 / 200 := by rw [div_le_iff₀ hW0]; linarith
  have h0 : 0 ≤ y / W := by positivity
  refine ⟨by field_simp, sq_nonneg _, ?_, h0, h1⟩
  nlinarith

theorem table_arg (a : ℕ) {c : ℕ} (hc : c = a / 2 ^ 484 * 2 ^ 484) : ((a / 2 ^ 484 : ℕ) : ℝ) / 256 = (c : ℝ) / 2 ^ 492 := by
  rw [hc, Nat.cast_mul, Nat.cast_pow, Nat.cast_ofNat, show (2 : ℝ) ^ 492 = 256 * 2 ^ 484 by norm_num]
  generalize ((a / 2 ^ 484 : ℕ) : ℝ) = q
  have : (0 : ℝ) < 2 ^ 484 := by positivity
  generalize (2 : ℝ) ^ 484 = B at *
  field_simp

theorem prod_le {a c W : ℝ} (ha0 : 0 ≤ a) (hc0 : 0 ≤ c) (hW : 0 < W) (ha : a ≤ W) (hc : c ≤ W) :
    0 ≤ a * c / W ∧ a * c / W ≤ W := by
  constructor
  · positivity
  · rw [div_le_iff₀ hW]; exact mul_le_mul ha hc hc0 hW.le

theorem cast_le_pow {n k : ℕ} (h : n ≤ 2 ^ k) : (n : ℝ) ≤ 2 ^ k := by
  have : ((n : ℕ) : ℝ) ≤ ((2 ^ k : ℕ) : ℝ) := Nat.cast_le.mpr h
  rwa [Nat.cast_pow, Nat.cast_ofNat] at this

theorem int_bound {z : ℤ} {r W : ℝ} {k : ℕ} (h : |(z : ℝ) - r| ≤ 1) (hr0 : 0 ≤ r) (hr : r ≤ W) (hW : W + 1 ≤ (2 ^ k : ℕ)) :
    z.natAbs ≤ 2 ^ k := by
  have h1 := abs_le.mp h
  refine natAbs_le_of (r := W + 1) ?_ hW
  rw [abs_le]
  constructor <;> linarith

theorem pow_lit_a : ((2 : ℝ) ^ 492 + 1 ≤ ((2 ^ 493 : ℕ) : ℝ)) := by norm_num

theorem quot_abs {r x t W : ℝ} (h : |r - x * W / t| ≤ 1) (hW : 0 < W) (ht : W ≤ t) (hx0 : 0 ≤ x) (hx : x ≤ W / 256) :
    r ≤ W / 256 + 1 := by
  have h1 : x * W / t ≤ x := by
    rw [div_le_iff₀ (by linarith)]
    exact mul_le_mul_of_nonneg_left ht hx0
  have := (abs_le.mp h).2
  linarith

theorem atanMag_spec {a : FP492} (h : UInt.nat a < 2 ^ 492) :
    ∃ r, atanMag a = some r ∧ |(sval r : ℝ) - Real.arctan ((UInt.nat a : ℝ) / 2 ^ 492) * 2 ^ 492| ≤ 4 := by
  obtain ⟨c, y, hd, hc, hy⟩ := divmod_spec h
  have hq : UInt.nat a / 2 ^ 484 < 256 := by omega
  obtain ⟨tab, ht1, ht2⟩ := atans_ok hq
  have hcl : UInt.nat c < 2 ^ 492 := by omega
  have hyl : UInt.nat y < 2 ^ 484 := by rw [hy]; exact Nat.mod_lt _ (Nat.two_pow_pos _)
  have hyl' : UInt.nat y < 2 ^ 492 := hyl.trans (by norm_num)
  have hay : UInt.nat a = UInt.nat c + UInt.nat y := by omega
  have sv : ∀ {x : FP492}, UInt.nat x < 2 ^ 492 → sval x = UInt.nat x := fun {x} hx =>
    sval_of_lt (hx.trans (by norm_num))
  have na : ∀ {x : FP492}, UInt.nat x < 2 ^ 492 → (sval x).natAbs ≤ 2 ^ 494 := fun {x} hx => by
    rw [sv hx, Int.natAbs_natCast]; omega
  obtain ⟨p1, -⟩ := Ln.imulRound_real (mul_small (na h) (na hcl))
  have p0 := imulRound_nonneg (na h) (na hcl) (by rw [sv h]; exact Int.natCast_nonneg _)
    (by rw [sv hcl]; exact Int.natCast_nonneg _)
  rw [sv h, sv hcl, Int.cast_natCast, Int.cast_natCast] at p1
  have aW := cast_le_pow h.le
  have cW := cast_le_pow hcl.le
  obtain ⟨hac0, hac⟩ := prod_le (Nat.cast_nonneg _) (Nat.cast_nonneg _) (by positivity) aW cW
  -- the divisor
  obtain ⟨t, htd⟩ : ∃ t, t = FP492.add (imulRound a c) FP492.ONE := ⟨_, rfl⟩
  have m1 := int_bound p1 hac0 hac pow_lit_a
  have hts : sval t = sval (imulRound a c) + 2 ^ 492 := by
    rw [htd, sval_add_small, one_sval]
    rw [one_sval]; omega
  have htn : (UInt.nat t : ℤ) = sval t := nat_of_nonneg (by rw [hts]; exact add_nonneg p0 (by norm_num))
  have ht0 : 2 ^ 492 ≤ UInt.nat t := by
    have : (2 : ℤ) ^ 492 ≤ UInt.nat t := by rw [htn, hts]; exact le_add_of_nonneg_left p0
    exact_mod_cast this
  have htR : |(UInt.nat t : ℝ) - ((UInt.nat a : ℝ) * UInt.nat c / 2 ^ 492 + 2 ^ 492)| ≤ 1 := by
    have e : (UInt.nat t : ℝ) = (sval (imulRound a c) : ℝ) + 2 ^ 492 := by
      have := congrArg (Int.cast : ℤ → ℝ) (htn.trans hts)
      rwa [Int.cast_natCast, Int.cast_add, Int.cast_pow, Int.cast_ofNat] at this
    rw [e, add_sub_add_right_eq_sub]
    exact p1
  -- the quotient
  obtain ⟨y1, hdiv, hy1, hy1l⟩ := div_spec hyl' ht0
  have hy1l' : UInt.nat y1 < 2 ^ 492 := by omega
  have hW60 : (2 : ℝ) ^ 60 ≤ 2 ^ 492 := pow_le_pow_right₀ (by norm_num) (by norm_num)
  have hyW : (UInt.nat y : ℝ) ≤ 2 ^ 492 / 256 := by
    have := cast_le_pow hyl.le
    rwa [show (2 : ℝ) ^ 492 / 256 = 2 ^ 484 by norm_num]
  have hy1W := quot_abs hy1 (by positivity) (by exact_mod_cast ht0) (Nat.cast_nonneg _) hyW
  obtain ⟨e1, u0, u1, r0, r1⟩ := sq_real hW60 (Nat.cast_nonneg _) hy1W
  -- the series
  obtain ⟨s1, -⟩ := Ln.imulRound_real (mul_small (na hy1l') (na hy1l'))
  rw [sv hy1l', Int.cast_natCast, ← e1] at s1
  have hlen : atanCoeffs.length = 33 := by decide +kernel
  obtain ⟨q1, q2⟩ := hornerAll_spec atanA_le u0 u1 s1 (by decide +kernel : atanCoeffs ≠ []) atanCoeffs_ok
  rw [hlen] at q1 q2
  have hS := atan_taylor r0 r1
  have hS' : (UInt.nat y1 : ℝ) / 2 ^ 492 / 2 ^ 504 ≤ (UInt.nat y1 : ℝ) / 2 ^ 492 / 2 ^ 492 :=
    div_le_div_of_nonneg_left r0 (by positivity) (pow_le_pow_right₀ (by norm_num) (by norm_num))
  have hS2 := hS.trans hS'
  have hHb := acc_bound q1 q2
  have hHn : (sval (hornerAll atanCoeffs (imulRound y1 y1))).natAbs ≤ 2 ^ 494 := natAbs_le_of hHb (by norm_num)
  obtain ⟨H, hHd⟩ : ∃ H, hornerAll atanCoeffs (imulRound y1 y1) = H := ⟨_, rfl⟩
  rw [hHd] at hHn hHb q1
  obtain ⟨P1, -⟩ := Ln.imulRound_real (mul_small hHn (na hy1l'))
  rw [sv hy1l', Int.cast_natCast] at P1
  have hPa := prod_abs hW60 hHb (Nat.cast_nonneg _) hy1W P1
  rw [table_arg _ hc] at ht2
  have hTa := tab_abs hW60 ht2 (arctan_abs _)
  have hPn : (sval (imulRound H y1)).natAbs ≤ 1 * 2 ^ 492 := natAbs_lit (by rw [Nat.cast_one, one_mul]; exact hPa)
  have hTn : (sval tab).natAbs ≤ 3 * 2 ^ 492 := natAbs_lit (by exact_mod_cast hTa)
  have hadd : sval (FP492.add (imulRound H y1) tab) = sval (imulRound H y1) + sval tab :=
    sval_add_13 hPn hTn
  have hm : atanMag a = some (FP492.add (imulRound H y1) tab) := by
    rw [htd] at hdiv
    rw [atanMag_of hd hdiv ht1, hHd]
  refine ⟨_, hm, ?_⟩
  rw [hadd, Int.cast_add]
  exact atan_real hW60 (Nat.cast_nonneg _) (Nat.cast_nonneg _) (Nat.cast_nonneg _) (by exact_mod_cast hay) hyW htR hy1
    (Nat.cast_nonneg _) hS2 q1 P1 ht2

/-- `approx_atan` is within four units of the last place. -/
theorem approxAtan_spec {x : FP492} (h : (sval x).natAbs < 2 ^ 492) :
    ∃ r, approxAtan x = some r ∧ |(sval r : ℝ) - Real.arctan ((sval x : ℝ) / 2 ^ 492) * 2 ^ 492| ≤ 4 := by
  have hn := nat_iabs x
  obtain ⟨m, hm1, hm2⟩ := atanMag_spec (a := iabs x) (by rw [hn]; exact h)
  rw [approxAtan_eq, hm1, Option.map_some]
  refine ⟨_, rfl, ?_⟩
  rw [hn] at hm2
  have hb : (sval m).natAbs ≤ 3 * 2 ^ 492 := by
    refine natAbs_lit ?_
    have := abs_add_le ((sval m : ℝ) - Real.arctan (((sval x).natAbs : ℝ) / 2 ^ 492) * 2 ^ 492)
      (Real.arctan (((sval x).natAbs : ℝ) / 2 ^ 492) * 2 ^ 492)
    have h2 := arctan_abs (((sval x).natAbs : ℝ) / 2 ^ 492)
    rw [sub_add_cancel, abs_mul (Real.arctan _), abs_of_pos (by positivity : (0 : ℝ) < 2 ^ 492)] at this
    have h3 := mul_le_mul_of_nonneg_right h2 (by positivity : (0 : ℝ) ≤ 2 ^ 492)
    have h4 : (4 : ℝ) ≤ 2 ^ 492 := by
      calc (4 : ℝ) = 2 ^ 2 := by norm_num
        _ ≤ 2 ^ 492 := pow_le_pow_right₀ (by norm_num) (by norm_num)
    generalize (2 : ℝ) ^ 492 = W at *
    push_cast
    linarith
  rw [isSignNegative_eq]
  by_cases hs : sval x < 0
  · rw [if_pos (by simpa using hs), sval_ineg (by omega), Int.cast_neg]
    have e : (sval x : ℝ) = -((sval x).natAbs : ℝ) := by
      have : sval x = -((sval x).natAbs : ℤ) := by omega
      have := congrArg (Int.cast : ℤ → ℝ) this
      rwa [Int.cast_neg, Int.cast_natCast] at this
    rw [e, neg_div, Real.arctan_neg, neg_mul, sub_neg_eq_add, neg_add_eq_sub, abs_sub_comm]
    exact hm2
  · rw [if_neg (by simpa using hs)]
    have e : (sval x : ℝ) = ((sval x).natAbs : ℝ) := by
      have : sval x = ((sval x).natAbs : ℤ) := by omega
      have := congrArg (Int.cast : ℤ → ℝ) this
      rwa [Int.cast_natCast] at this
    rw [e]
    exact hm2

end Verif.Trig
