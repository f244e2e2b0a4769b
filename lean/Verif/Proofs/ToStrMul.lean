import Verif.Model.ToStr
import Verif.Proofs.BigFloat
import Verif.Proofs.Wide
import Verif.Props.Log

/-!
# Proofs about formatting, part 1: the multiplication and the tables
-/

namespace Verif

open BigUInt LawfulBigUInt

theorem carryingMul128 (x y c : U128) : (carryingMul x y c).1.toNat + (carryingMul x y c).2.toNat * 2 ^ 128 =
    x.toNat * y.toNat + c.toNat := carryingMul_eq (α := U128) x y c

theorem wideningMul128 (x y : U128) : (U128.wideningMul x y).1.toNat + (U128.wideningMul x y).2.toNat * 2 ^ 128 =
    x.toNat * y.toNat := by
  have h1 := toNat_wideningMul_fst (α := U128) x y
  have h2 := toNat_wideningMul_snd (α := U128) x y
  have e1 : (U128.wideningMul x y).1.toNat = x.toNat * y.toNat % 2 ^ 128 := h1
  have e2 : (U128.wideningMul x y).2.toNat = x.toNat * y.toNat / 2 ^ 128 := h2
  rw [e1, e2]
  omega

theorem carryingAdd128 (x y : U128) (c : Bool) :
    (carryingAdd x y c).1.toNat + (carryingAdd x y c).2.toNat * 2 ^ 128 = x.toNat + y.toNat + c.toNat := by
  have h1 : (carryingAdd x y c).1.toNat = (x.toNat + y.toNat + c.toNat) % 2 ^ 128 := toNat_carryingAdd (α := U128) x y c
  have h2 : (carryingAdd x y c).2 = decide (2 ^ 128 ≤ x.toNat + y.toNat + c.toNat) := carryingAdd_snd (α := U128) x y c
  have := x.isLt
  have := y.isLt
  have := bool_toNat_le c
  rw [h1, h2]
  by_cases h : 2 ^ 128 ≤ x.toNat + y.toNat + c.toNat
  · rw [decide_eq_true h, Bool.toNat_true]; omega
  · rw [decide_eq_false h, Bool.toNat_false]; omega

theorem overflowingAdd128 (x y : U128) :
    (U128.overflowingAdd x y).1.toNat + (U128.overflowingAdd x y).2.toNat * 2 ^ 128 = x.toNat + y.toNat := by
  have := x.isLt
  have := y.isLt
  rw [U128.overflowingAdd, BitVec.toNat_add]
  by_cases h : 2 ^ 128 ≤ x.toNat + y.toNat
  · rw [decide_eq_true h, Bool.toNat_true]; omega
  · rw [decide_eq_false h, Bool.toNat_false]; omega

theorem mul_top {B w r0 r1 r2 lo hi : ℕ} (hw : w < B) (h0 : r0 < B) (h1 : r1 < B) (h2 : r2 < B) :
    (w + B * (r0 + B * (r1 + B * (r2 + B * (lo + B * hi))))) / B ^ 4 = lo + B * hi := by
  have hB : 0 < B := by omega
  rw [show B ^ 4 = B * (B * (B * B)) by ring, ← Nat.div_div_eq_div_mul, ← Nat.div_div_eq_div_mul,
    ← Nat.div_div_eq_div_mul, Nat.add_mul_div_left _ _ hB, Nat.div_eq_of_lt hw, Nat.zero_add,
    Nat.add_mul_div_left _ _ hB, Nat.div_eq_of_lt h0, Nat.zero_add,
    Nat.add_mul_div_left _ _ hB, Nat.div_eq_of_lt h1, Nat.zero_add,
    Nat.add_mul_div_left _ _ hB, Nat.div_eq_of_lt h2, Nat.zero_add]

theorem two_words {B u v : ℕ} (hu : u < B) (hv : v < B) : u * B + v < B * B := by
  calc u * B + v < u * B + B := by omega
    _ = (u + 1) * B := by ring
    _ ≤ B * B := Nat.mul_le_mul_right _ hu

theorem mul_words {B x0 x1 y0 y1 y2 y3 w c0 l0 c1 l1 c2 l2 l3 h0 d0 h1 d1 h2 d2 h3 d3 r0 k0 r1 k1 r2 k2 lo k3 : ℕ}
    (hx0 : x0 < B) (hx1 : x1 < B) (hy0 : y0 < B) (hy1 : y1 < B) (hy2 : y2 < B) (hy3 : y3 < B)
    (a1 : w + c0 * B = y0 * x0) (a2 : l0 + c1 * B = y1 * x0 + c0) (a3 : l1 + c2 * B = y2 * x0 + c1)
    (a4 : l2 + l3 * B = y3 * x0 + c2) (b1 : h0 + d0 * B = y0 * x1) (b2 : h1 + d1 * B = y1 * x1 + d0)
    (b3 : h2 + d2 * B = y2 * x1 + d1) (b4 : h3 + d3 * B = y3 * x1 + d2) (c1' : r0 + k0 * B = l0 + h0)
    (c2' : r1 + k1 * B = l1 + h1 + k0) (c3' : r2 + k2 * B = l2 + h2 + k1) (c4' : lo + k3 * B = l3 + h3 + k2)
    (hw : w < B) (hr0 : r0 < B) (hr1 : r1 < B) (hr2 : r2 < B) :
    (x1 * B + x0) * ((y3 * B + y2) * (B * B) + (y1 * B + y0)) / B ^ 4 = lo + B * (d3 + k3) ∧ d3 + k3 < B := by
  have hB : 0 < B := by omega
  have key : (x1 * B + x0) * ((y3 * B + y2) * (B * B) + (y1 * B + y0)) =
      w + B * (r0 + B * (r1 + B * (r2 + B * (lo + B * (d3 + k3))))) := by
    zify at *
    linear_combination (-1) * a1 - B * a2 - B ^ 2 * a3 - B ^ 3 * a4 - B * b1 - B ^ 2 * b2 - B ^ 3 * b3 - B ^ 4 * b4 -
      B * c1' - B ^ 2 * c2' - B ^ 3 * c3' - B ^ 4 * c4'
  have hlt : (x1 * B + x0) * ((y3 * B + y2) * (B * B) + (y1 * B + y0)) / B ^ 4 < B * B := by
    have i1 := two_words hx1 hx0
    have i2 := two_words (two_words hy3 hy2) (two_words hy1 hy0)
    rw [Nat.div_lt_iff_lt_mul (Nat.pow_pos hB), show B ^ 4 = B * B * (B * B) by ring]
    exact Nat.mul_lt_mul'' i1 i2
  rw [key, mul_top hw hr0 hr1 hr2] at hlt
  rw [key, mul_top hw hr0 hr1 hr2]
  refine ⟨rfl, ?_⟩
  have h : B * (d3 + k3) < B * B := by omega
  exact Nat.lt_of_mul_lt_mul_left h

/-- The multiplication is exact up to the final truncation. -/
theorem u256TruncatingMulU512_spec (x : U256) (y : U512) :
    nat256 (u256TruncatingMulU512 x y) = nat256 x * UInt.nat y / 2 ^ 512 := by
  unfold u256TruncatingMulU512
  dsimp only
  have a1 := wideningMul128 y.lo.lo x.lo
  generalize U128.wideningMul y.lo.lo x.lo = p0 at *
  have a2 := carryingMul128 y.lo.hi x.lo p0.2
  generalize carryingMul y.lo.hi x.lo p0.2 = p1 at *
  have a3 := carryingMul128 y.hi.lo x.lo p1.2
  generalize carryingMul y.hi.lo x.lo p1.2 = p2 at *
  have a4 := carryingMul128 y.hi.hi x.lo p2.2
  generalize carryingMul y.hi.hi x.lo p2.2 = p3 at *
  have b1 := wideningMul128 y.lo.lo x.hi
  generalize U128.wideningMul y.lo.lo x.hi = q0 at *
  have b2 := carryingMul128 y.lo.hi x.hi q0.2
  generalize carryingMul y.lo.hi x.hi q0.2 = q1 at *
  have b3 := carryingMul128 y.hi.lo x.hi q1.2
  generalize carryingMul y.hi.lo x.hi q1.2 = q2 at *
  have b4 := carryingMul128 y.hi.hi x.hi q2.2
  generalize carryingMul y.hi.hi x.hi q2.2 = q3 at *
  have c1 := overflowingAdd128 p1.1 q0.1
  generalize U128.overflowingAdd p1.1 q0.1 = s0 at *
  have c2 := carryingAdd128 p2.1 q1.1 s0.2
  generalize carryingAdd p2.1 q1.1 s0.2 = s1 at *
  have c3 := carryingAdd128 p3.1 q2.1 s1.2
  generalize carryingAdd p3.1 q2.1 s1.2 = s2 at *
  have c4 := carryingAdd128 p3.2 q3.1 s2.2
  generalize carryingAdd p3.2 q3.1 s2.2 = s3 at *
  have e5 : (incrIf q3.2 s3.2).toNat = (q3.2.toNat + s3.2.toNat) % 2 ^ 128 := toNat_incrIf (α := U128) q3.2 s3.2
  obtain ⟨r1, r2⟩ := mul_words x.lo.isLt x.hi.isLt y.lo.lo.isLt y.lo.hi.isLt y.hi.lo.isLt y.hi.hi.isLt
    a1 a2 a3 a4 b1 b2 b3 b4 c1 c2 c3 c4 p0.1.isLt s0.1.isLt s1.1.isLt s2.1.isLt
  rw [nat256_mk, e5, Nat.mod_eq_of_lt r2]
  rw [show (2 : ℕ) ^ 512 = (2 ^ 128) ^ 4 from pow_mul 2 128 4]
  refine Eq.trans ?_ r1.symm
  rw [Nat.add_comm, Nat.mul_comm]

theorem nat_u512OfNat {n : ℕ} (h : n < 2 ^ 512) : UInt.nat (u512OfNat n) = n := by
  rw [show UInt.nat (u512OfNat n) = nat256 (u512OfNat n).hi * 2 ^ 256 + nat256 (u512OfNat n).lo from rfl, u512OfNat]
  simp only [U256.new, nat256_mk, BitVec.toNat_ofNat]
  omega

/-- One of the three significands, if the shifted significand fits. -/
theorem scaled_spec (x : U256) {sh T : ℕ} (hsh : sh < 256) (hx : nat256 x * 2 ^ sh < 2 ^ 256) (hT : T < 2 ^ 512) :
    nat256 (u256TruncatingMulU512 (UInt.shl x sh) (u512OfNat T)) = nat256 x * 2 ^ sh * T / 2 ^ 512 := by
  rw [u256TruncatingMulU512_spec, nat_shl256_of_lt x hsh hx, nat_u512OfNat hT]

/-- With the table of `(⌊2^h / 5^g⌋ + 1) * 4` -/
theorem floor_pos {x sh h D p : ℕ} (hp : 0 < p) (hp' : p ≤ 2 ^ 254) (hx : x * 2 ^ sh < 2 ^ 256) (hD : sh + h = D + 510) :
    x * 2 ^ sh * ((2 ^ h / p + 1) * 4) / 2 ^ 512 = x * 2 ^ D / p := by
  rw [show x * 2 ^ sh * ((2 ^ h / p + 1) * 4) = (x * 2 ^ sh * (2 ^ h / p + 1)) * 4 by ring,
    show (2 : ℕ) ^ 512 = 2 ^ 510 * 4 by rw [show (4 : ℕ) = 2 ^ 2 by norm_num, ← pow_add],
    Nat.mul_div_mul_right _ _ (by norm_num)]
  have e1 := Nat.div_add_mod (2 ^ h) p
  have e2 := Nat.mod_lt (2 ^ h) hp
  have e3 := Nat.div_add_mod (x * 2 ^ D) p
  have e4 := Nat.mod_lt (x * 2 ^ D) hp
  generalize x * 2 ^ D / p = q at *
  generalize x * 2 ^ D % p = r at *
  generalize 2 ^ h / p = T at *
  generalize 2 ^ h % p = t at *
  have e5 : p * (x * 2 ^ sh * (T + 1)) = (p * q + r) * 2 ^ 510 + x * 2 ^ sh * (p - t) := by
    obtain ⟨d, hd⟩ : ∃ d, p = t + d := ⟨p - t, by omega⟩
    rw [e3, show p - t = d by omega]
    calc p * (x * 2 ^ sh * (T + 1)) = x * 2 ^ sh * (p * T + p) := by ring
      _ = x * 2 ^ sh * (p * T + t) + x * 2 ^ sh * d := by rw [hd]; ring
      _ = x * 2 ^ sh * 2 ^ h + x * 2 ^ sh * d := by rw [e1]
      _ = x * 2 ^ (sh + h) + x * 2 ^ sh * d := by rw [pow_add]; ring
      _ = x * 2 ^ D * 2 ^ 510 + x * 2 ^ sh * d := by rw [hD, pow_add]; ring
  have e6 : x * 2 ^ sh * (p - t) < 2 ^ 510 := by
    calc x * 2 ^ sh * (p - t) ≤ x * 2 ^ sh * 2 ^ 254 := Nat.mul_le_mul_left _ (by omega)
      _ < 2 ^ 256 * 2 ^ 254 := Nat.mul_lt_mul_of_pos_right hx (by positivity)
      _ = 2 ^ 510 := by rw [← pow_add]
  generalize x * 2 ^ sh * (T + 1) = Z at *
  generalize x * 2 ^ sh * (p - t) = W at *
  clear hD hx hp' e1 e2 e3
  generalize (2 : ℕ) ^ 510 = K at *
  have hK : 0 < K := by omega
  apply (Nat.div_eq_iff hK).mpr
  have a1 : p * (q * K) ≤ p * Z := by rw [e5]; nlinarith
  have a2 : p * Z < p * ((q + 1) * K) := by
    rw [e5]
    have : (r + 1) * K ≤ p * K := Nat.mul_le_mul_right _ (by omega)
    nlinarith
  have b1 := Nat.le_of_mul_le_mul_left a1 hp
  have b2 := Nat.lt_of_mul_lt_mul_left a2
  have : (q + 1) * K = q * K + K := by ring
  constructor <;> omega

/-- With the table of `⌊5^i / 2^(h-2)⌋`, where the entries are exact -/
theorem floor_neg {x sh c g p : ℕ} (h : sh + c + g = 512) :
    x * 2 ^ sh * (p * 2 ^ c) / 2 ^ 512 = x * p / 2 ^ g := by
  rw [show x * 2 ^ sh * (p * 2 ^ c) = x * p * 2 ^ (sh + c) by rw [pow_add]; ring, ← h, pow_add 2 (sh + c) g,
    Nat.mul_comm (2 ^ (sh + c)), Nat.mul_div_mul_right _ _ (by positivity)]

end Verif
