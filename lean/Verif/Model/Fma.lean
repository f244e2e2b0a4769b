import Verif.Model.Mul

/-!
# Model of `src/fused_ops/fma.rs` and `f256::mul_add`

The private type `u768` is modelled with its three `U256` parts. `i32` values are `Int`; the cast
of a negative `i32` to `u128` sign-extends, the cast of a negative difference to `u32` wraps
modulo 2^32. `none` is a panic.
-/

namespace Verif

open BigUInt

/-- src/fused_ops/fma.rs:26-31 -/
structure U768 where
  hi : U256
  mi : U256
  lo : U256
  deriving DecidableEq

namespace U768

/-- src/fused_ops/fma.rs:34 -/
def BITS : Nat := 768

/-- src/fused_ops/fma.rs:35-39 -/
def STICKY_BIT : U768 := ⟨UInt.zero, UInt.zero, UInt.one⟩

/-- derived `Ord` (lexicographic), src/fused_ops/fma.rs:26 -/
def cmp (x y : U768) : Ordering :=
  (UInt.cmp x.hi y.hi).then ((UInt.cmp x.mi y.mi).then (UInt.cmp x.lo y.lo))

/-- src/fused_ops/fma.rs:49-72; `none` is the `unreachable!()` -/
def fromU256Shifted (u : U256) (shr : Nat) : Option U768 :=
  if shr = 0 then some ⟨u, UInt.zero, UInt.zero⟩
  else if shr ≤ 255 then some ⟨UInt.shr u shr, UInt.shl u (256 - shr), UInt.zero⟩
  else if shr = 256 then some ⟨UInt.zero, u, UInt.zero⟩
  else if shr ≤ 511 then
    some ⟨UInt.zero, UInt.shr u (shr - 256), UInt.shl u (512 - shr)⟩
  else if shr = 512 then some ⟨UInt.zero, UInt.zero, u⟩
  else if shr ≤ 768 then
    let shr := shr - 512
    let sticky := boolU128 (!U256.isZero (UInt.shl u (256 - shr)))
    let lo := UInt.shr u shr
    some ⟨UInt.zero, UInt.zero, ⟨lo.hi, lo.lo ||| sticky⟩⟩
  else none

/-- src/fused_ops/fma.rs:83-88 -/
def iadd (x rhs : U768) : U768 :=
  let (lo, carry) := UInt.overflowingAdd x.lo rhs.lo
  let (mi, carry) := carryingAdd x.mi rhs.mi carry
  let (hi, _) := carryingAdd x.hi rhs.hi carry
  ⟨hi, mi, lo⟩

/-- src/fused_ops/fma.rs:90-95 -/
def isub (x rhs : U768) : U768 :=
  let (lo, borrow) := UInt.overflowingSub x.lo rhs.lo
  let (mi, borrow) := borrowingSub x.mi rhs.mi borrow
  let (hi, _) := borrowingSub x.hi rhs.hi borrow
  ⟨hi, mi, lo⟩

/-- src/fused_ops/fma.rs:97-103 -/
def leadingZeros (x : U768) : Nat :=
  let hiIsZero := U256.isZero x.hi
  let hiAndMiAreZero := hiIsZero && U256.isZero x.mi
  BigUInt.leadingZeros x.hi + hiIsZero.toNat * BigUInt.leadingZeros x.mi
    + hiAndMiAreZero.toNat * BigUInt.leadingZeros x.lo

/-- src/fused_ops/fma.rs:122-158; `none` is the panic of the `assert!` -/
def shl (x : U768) (rhs : Nat) : Option U768 :=
  if ¬ rhs < BITS then none
  else if 1 ≤ rhs ∧ rhs ≤ 255 then
    let (lo, carry) := wideningShl x.lo rhs
    let (mi, carry) := carryingShl x.mi rhs carry
    let (hi, _) := carryingShl x.hi rhs carry
    some ⟨hi, mi, lo⟩
  else if rhs = 256 then some ⟨x.mi, x.lo, UInt.zero⟩
  else if 257 ≤ rhs ∧ rhs ≤ 511 then
    let rhs := rhs - 256
    let (t, carry) := wideningShl x.lo rhs
    let (hi, _) := carryingShl x.mi rhs carry
    some ⟨hi, t, UInt.zero⟩
  else if rhs = 512 then some ⟨x.lo, UInt.zero, UInt.zero⟩
  else if 513 ≤ rhs ∧ rhs ≤ 767 then some ⟨UInt.shl x.lo (rhs - 512), UInt.zero, UInt.zero⟩
  else some x

end U768

namespace Fma

/-- src/fused_ops/fma.rs:308-309 -/
def ADDEND_TOO_SMALL_UPPER_LIMIT : Int := -2 * (SIGNIFICAND_BITS : Int) + 1
/-- src/fused_ops/fma.rs:311 -/
def ADDEND_ANCHORED_UPPER_LIMIT : Int := (SIGNIFICAND_BITS : Int) + 2
/-- src/fused_ops/fma.rs:316 -/
def REL_OFFSET : Nat := 512 - FRACTION_BITS - 2

/-- src/fused_ops/fma.rs:280-288: `signif_p` -/
def product (signifX signifY : U256) : U768 :=
  let (lo, hi) := UInt.wideningMul signifX (UInt.shl signifY 2)
  ⟨UInt.zero, hi, lo⟩

/-- src/fused_ops/fma.rs:317-347: the larger operand, the smaller one and whether the larger one
is the addend -/
def align (signifP : U768) (signifA : U256) (d : Int) : Option (U768 × U768 × Bool) :=
  if d ≤ ADDEND_TOO_SMALL_UPPER_LIMIT then some (signifP, U768.STICKY_BIT, false)
  else if d ≤ -1 then
    (U768.fromU256Shifted signifA ((REL_OFFSET : Int) - d).toNat).bind fun a =>
      some (signifP, a, false)
  else if d ≤ 1 then
    (U768.fromU256Shifted signifA ((REL_OFFSET : Int) - d).toNat).bind fun a =>
      if U768.cmp signifP a != .lt then some (signifP, a, false) else some (a, signifP, true)
  else if d ≤ ADDEND_ANCHORED_UPPER_LIMIT then
    (U768.fromU256Shifted signifA ((REL_OFFSET : Int) - d).toNat).bind fun a =>
      some (a, signifP, true)
  else
    (U768.fromU256Shifted signifA 0).bind fun a => some (a, signifP, true)

/-- src/fused_ops/fma.rs:382-396: rounding and assembling; `expM1` is `exp_bits_m1_z` -/
def round (z : U768) (expM1 : Int) (signZ : BitVec 128) : F256 :=
  let (hiBits, carry) := U128.wideningShr z.mi.hi 125
  let rndBits := hiBits.toNat |||
    (decide (carry ≠ 0) || decide (z.mi.lo ≠ 0) || !U256.isZero z.lo).toNat
  let bits : U256 := ⟨z.hi.hi + (BitVec.ofInt 128 expM1 <<< HI_FRACTION_BITS), z.hi.lo⟩
  let bits := if rndBits > 4 || (decide (rndBits = 4) && isOdd bits.lo) then UInt.incr bits
    else bits
  ⟨⟨bits.hi ||| signZ, bits.lo⟩⟩

/-- src/fused_ops/fma.rs:354-396: normalising and rounding `|p + a|` -/
def finish (z : U768) (d expBitsP expBitsA : Int) (signZ : BitVec 128) : Option F256 :=
  let nlz := z.leadingZeros
  if nlz = U768.BITS then some F256.ZERO
  else if d ≤ ADDEND_ANCHORED_UPPER_LIMIT then
    -- `n` as `i32`; as `u32` it wraps if it is negative
    let n : Int := (nlz : Int) - (EXP_BITS : Int)
    let t := expBitsP + ((REL_OFFSET : Int) - n) + 1
    if t ≥ (EXP_MAX : Int) then some ⟨U256.new (signZ ||| INF_HI) 0⟩
    else if t ≥ 1 then
      (U768.shl z (n % 4294967296).toNat).bind fun z => some (round z (t - 1) signZ)
    else
      (U768.shl z REL_OFFSET).bind fun z => some (round z 0 signZ)
  else
    (U768.shl z 0).bind fun z => some (round z (expBitsA - 1) signZ)

/-- src/fused_ops/fma.rs:263-396: finite non-zero operands, given by the bits of their absolute
values, the sign of the product and the sign of the addend -/
def finite (absX absY absA : U256) (signP signA : BitVec 128) : Option F256 :=
  let expBitsX : Int := expBits absX
  let normBitX : Int := normBit absX
  let signifX := signif absX
  let expBitsY : Int := expBits absY
  let normBitY : Int := normBit absY
  let signifY := signif absY
  let expBitsA : Int := expBits absA
  let normBitA : Int := normBit absA
  let signifA := signif absA
  let signifP := product signifX signifY
  let expBitsP := (expBitsX - normBitX) + (expBitsY - normBitY) + EMIN
  let d := expBitsA - normBitA - expBitsP
  (align signifP signifA d).bind fun (z, t, addendLarger) =>
    let signZ := if addendLarger then signA else signP
    let z := if signP = signA then U768.iadd z t else U768.isub z t
    finish z d expBitsP expBitsA signZ

end Fma

namespace F256

/-- src/lib.rs:1178-1180 `mul_add` and src/fused_ops/fma.rs:165-396. -/
def mulAdd (x y a : F256) : Option F256 :=
  let signP := (x.bits.hi ^^^ y.bits.hi) &&& HI_SIGN_MASK
  let signA := signBitsHi a
  let absX := absBits x
  let absY := absBits y
  let absA := absBits a
  let stickyX := absBitsSticky absX
  let stickyY := absBitsSticky absY
  let stickyA := absBitsSticky absA
  if anySpecial3 stickyX stickyY stickyA then
    let maxXY := if stickyX ≤ stickyY then stickyY else stickyX
    let minXY := if stickyX ≤ stickyY then stickyX else stickyY
    if INF_HI < maxXY ∨ INF_HI < stickyA then some NAN
    else if stickyA = 0 ∧ minXY = 0 ∧ maxXY < INF_HI then some ⟨U256.new (signP &&& signA) 0⟩
    else if stickyA = 0 ∧ minXY = 0 ∧ maxXY = INF_HI then some NAN
    else if stickyA = 0 ∧ maxXY < INF_HI then
      let (bitsZ, rndBits) := mulAbsFinite absX absY
      some (finalRound ⟨bitsZ.hi ||| signP, bitsZ.lo⟩ rndBits)
    else if stickyA = INF_HI then
      if maxXY = INF_HI then
        if minXY = 0 then some NAN
        else if signP = signA then some a else some NAN
      else some a
    else if minXY = 0 ∧ maxXY < INF_HI then some a
    else if minXY = 0 ∧ maxXY = INF_HI then some NAN
    else if maxXY = INF_HI then some ⟨U256.new (signP ||| INF_HI) 0⟩
    -- the `assert!` of src/fused_ops/fma.rs:264-265
    else none
  else Fma.finite absX absY absA signP signA

end F256
end Verif
