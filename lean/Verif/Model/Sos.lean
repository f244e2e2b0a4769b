import Verif.Model.Mul
import Verif.Model.Fma

/-!
# Model of `src/fused_ops/sos.rs`
-/

namespace Verif

open BigUInt

namespace F256

/-- src/lib.rs:1196-1198 -/
def square (x : F256) : F256 := mul x x

/-- src/lib.rs:1206-1208 `square_add` -/
def squareAdd (x a : F256) : Option F256 := mulAdd x x a

end F256

/-- src/lib.rs:1334-1336 -/
def anyNonNormal2 (a b : BitVec 128) : Bool := anySpecial2 a b || anySubnormal2 a b

namespace Sos

/-- src/fused_ops/sos.rs:81-97: aligning the smaller square -/
def align (y2 : U512) (d : Nat) : U512 :=
  if d ≤ 19 then UInt.shl y2 (20 - d)
  else if d = 20 then y2
  else if d ≤ 494 then
    let (y2, t) := UInt.wideningShr y2 (d - 20)
    ⟨y2.hi, ⟨y2.lo.hi, y2.lo.lo ||| boolU128 (!isZero t)⟩⟩
  else UInt.one

/-- src/fused_ops/sos.rs:117-128: rounding and assembling -/
def round (z : U512) (expM1 : Int) : F256 :=
  let rndBits := (z.lo.hi >>> 125).toNat ||| (decide (z.lo.hi <<< 3 ≠ 0)).toNat
    ||| (decide (z.lo.lo ≠ 0)).toNat
  let bits : U256 := ⟨z.hi.hi + (BitVec.ofInt 128 expM1 <<< HI_FRACTION_BITS), z.hi.lo⟩
  if rndBits > 4 || (decide (rndBits = 4) && isOdd bits.lo) then ⟨UInt.incr bits⟩ else ⟨bits⟩

/-- src/fused_ops/sos.rs:102-128: normalising the sum -/
def finish (z : U512) (expBitsZ : Int) : F256 :=
  let nlz : Int := leadingZeros z
  let shr := max (-expBitsZ) ((EXP_BITS : Int) - nlz)
  let shl := min (max (max (expBitsZ - (EXP_MAX : Int)) (nlz - (EXP_BITS : Int))) 0) 236
  let z := UInt.shr z (min (max shr 0) 511).toNat
  let z := UInt.shl z shl.toNat
  let expBitsZ := expBitsZ + (shr - shl + ((decide (HI_FRACTION_MASK < z.hi.hi)).toNat : Int))
  if expBitsZ ≥ (EXP_MAX : Int) then F256.INFINITY
  else round z (min (max (expBitsZ - 1) 0) (EXP_MAX : Int))

/-- src/fused_ops/sos.rs:57-128: normal operands with `|x| >= |y|`; `none` is an overflow in the
checked addition -/
def normal (absX absY : U256) : Option F256 :=
  let expBitsX : Int := expBits absX
  let normBitX : Int := normBit absX
  let signifX := signif absX
  let expBitsY : Int := expBits absY
  let normBitY : Int := normBit absY
  let signifY := signif absY
  let signifX := UInt.shl signifX 10
  let t := UInt.wideningMul signifX signifX
  let z : U512 := ⟨t.2, t.1⟩
  let t := UInt.wideningMul signifY signifY
  let y2 : U512 := ⟨t.2, t.1⟩
  -- the cast to `u32` wraps
  let d := ((2 * (expBitsX - normBitX) - 2 * (expBitsY - normBitY)) % 4294967296).toNat
  (UInt.add z (align y2 d)).bind fun z => some (finish z (2 * (expBitsX - normBitX) + EMIN))

end Sos

namespace F256

/-- src/lib.rs:1189-1191 `sum_of_squares` and src/fused_ops/sos.rs:22-129 -/
def sumOfSquares (x y : F256) : Option F256 :=
  let absX := absBits x
  let absY := absBits y
  let stickyX := absBitsSticky absX
  let stickyY := absBitsSticky absY
  if anyNonNormal2 stickyX stickyY then
    let m := if stickyX ≤ stickyY then stickyY else stickyX
    if m ≤ HI_FRACTION_MASK then some ZERO
    else if HI_EXP_MASK < m then some NAN
    else if stickyX ≤ HI_FRACTION_MASK then some (square y)
    else if stickyY ≤ HI_FRACTION_MASK then some (square x)
    else some INFINITY
  else if UInt.cmp absX absY == .lt then Sos.normal absY absX else Sos.normal absX absY

end F256
end Verif
