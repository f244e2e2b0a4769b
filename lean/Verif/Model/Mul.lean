import Verif.Model.F256

/-!
# Model of `src/binops/mul.rs` and `src/binops/div.rs`

The rounding bits (`u32` in the code, always below 4) are naturals.
-/

namespace Verif

open BigUInt

/-- src/binops/mul.rs:75-98, and with the same text src/binops/div.rs:108-131: the rounding bits
after shifting a significand further to the right (`shift ≥ 1`) -/
def adjRndBits (signifZ : U256) (rndBits shift : Nat) : Nat :=
  if shift = 1 then
    (signifZ.lo &&& 1).toNat <<< 1 ||| (decide (rndBits ≠ 0)).toNat
  else if shift = 2 then
    (signifZ.lo &&& 3).toNat ||| (decide (rndBits ≠ 0)).toNat
  else if shift ≤ 127 then
    let rem := (UInt.remPow2 signifZ shift).lo
    (rem >>> (shift - 2)).toNat ||| (decide ((1 : BitVec 128) <<< (shift - 1) < rem)).toNat |||
      (decide (rndBits ≠ 0)).toNat
  else
    let rem := UInt.remPow2 signifZ shift
    (UInt.shr rem (shift - 2)).lo.toNat |||
      (UInt.cmp rem (UInt.shl UInt.one (shift - 1)) == .gt).toNat |||
      (decide (rndBits ≠ 0)).toNat

/-- src/binops/mul.rs:105-108, src/binops/div.rs:138-141 -/
def assemble (signifZ : U256) (expBitsZMinus1 : Nat) : U256 :=
  U256.new (signifZ.hi + (BitVec.ofNat 128 expBitsZMinus1 <<< HI_FRACTION_BITS)) signifZ.lo

/-- src/binops/mul.rs:158-162, src/binops/div.rs:145-148: the final rounding -/
def finalRound (bits : U256) (rndBits : Nat) : F256 :=
  if rndBits > 2 || (decide (rndBits = 2) && isOdd bits.lo) then ⟨UInt.incr bits⟩ else ⟨bits⟩

/-- src/binops/mul.rs:25-37 -/
def mulSignifs (x y : U256) : U256 × Nat × Nat :=
  let (lo, hi) := UInt.wideningMul x y
  let carry := (decide (HI_SIGN_MASK ≤ hi.hi)).toNat
  let shift := EXP_BITS - 1 + carry
  let rem := (UInt.remPow2 hi shift).lo
  let rndBits := (rem >>> (shift - 2)).toNat
    ||| (decide ((1 : BitVec 128) <<< (shift - 1) < rem)).toNat
    ||| (!(U256.isZero lo)).toNat
  (UInt.shr hi shift, carry, rndBits)

/-- src/binops/mul.rs:39-110 -/
def mulAbsFinite (absX absY : U256) : U256 × Nat :=
  let expBitsX : Int := expBits absX
  let normBitX : Int := normBit absX
  let (normSignifX, normShiftX) := leftAdjSignif absX
  let expBitsY : Int := expBits absY
  let normBitY : Int := normBit absY
  let (normSignifY, normShiftY) := leftAdjSignif absY
  let (signifZ, carry, rndBits) := mulSignifs normSignifX normSignifY
  let expBitsZMinus1 : Int := (expBitsX - normBitX) + (expBitsY - normBitY)
    - ((normShiftX + normShiftY : Nat) : Int) + (EMIN + 2 * (EXP_BITS : Int)) + (carry : Int)
  if expBitsZMinus1 ≥ (EXP_MAX : Int) - 1 then (U256.new INF_HI 0, 0)
  else if expBitsZMinus1 < 0 then
    let shift := expBitsZMinus1.natAbs
    if shift > SIGNIFICAND_BITS + 1 then (UInt.zero, 0)
    else (assemble (UInt.shr signifZ shift) 0, adjRndBits signifZ rndBits shift)
  else (assemble signifZ expBitsZMinus1.toNat, rndBits)

/-- src/binops/div.rs:24-34 -/
def divSignifs (x y : U256) : Option (U256 × Nat) := do
  let t : U512 := ⟨UInt.zero, x⟩
  let t := UInt.shl t (SIGNIFICAND_BITS + (UInt.cmp x y == .lt).toNat)
  let (q, r) ← UInt.divRemSub t y
  let c := ((q.lo.lo &&& 1).toNat <<< 1) ||| (!(U256.isZero r)).toNat
  let q := UInt.shr q 1
  return (q.lo, c)

/-- src/binops/div.rs:73-149: division of finite non-zero absolute values; `signZ` is
`sign_bits_hi_z` -/
def divFinite (absX absY : U256) (signZ : BitVec 128) : Option F256 :=
  let expBitsX : Int := expBits absX
  let normBitX : Int := normBit absX
  let (normSignifX, normShiftX) := normSignif absX
  let expBitsY : Int := expBits absY
  let normBitY : Int := normBit absY
  let (normSignifY, normShiftY) := normSignif absY
  let expBitsZMinus1 : Int := (expBitsX - normBitX) - (expBitsY - normBitY)
    - ((normShiftX : Int) - (normShiftY : Int)) + (-EMIN - 1)
    + ((UInt.cmp normSignifX normSignifY != .lt).toNat : Int)
  if expBitsZMinus1 ≥ (EXP_MAX : Int) - 1 then some ⟨U256.new (signZ ||| INF_HI) 0⟩
  else (divSignifs normSignifX normSignifY).bind fun (signifZ, rndBits) =>
    if expBitsZMinus1 < 0 then
      let shift := expBitsZMinus1.natAbs
      if shift > SIGNIFICAND_BITS + 1 then some ⟨U256.new signZ 0⟩
      else
        let bitsZ := assemble (UInt.shr signifZ shift) 0
        some (finalRound ⟨bitsZ.hi ||| signZ, bitsZ.lo⟩ (adjRndBits signifZ rndBits shift))
    else
      let bitsZ := assemble signifZ expBitsZMinus1.toNat
      some (finalRound ⟨bitsZ.hi ||| signZ, bitsZ.lo⟩ rndBits)

namespace F256

/-- src/binops/mul.rs:117-163 -/
def mul (x y : F256) : F256 :=
  let signZ := (x.bits.hi ^^^ y.bits.hi) &&& HI_SIGN_MASK
  let absX := absBits x
  let absY := absBits y
  let stickyX := absBitsSticky absX
  let stickyY := absBitsSticky absY
  if anySpecial2 stickyX stickyY then
    let maxSticky := if stickyX ≤ stickyY then stickyY else stickyX
    let minSticky := if stickyX ≤ stickyY then stickyX else stickyY
    if minSticky = 0 ∧ maxSticky < INF_HI then ⟨U256.new signZ 0⟩
    else if minSticky = 0 ∧ maxSticky = INF_HI then NAN
    else if INF_HI < maxSticky then NAN
    else ⟨U256.new (signZ ||| INF_HI) 0⟩
  else
    let (bitsZ, rndBits) := mulAbsFinite absX absY
    finalRound ⟨bitsZ.hi ||| signZ, bitsZ.lo⟩ rndBits

/-- src/binops/div.rs:41-149 -/
def div (x y : F256) : Option F256 :=
  let signZ := (x.bits.hi ^^^ y.bits.hi) &&& HI_SIGN_MASK
  let absX := absBits x
  let absY := absBits y
  let stickyX := absBitsSticky absX
  let stickyY := absBitsSticky absY
  if anySpecial2 stickyX stickyY then
    let maxSticky := if stickyX ≤ stickyY then stickyY else stickyX
    if HI_EXP_MASK < maxSticky ∨ stickyX = stickyY then some NAN
    else if stickyX < stickyY then some ⟨U256.new signZ 0⟩
    else some ⟨U256.new (signZ ||| INF_HI) 0⟩
  else
    divFinite absX absY signZ

/-- src/lib.rs:626-628 -/
def recip (x : F256) : Option F256 := div ONE x

end F256
end Verif
