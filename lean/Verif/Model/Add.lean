import Verif.Model.F256

/-!
# Model of `src/binops/add.rs`
-/

namespace Verif

open BigUInt

/-- src/binops/add.rs:116-126 -/
def addOrSubSubnormals (signifX signifY : U256) (op : U256 → U256 → Option U256) : Option U256 :=
  op signifX signifY

/-- src/binops/add.rs:160-162: erase the hidden bit and set the exponent -/
def packAbs (a : U256) (expBitsZ : Nat) : U256 :=
  ⟨(a.hi &&& HI_FRACTION_MASK) ||| (BitVec.ofNat 128 expBitsZ <<< HI_FRACTION_BITS), a.lo⟩

/-- src/binops/add.rs:129-163 -/
def addOrSubNormalsExact (expBitsZ : Nat) (signifX signifY : U256)
    (op : U256 → U256 → Option U256) : Option U256 := do
  let z ← op signifX signifY
  if HI_FRACTION_BIAS <<< 1 ≤ z.hi then
    let expBitsZ := expBitsZ + 1
    if expBitsZ ≥ EXP_MAX then
      return U256.new INF_HI 0
    let l2bits := (z.lo &&& 3).toNat
    let z := UInt.shr z 1
    let z := incrIf z (decide (l2bits = 3))
    return packAbs z expBitsZ
  else if z.hi < HI_FRACTION_BIAS then
    let adj := min (FRACTION_BITS - msb z) expBitsZ
    let expBitsZ := expBitsZ - adj
    let z := UInt.shl z (adj - (decide (expBitsZ = 0)).toNat)
    return packAbs z expBitsZ
  else
    return packAbs z expBitsZ

/-- src/binops/add.rs:228-239: the final rounding of the 3 extra bits -/
def roundGRS (z : U256) (expBitsZ : Nat) : U256 :=
  let l3bits := (z.lo &&& 7).toNat
  let z := packAbs (UInt.shr z 3) expBitsZ
  if l3bits > 4 || (decide (l3bits = 4) && isOdd z.lo) then UInt.incr z else z

/-- src/binops/add.rs:194-200: are any of the bits to be shifted out set? -/
def alignSticky (signifY : U256) (adj : Nat) : BitVec 128 :=
  if adj ≤ 3 then 0
  else if adj ≥ SIGNIFICAND_BITS + 3 then 1
  else boolU128 (!U256.isZero (UInt.shl signifY (256 - adj)))

/-- src/binops/add.rs:166-240 -/
def addOrSubRounded (expBitsX expBitsY : Nat) (signifX signifY : U256)
    (op : U256 → U256 → Option U256) : Option U256 := do
  let signifX := UInt.shl signifX 3
  let signifY := UInt.shl signifY 3
  let adj := min (expBitsX - expBitsY - (decide (expBitsY = 0)).toNat) (SIGNIFICAND_BITS + 2)
  let stickyBit := alignSticky signifY adj
  let signifY := UInt.shr signifY adj
  let signifY : U256 := ⟨signifY.hi, signifY.lo ||| stickyBit⟩
  let expBitsZ := expBitsX
  let z ← op signifX signifY
  if HI_FRACTION_BIAS <<< 4 ≤ z.hi then
    let expBitsZ := expBitsZ + 1
    if expBitsZ ≥ EXP_MAX then
      return U256.new INF_HI 0
    let stickyBit := stickyBit ||| (z.lo &&& 1)
    let z := UInt.shr z 1
    let z : U256 := ⟨z.hi, z.lo ||| stickyBit⟩
    return roundGRS z expBitsZ
  else if z.hi < HI_FRACTION_BIAS <<< 3 then
    let adj := min (FRACTION_BITS + 3 - msb z) expBitsZ
    let expBitsZ := expBitsZ - adj
    let z := UInt.shl z (adj - (decide (expBitsZ = 0)).toNat)
    return roundGRS z expBitsZ
  else
    return roundGRS z expBitsZ

/-- src/binops/add.rs:76-105: the sum / difference of two non-zero finite numbers, given by the
bits of their absolute values, the first one being not less than the second -/
def addAbs (absX absY : U256) (sameSign : Bool) : Option U256 :=
  let expBitsX := expBits absX
  let normBitX := normBit absX
  let signifX := signif absX
  let expBitsY := expBits absY
  let signifY := signif absY
  let op := if sameSign then UInt.add else UInt.sub
  if normBitX = 0 then addOrSubSubnormals signifX signifY op
  else if expBitsX = expBitsY then addOrSubNormalsExact expBitsX signifX signifY op
  else addOrSubRounded expBitsX expBitsY signifX signifY op

namespace F256

/-- src/binops/add.rs:23-113 -/
def add (x y : F256) : Option F256 := do
  let absX := absBits x
  let absY := absBits y
  let signX := signBitsHi x
  let signY := signBitsHi y
  let stickyX := absBitsSticky absX
  let stickyY := absBitsSticky absY
  if anySpecial2 stickyX stickyY then
    let maxSticky := if stickyX ≤ stickyY then stickyY else stickyX
    if maxSticky = 0 then return ⟨U256.new (signX &&& signY) 0⟩
    if HI_EXP_MASK < maxSticky ∨ (stickyX = INF_HI ∧ stickyY = INF_HI ∧ signX ≠ signY) then
      return NAN
    return if stickyY < stickyX then x else y
  if absX = absY ∧ signX ≠ signY then return ZERO
  let swap := UInt.cmp absX absY == .lt
  let (absX, absY) := if swap then (absY, absX) else (absX, absY)
  let (signX, signY) := if swap then (signY, signX) else (signX, signY)
  let z ← addAbs absX absY (decide (signX = signY))
  return ⟨⟨z.hi ||| signX, z.lo⟩⟩

/-- `Sub`, src/binops/add.rs:255-262 -/
def sub (x y : F256) : Option F256 := add x (negated y)

end F256
end Verif
