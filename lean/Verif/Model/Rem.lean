import Verif.Model.F256

/-!
# Model of `src/binops/rem.rs`

`none` stands for a panic inside the 256-bit division. The `u32` exponents are naturals; the
differences formed by the code never underflow (the intermediate values are non-negative because
the branch is reached only if `|x| ≥ |y|`), so truncated subtraction agrees with the code.
-/

namespace Verif

open BigUInt

/-- src/binops/rem.rs:71-77: the loop `for _ in 0..n_bits >> 8` with its early exit -/
def remLoop (signifY : U256) : Nat → U256 → Option U256
  | 0, z => some z
  | n + 1, z =>
    (UInt.divRemSub (⟨z, UInt.zero⟩ : U512) signifY).bind fun (_, z) =>
      if U256.isZero z then some z else remLoop signifY n z

/-- src/binops/rem.rs:81-91: normalize the remainder and attach exponent and sign -/
def remAssemble (expBitsY : Nat) (z : U256) (signX : BitVec 128) : F256 :=
  let shiftZ := Nat.min (FRACTION_BITS - msb z) (expBitsY - 1)
  let z := UInt.shl z shiftZ
  let expBitsZMinus1 := expBitsY - shiftZ - 1
  let hi := z.hi + (BitVec.ofNat 128 expBitsZMinus1 <<< HI_FRACTION_BITS)
  ⟨U256.new (signX ||| hi) z.lo⟩

/-- src/binops/rem.rs:48-91: the remainder of finite non-zero operands -/
def remFinite (x : F256) (absX absY : U256) : Option F256 :=
  if UInt.cmp absX absY == .lt then some x
  else
    let expBitsX := expBits absX
    let normBitX := normBit absX
    let signifX := signif absX
    let expBitsY := expBits absY
    let normBitY := normBit absY
    let signifY := signif absY
    if UInt.beq signifX signifY then some F256.ZERO
    else
      let nBits := expBitsX + normBitY - expBitsY - normBitX
      let sh := nBits % 256
      let t : U512 := UInt.shl ⟨UInt.zero, signifX⟩ sh
      (UInt.divRemSub t signifY).bind fun (_, z) =>
      (remLoop signifY (nBits >>> 8) z).bind fun z =>
      if U256.isZero z then some F256.ZERO
      else some (remAssemble expBitsY z (signBitsHi x))

namespace F256

/-- src/binops/rem.rs:24-91 -/
def rem (x y : F256) : Option F256 :=
  let absX := absBits x
  let absY := absBits y
  let stickyX := absBitsSticky absX
  let stickyY := absBitsSticky absY
  if anySpecial2 stickyX stickyY then
    let maxSticky := if stickyX ≤ stickyY then stickyY else stickyX
    if HI_EXP_MASK < maxSticky ∨ stickyY = 0 ∨ stickyX = HI_EXP_MASK then some NAN
    else some x
  else remFinite x absX absY

end F256
end Verif
