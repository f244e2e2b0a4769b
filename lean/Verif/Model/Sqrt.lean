import Verif.Model.F256

/-!
# Model of `src/math/sqrt.rs`
-/

namespace Verif

open BigUInt

/-- src/math/sqrt.rs:60-73, the loop over `1..=SIGNIFICAND_BITS`, structurally recursive in the number
of remaining iterations; `none` is a panic of the checked operators `+`, `+=`, `-` -/
def sqrtLoop : Nat → U256 → U256 → U256 → Option (U256 × U256)
  | 0, q, r, _ => some (q, r)
  | n + 1, q, r, s =>
    if U256.isZero r then some (q, r)
    else do
      let s := UInt.shr s 1
      let t := UInt.shl r 1
      let u ← UInt.add (UInt.shl q 1) s
      if UInt.cmp t u == .lt then sqrtLoop n q t s
      else do
        let q' ← UInt.add q s
        let r' ← UInt.sub t u
        sqrtLoop n q' r' s

/-- src/math/sqrt.rs:48-79, the part after the tests for special values -/
def sqrtFinite (bits : U256) : Option F256 := do
  let biasedExp := expBits bits
  let hiddenBit := (decide (biasedExp ≠ 0)).toNat
  let normShift := leadingZeros bits - EXP_BITS
  let exp : Int := biasedExp + EMIN - hiddenBit - normShift
  let expIsOdd := exp % 2
  let exp := (exp - expIsOdd) / 2
  let signif := UInt.shl (fraction bits) normShift
  let signif : U256 :=
    ⟨signif.hi ||| (BitVec.ofNat 128 hiddenBit <<< HI_FRACTION_BITS), signif.lo⟩
  let q := U256.new (HI_FRACTION_BIAS <<< 1) 0
  let r ← UInt.sub (UInt.shl signif (1 + expIsOdd.toNat)) q
  let (q, r) ← sqrtLoop SIGNIFICAND_BITS q r q
  let rndBits := (q.lo &&& 3).toNat
  let q := incrIf q (decide (rndBits = 3) || (decide (rndBits = 1) && !U256.isZero r))
  let q := UInt.shr q 1
  return F256.new 0 exp q

/-- src/math/sqrt.rs:34-80 -/
def F256.sqrt (x : F256) : Option F256 :=
  if UInt.cmp x.bits F256.NEG_ZERO.bits == .gt then some F256.NAN
  else if isSpecialBits x.bits then some x
  else sqrtFinite x.bits

end Verif
