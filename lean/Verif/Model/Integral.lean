import Verif.Model.Add

/-!
# Model of `src/lib.rs`, part 2: integral values and scaling by powers of two

Indexing `[a, b][self.sign() as usize]` never fails, `sign` is 0 or 1; it is modelled by `if`.
-/

namespace Verif

open BigUInt

namespace F256

/-- src/lib.rs:896-927; `none` is the panic of the checked `+=` -/
def nearestIntegral (x : F256) (adj : Nat → Bool) : Option F256 :=
  let a := absBits x
  if isSpecialBits a then some x
  else if MIN_NO_FRACT_HI ≤ a.hi then some x
  else
    let sign := x.sign
    if a.hi < ONE.bits.hi then
      some (if sign = 0 ∧ adj sign then ONE
        else if sign = 1 ∧ adj sign then NEG_ONE
        else ZERO)
    else
      let n := FRACTION_BITS - (expBits a - EXP_BIAS)
      let i := UInt.shl (UInt.shr a n) n
      let c := (adj sign).toNat * (!UInt.beq i a).toNat
      (UInt.add i (UInt.shl (U256.new 0 (BitVec.ofNat 128 c)) n)).map fun i =>
        ⟨U256.new (i.hi ||| signBitsHi x) i.lo⟩

/-- src/lib.rs:946-949 -/
def trunc (x : F256) : Option F256 := nearestIntegral x fun _ => false

/-- src/lib.rs:995-998 -/
def ceil (x : F256) : Option F256 := nearestIntegral x fun sign => decide (sign = 0)

/-- src/lib.rs:1016-1019 -/
def floor (x : F256) : Option F256 := nearestIntegral x fun sign => decide (sign = 1)

/-- src/lib.rs:967-969 -/
def fract (x : F256) : Option F256 := do sub x (← trunc x)

/-- src/lib.rs:974-977 -/
def split (x : F256) : Option (F256 × F256) := do
  let i ← trunc x
  return (i, ← sub x i)

/-- src/lib.rs:1036-1072 -/
def round (x : F256) : F256 :=
  let a := absBits x
  if isSpecialBits a then x
  else if MIN_NO_FRACT_HI ≤ a.hi then x
  else if a.hi < ONE_HALF.bits.hi then ZERO
  else if a.hi ≤ ONE.bits.hi then ⟨U256.new (ONE.bits.hi ||| signBitsHi x) 0⟩
  else
    let n := FRACTION_BITS - (expBits a - EXP_BIAS)
    let tie := UInt.shl UInt.one (n - 1)
    let rem := UInt.remPow2 a n
    let i := UInt.shr a n
    let i := if UInt.cmp rem tie != .lt then UInt.incr i else i
    let i := UInt.shl i n
    ⟨U256.new (i.hi ||| signBitsHi x) i.lo⟩

/-- src/lib.rs:1090-1122 -/
def roundTieEven (x : F256) : F256 :=
  let a := absBits x
  if isSpecialBits a then x
  else if MIN_NO_FRACT_HI ≤ a.hi then x
  else if a.hi ≤ ONE_HALF.bits.hi then ZERO
  else if a.hi ≤ ONE.bits.hi then ⟨U256.new (ONE.bits.hi ||| signBitsHi x) 0⟩
  else
    let n := FRACTION_BITS - (expBits a - EXP_BIAS)
    let i := UInt.shl (UInt.roundingDivPow2 a n) n
    ⟨U256.new (i.hi ||| signBitsHi x) i.lo⟩

/-- src/lib.rs:1140-1170. `n : u32`; `saturating_add` is written with `min`. -/
def mulPow2 (x : F256) (n : Nat) : F256 :=
  let a := absBits x
  if isSpecialBits a then x
  else
    let e := expBits a
    if EXP_MAX ≤ Min.min (e + n) 4294967295 then
      if x.sign = 0 then INFINITY else NEG_INFINITY
    else if e = 0 then
      let f := Verif.fraction a
      fromSignExpSignif x.sign (1 - ((EXP_BIAS : Int) + FRACTION_BITS) + n) (f.hi, f.lo)
    else ⟨U256.new (x.bits.hi + (BitVec.ofNat 128 n <<< HI_FRACTION_BITS)) x.bits.lo⟩

/-- src/lib.rs:1134-1137 -/
def mul2 (x : F256) : F256 := mulPow2 x 1

/-- src/lib.rs:1217-1249 -/
def divPow2 (x : F256) (n : Nat) : F256 :=
  let a := absBits x
  if isSpecialBits a then x
  else
    let e := expBits a
    if e < n then
      let shr := n - e + normBit a
      if shr > msb x.bits then if x.sign = 0 then ZERO else NEG_ZERO
      else
        let s := UInt.roundingDivPow2 (signif a) shr
        if U256.isZero s then if x.sign = 0 then ZERO else NEG_ZERO
        else fromSignExpSignif x.sign (1 - ((EXP_BIAS : Int) + FRACTION_BITS)) (s.hi, s.lo)
    else ⟨U256.new (x.bits.hi - (BitVec.ofNat 128 n <<< HI_FRACTION_BITS)) x.bits.lo⟩

/-- src/lib.rs:1211-1214 -/
def div2 (x : F256) : F256 := divPow2 x 1

end F256
end Verif
