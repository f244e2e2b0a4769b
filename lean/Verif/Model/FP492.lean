import Verif.Model.F256

/-!
# Model of the fixed point numbers `FP492` (src/math/fp509.rs)

Not modelled: `mul2`. Division and the conversions are in Model/Trig.lean and Model/Atan.lean.
-/

namespace Verif

open BigUInt

/-- src/math/fp509.rs:30: 512 bits, two's complement, 492 of them fractional -/
abbrev FP492 := U512

namespace FP492

/-- src/math/fp509.rs:46-48 -/
def new (hh hl lh ll : Nat) : FP492 :=
  ⟨⟨BitVec.ofNat 128 hh, BitVec.ofNat 128 hl⟩, ⟨BitVec.ofNat 128 lh, BitVec.ofNat 128 ll⟩⟩

/-- src/math/fp509.rs:35 -/
def ZERO : FP492 := UInt.zero

/-- src/math/fp509.rs:36-37 -/
def ONE : FP492 := new (1 <<< 108) 0 0 0

/-- src/math/fp509.rs:61-67 -/
def signum (x : FP492) : Int :=
  let nlz := UInt.leadingZeros x
  if nlz = 0 then -1 else if nlz = 512 then 0 else 1

/-- src/math/fp509.rs:75-77 -/
def isSignNegative (x : FP492) : Bool := decide (BigUInt.leadingZeros x.hi.hi = 0)

/-- src/math/fp509.rs:80-85 -/
def invert (x : FP492) : FP492 :=
  ⟨⟨x.hi.hi ^^^ BitVec.allOnes 128, x.hi.lo ^^^ BitVec.allOnes 128⟩,
    ⟨x.lo.hi ^^^ BitVec.allOnes 128, x.lo.lo ^^^ BitVec.allOnes 128⟩⟩

/-- src/math/fp509.rs:88-91 -/
def ineg (x : FP492) : FP492 := invert (UInt.decr x)

/-- src/math/fp509.rs:94-98 -/
def iabs (x : FP492) : FP492 := if isSignNegative x then ineg x else x

/-- The condition for rounding up in `imul_round`, src/math/fp509.rs:132-138, bracketed as in the source (`&&` binds
stronger than `||`); `lo` is the low half of the double width product. -/
def roundUp (lo : U512) : Bool :=
  let carry : BitVec 128 := lo.hi.hi >>> 108
  let remHi : BitVec 128 := lo.hi.hi <<< 20
  let tie : BitVec 128 := 1#128 <<< 127
  decide (remHi > tie) ||
    ((decide (remHi = tie) && decide (carry &&& 1#128 = 1#128)) || decide (lo.hi.lo ≠ 0#128)
      || !BigUInt.isZero lo.lo)

/-- The rounded product of two magnitudes, src/math/fp509.rs:129-143 -/
def mulMag (x y : FP492) : FP492 :=
  let w := UInt.wideningMul x y
  let lo := w.1
  let hi := UInt.shl w.2 20
  let carry : BitVec 128 := (lo.hi.hi >>> 108) + boolU128 (roundUp lo)
  let s := UInt.overflowingAdd hi.lo (⟨0#128, carry⟩ : U256)
  ⟨BigUInt.incrIf hi.hi s.2, s.1⟩

/-- src/math/fp509.rs:124-147 -/
def imulRound (x y : FP492) : FP492 :=
  if signum x * signum y < 0 then ineg (mulMag (iabs x) (iabs y)) else mulMag (iabs x) (iabs y)

/-- `From<i32>`, src/math/fp509.rs:166-178 -/
def ofInt (i : Int) : FP492 :=
  let t := new (i.natAbs <<< 108) 0 0 0
  if i < 0 then ineg t else t

/-- `From<&FP492> for f256`, src/math/fp509.rs:253-282 -/
def toF256 (v : FP492) : F256 :=
  let sign : Nat := if signum v < 0 then 1 else 0
  let a := if sign = 0 then v else ineg v
  let nlz := UInt.leadingZeros a
  let exp : Int := 19 - (nlz : Int)
  if nlz ≤ 274 then
    let n := 256 + EXP_BITS - nlz
    let a := UInt.roundingDivPow2 a n
    let sh := EXP_BITS - BigUInt.leadingZeros a.lo
    F256.new sign (exp + sh) (UInt.shr a.lo sh)
  else if nlz = 275 then F256.new sign exp a.lo
  else if nlz ≤ 511 then F256.new sign exp (UInt.shl a (nlz - 256 - EXP_BITS)).lo
  else F256.ZERO

/-- `PartialOrd`, src/math/fp509.rs:302-308 -/
def cmp (x y : FP492) : Ordering :=
  let x : FP492 := ⟨⟨x.hi.hi ^^^ (1#128 <<< 127), x.hi.lo⟩, x.lo⟩
  let y : FP492 := ⟨⟨y.hi.hi ^^^ (1#128 <<< 127), y.hi.lo⟩, y.lo⟩
  UInt.cmp x y

/-- `AddAssign`, src/math/fp509.rs:319-323 -/
def add (x y : FP492) : FP492 :=
  let (lo, carry) := UInt.overflowingAdd x.lo y.lo
  let (hi, _) := BigUInt.carryingAdd x.hi y.hi carry
  ⟨hi, lo⟩

end FP492

end Verif
