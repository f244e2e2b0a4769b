import Verif.Model.FP492

/-!
# Model of the parts of `BigFloat` used by the circular functions (src/math/big_float.rs)

The exponents are unbounded integers: the `i32` arithmetic on them does not overflow for the values that occur.
Differences of `u32` values that may wrap around are taken with `u32Sub`.
`none` stands for the panics of the addition and subtraction of wide integers.

Not modelled: truncation and shifts. Division, square root, comparison and the other conversions are in Model/Atan.lean.
-/

namespace Verif

open BigUInt

/-- The difference of two `u32` values, wrapping around -/
def u32Sub (a b : Nat) : Nat := (a + 2 ^ 32 - b) % 2 ^ 32

/-- src/math/big_float.rs:79-88 -/
structure BigFloat where
  signum : Int
  exp : Int
  signif : U256
  deriving DecidableEq

namespace BigFloat

/-- src/math/big_float.rs:96-101 -/
def ZERO : BigFloat := ⟨0, 0, UInt.zero⟩

/-- src/math/big_float.rs:93 -/
def TIE : U256 := ⟨1#128 <<< 127, 0#128⟩

/-- src/math/big_float.rs:251-262 -/
def new (signum exp : Int) (hi lo : BitVec 128) : BigFloat := ⟨signum, exp, U256.new hi lo⟩

/-- src/math/big_float.rs:25-35 -/
def addSignifs (x y : U256) : Option (U256 × Int) := do
  let sum ← UInt.add x y
  if BigUInt.leadingZeros sum.hi = 0 then return (UInt.shr sum 1, 1) else return (sum, 0)

/-- src/math/big_float.rs:37-44 -/
def subSignifs (x y : U256) : Option (U256 × Int) := do
  let diff ← UInt.sub x y
  let shl := u32Sub (UInt.leadingZeros diff) 1
  return (UInt.shl diff shl, -(shl : Int))

/-- src/math/big_float.rs:46-54 -/
def mulSignifs (x y : U256) : U512 × Int :=
  let (lo, hi) := UInt.wideningMul x y
  let nlz := UInt.leadingZeros hi
  (UInt.shl (⟨hi, lo⟩ : U512) (u32Sub nlz 1), if nlz = 2 then 1 else 0)

/-- src/math/big_float.rs:298-319 -/
def fromF256 (f : F256) : BigFloat :=
  if f.eqZero then ZERO
  else
    let a := absBits f
    let s := Verif.signif a
    let shl := u32Sub (UInt.leadingZeros s) 1
    let e : Int := (expBits a : Int) + 1 - normBit a - EXP_BIAS - shl + 18
    ⟨if f.sign = 0 then 1 else -1, e, U256.shiftLeft s shl⟩

/-- `signum == 0`, src/math/big_float.rs:331-333 -/
def isZero (x : BigFloat) : Bool := decide (x.signum = 0)

/-- src/math/big_float.rs:840-851 -/
def neg (x : BigFloat) : BigFloat := ⟨x.signum * -1, x.exp, x.signif⟩

/-- src/math/big_float.rs:363-394 -/
def add (x y : BigFloat) : Option BigFloat :=
  let e := max x.exp y.exp
  if x.isZero ∨ e - x.exp > 254 then some y
  else if y.isZero ∨ e - y.exp > 254 then some x
  else do
    let sx := (UInt.wideningShr x.signif (e - x.exp).toNat).1
    let sy := (UInt.wideningShr y.signif (e - y.exp).toNat).1
    let op := if x.signum ≠ y.signum then subSignifs else addSignifs
    let swap := BigUInt.lt sx sy
    let signum := if swap then y.signum else x.signum
    let (s, adj) ← if swap then op sy sx else op sx sy
    if BigUInt.isZero s then return ⟨0, 0, s⟩ else return ⟨signum, e + adj, s⟩

/-- src/math/big_float.rs:396-402 -/
def sub (x y : BigFloat) : Option BigFloat :=
  if x = y then some ZERO else add x (neg y)

/-- src/math/big_float.rs:404-420 -/
def mul (x y : BigFloat) : BigFloat :=
  let s := x.signum * y.signum
  if s = 0 then ZERO
  else
    let (p, adj) := mulSignifs x.signif y.signif
    let rnd := BigUInt.gt p.lo TIE || (BigUInt.beq p.lo TIE && BigUInt.isOdd p.hi)
    let hi := BigUInt.incrIf p.hi rnd
    let hi := UInt.shr hi (if UInt.leadingZeros hi = 0 then 1 else 0)
    ⟨s, x.exp + (y.exp + adj), hi⟩

/-- The bits shifted out are recorded in the lowest bit, src/math/big_float.rs:481-485, 490-493 -/
def shrSticky (x : U512) (n : Nat) : U512 :=
  let (q, r) := UInt.wideningShr x n
  ⟨q.hi, ⟨q.lo.hi, q.lo.lo ||| boolU128 (!BigUInt.beq r UInt.zero)⟩⟩

/-- The sum of the magnitudes and its rounding, src/math/big_float.rs:500-516 -/
def fmaAdd (signum exp : Int) (x y : U512) : Option BigFloat := do
  let x ← UInt.add x y
  let shr : Nat := if UInt.leadingZeros x = 0 then 1 else 0
  let exp := exp + (shr : Int)
  let rnd := decide (x.hi.lo &&& BitVec.ofNat 128 shr = 1#128)
  let hi := UInt.shr x.hi shr
  let rnd := rnd && (!BigUInt.beq x.lo UInt.zero || (BigUInt.beq x.lo UInt.zero && BigUInt.isOdd hi))
  let rnd := rnd || (BigUInt.gt x.lo TIE || (BigUInt.beq x.lo TIE && BigUInt.isOdd hi))
  let hi := BigUInt.incrIf hi rnd
  let shr : Nat := if UInt.leadingZeros hi = 0 then 1 else 0
  return ⟨signum, exp + (shr : Int), UInt.shr hi shr⟩

/-- The difference of the magnitudes and its rounding, src/math/big_float.rs:518-545 -/
def fmaSub (signum exp : Int) (x y : U512) : Option BigFloat := do
  let x ← UInt.sub x y
  let shl := u32Sub (UInt.leadingZeros x) 1
  if shl ≤ 256 then return ⟨signum, exp - shl, (UInt.roundingDivPow2 x (256 - shl)).lo⟩
  else if shl ≤ 510 then return ⟨signum, exp - shl, UInt.shl x.lo (shl - 256)⟩
  else return ZERO

/-- src/math/big_float.rs:440-549 -/
def mulAdd (x f a : BigFloat) : Option BigFloat :=
  if x.isZero ∨ f.isZero then some a
  else if a.isZero then some (mul x f)
  else
    let prodExp := x.exp + f.exp
    let expDiff := prodExp - a.exp
    if expDiff ≤ -256 then some a
    else if 511 ≤ expDiff then some (mul x f)
    else
      let prodSign := x.signum * f.signum
      let (p, adj) := mulSignifs x.signif f.signif
      let prodExp := prodExp + adj
      let expDiff := expDiff + adj
      let add : U512 := ⟨a.signif, UInt.zero⟩
      let op := if prodSign = a.signum then fmaAdd else fmaSub
      if expDiff = 0 then
        if BigUInt.ge p add then op prodSign prodExp p add else op a.signum a.exp add p
      else if 1 ≤ expDiff then op prodSign prodExp p (shrSticky add expDiff.toNat)
      else op a.signum a.exp add (shrSticky p expDiff.natAbs)

/-- src/math/big_float.rs:563-572 -/
def sumExact (x y : BigFloat) : Option (BigFloat × BigFloat) := do
  let s ← add x y
  let d ← sub s y
  let t1 ← sub x d
  let sd ← sub s d
  let t2 ← sub y sd
  let r ← add t1 t2
  return (s, r)

/-- src/math/big_float.rs:574-580 -/
def mulExact (x y : BigFloat) : Option (BigFloat × BigFloat) := do
  let p := mul x y
  let r ← mulAdd x y (neg p)
  return (p, r)

end BigFloat

end Verif
