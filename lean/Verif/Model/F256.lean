import Verif.Model.UInt

/-!
# Model of `src/lib.rs`, part 1: constants, encoding helpers, predicates, sign operations

The struct `f256 { bits: U256 }` is modelled with its two 128-bit words, and every function
manipulates these words exactly as the code does. `u32` values are `Nat`, `i32` values are
`Int` (all values are far below 2^31; places where the code's release build could wrap are
mentioned).
-/

namespace Verif

open BigUInt

/-- src/lib.rs:77 -/
def TOTAL_BITS : Nat := 256
/-- src/lib.rs:79 -/
def EXP_BITS : Nat := 19
/-- src/lib.rs:81 -/
def SIGNIFICAND_BITS : Nat := 237
/-- src/lib.rs:83 -/
def FRACTION_BITS : Nat := 236
/-- src/lib.rs:85 -/
def EXP_MAX : Nat := 524287
/-- src/lib.rs:87 -/
def EXP_BIAS : Nat := 262143
/-- src/lib.rs:90 -/
def EMAX : Int := 262143
/-- src/lib.rs:92 -/
def EMIN : Int := -262142
/-- src/lib.rs:96 -/
def HI_SIGN_SHIFT : Nat := 127
/-- src/lib.rs:98 -/
def HI_FRACTION_BITS : Nat := 108
/-- src/lib.rs:100 -/
def HI_FRACTION_BIAS : BitVec 128 := 0x1000000000000000000000000000
/-- src/lib.rs:102 -/
def HI_FRACTION_MASK : BitVec 128 := 0xfffffffffffffffffffffffffff
/-- src/lib.rs:104 -/
def HI_EXP_MASK : BitVec 128 := 0x7ffff000000000000000000000000000
/-- src/lib.rs:106 -/
def HI_SIGN_MASK : BitVec 128 := 0x80000000000000000000000000000000
/-- src/lib.rs:108 -/
def HI_ABS_MASK : BitVec 128 := 0x7fffffffffffffffffffffffffffffff
/-- src/lib.rs:110-111 -/
def NAN_HI : BitVec 128 := 0x7ffff800000000000000000000000000
/-- src/lib.rs:113 -/
def INF_HI : BitVec 128 := 0x7ffff000000000000000000000000000
/-- src/lib.rs:115 -/
def NEG_INF_HI : BitVec 128 := 0xfffff000000000000000000000000000
/-- src/lib.rs:117-118 -/
def EPSILON_HI : BitVec 128 := 0x3ff13000000000000000000000000000
/-- src/lib.rs:120-121 -/
def MAX_HI : BitVec 128 := 0x7fffefffffffffffffffffffffffffff
/-- src/lib.rs:123-124 -/
def INT_EXP : Int := -236
/-- src/lib.rs:126-127 -/
def MIN_NO_FRACT_HI : BitVec 128 := 0x400eb000000000000000000000000000
/-- `u128::MAX` -/
def U128_MAX : BitVec 128 := 0xffffffffffffffffffffffffffffffff
/-- `EXP_BIAS << HI_FRACTION_BITS`, the high word of `ONE`, src/lib.rs:168 -/
def ONE_HI : BitVec 128 := 0x3ffff000000000000000000000000000
/-- `(EXP_BIAS - 1) << HI_FRACTION_BITS`, the high word of `ONE_HALF`, src/lib.rs:165 -/
def ONE_HALF_HI : BitVec 128 := 0x3fffe000000000000000000000000000
/-- `(EXP_BIAS + 1) << HI_FRACTION_BITS`, the high word of `TWO`, src/lib.rs:172 -/
def TWO_HI : BitVec 128 := 0x40000000000000000000000000000000

/-- src/lib.rs:137-141 `struct f256 { bits: U256 }` -/
structure F256 where
  bits : U256
  deriving DecidableEq

/-- src/big_uint/uint_generic/mod.rs:401-406 `U256::new` -/
def U256.new (hi lo : BitVec 128) : U256 := ⟨hi, lo⟩

/-- src/big_uint/uint_generic/mod.rs:410-412 `U256::is_zero` -/
def U256.isZero (x : U256) : Bool := decide (x.hi = 0) && decide (x.lo = 0)

/-- src/big_uint/uint_generic/mod.rs:414-434 `U256::shift_left` (const fn) -/
def U256.shiftLeft (x : U256) (shift : Nat) : U256 :=
  if 1 ≤ shift ∧ shift ≤ 127 then
    U256.new ((x.hi <<< shift) ||| (x.lo >>> (128 - shift))) (x.lo <<< shift)
  else if shift = 128 then U256.new x.lo 0
  else if 129 ≤ shift ∧ shift ≤ 255 then U256.new (x.lo <<< (shift - 128)) 0
  else x

/-! ## Free helper functions on the binary encoding -/

/-- src/lib.rs:1275-1277 -/
def signBitsHi (f : F256) : BitVec 128 := f.bits.hi &&& HI_SIGN_MASK

/-- src/lib.rs:1281-1283 -/
def absBits (f : F256) : U256 := U256.new (f.bits.hi &&& HI_ABS_MASK) f.bits.lo

/-- src/lib.rs:1288-1290 -/
def absBitsSticky (a : U256) : BitVec 128 := a.hi ||| boolU128 (decide (a.lo ≠ 0))

/-- src/lib.rs:1297-1302 `BinEncSpecial for u128` -/
def isSpecialHi (h : BitVec 128) : Bool := decide (MAX_HI ≤ h - 1)

/-- src/lib.rs:1304-1309 `BinEncSpecial for U256` -/
def isSpecialBits (a : U256) : Bool := isSpecialHi (absBitsSticky a)

/-- src/lib.rs:1324-1326 -/
def anySpecial2 (a b : BitVec 128) : Bool := isSpecialHi a || isSpecialHi b

/-- src/lib.rs:1329-1331 -/
def anySubnormal2 (a b : BitVec 128) : Bool :=
  decide (a ≤ HI_FRACTION_MASK) || decide (b ≤ HI_FRACTION_MASK)

/-- src/lib.rs:1341-1345 -/
def anySpecial3 (a b c : BitVec 128) : Bool := isSpecialHi a || isSpecialHi b || isSpecialHi c

/-- src/lib.rs:1348-1352 -/
def anySubnormal3 (a b c : BitVec 128) : Bool :=
  decide (a ≤ HI_FRACTION_MASK) || decide (b ≤ HI_FRACTION_MASK) || decide (c ≤ HI_FRACTION_MASK)

/-- src/lib.rs:1362-1364 -/
def normBit (a : U256) : Nat := (decide (HI_FRACTION_BIAS ≤ a.hi)).toNat

/-- src/lib.rs:1368-1370 (the cast to `u32` is exact: the value is below 2^20) -/
def expBits (a : U256) : Nat := (a.hi >>> HI_FRACTION_BITS).toNat

/-- src/lib.rs:1374-1378 -/
def exp (a : U256) : Int :=
  let e : Int := (a.hi >>> HI_FRACTION_BITS).toNat
  e + ((decide (e = 0)).toNat : Int) - EXP_BIAS

/-- src/lib.rs:1382-1384 -/
def fraction (a : U256) : U256 := U256.new (a.hi &&& HI_FRACTION_MASK) a.lo

/-- src/lib.rs:1388-1394 -/
def signif (a : U256) : U256 :=
  U256.new ((boolU128 (decide (HI_FRACTION_BIAS ≤ a.hi)) <<< HI_FRACTION_BITS)
    ||| (a.hi &&& HI_FRACTION_MASK)) a.lo

/-- src/lib.rs:1399-1404 -/
def normSignif (a : U256) : U256 × Nat :=
  let s := signif a
  let shift := FRACTION_BITS - msb s
  (U256.shiftLeft s shift, shift)

/-- src/lib.rs:1409-1414 -/
def leftAdjSignif (a : U256) : U256 × Nat :=
  let s := signif a
  let shift := leadingZeros s
  (U256.shiftLeft s shift, shift)

namespace F256

/-! ## Constants -/

/-- src/lib.rs:144 -/
def EPSILON : F256 := ⟨U256.new EPSILON_HI 0⟩
/-- src/lib.rs:147 -/
def MAX : F256 := ⟨U256.new MAX_HI U128_MAX⟩
/-- src/lib.rs:151 -/
def MIN_POSITIVE : F256 := ⟨U256.new HI_FRACTION_BIAS 0⟩
/-- src/lib.rs:154 -/
def MIN_GT_ZERO : F256 := ⟨U256.new 0 1⟩
/-- src/lib.rs:155 -/
def NAN : F256 := ⟨U256.new NAN_HI 0⟩
/-- src/lib.rs:158 -/
def INFINITY : F256 := ⟨U256.new INF_HI 0⟩
/-- src/lib.rs:161 -/
def NEG_INFINITY : F256 := ⟨U256.new NEG_INF_HI 0⟩
/-- src/lib.rs:164 -/
def ZERO : F256 := ⟨U256.new 0 0⟩
/-- src/lib.rs:165 `ZERO.negated()` -/
def NEG_ZERO : F256 := ⟨U256.new HI_SIGN_MASK 0⟩
/-- src/lib.rs:166 -/
def ONE_HALF : F256 := ⟨U256.new ONE_HALF_HI 0⟩
/-- src/lib.rs:169 -/
def ONE : F256 := ⟨U256.new ONE_HI 0⟩
/-- src/lib.rs:172 `ONE.negated()` -/
def NEG_ONE : F256 := ⟨U256.new (ONE_HI ^^^ HI_SIGN_MASK) 0⟩
/-- src/lib.rs:173 -/
def TWO : F256 := ⟨U256.new TWO_HI 0⟩

/-! ## Accessors and predicates -/

/-- src/lib.rs:364-367 -/
def sign (x : F256) : Nat := (x.bits.hi >>> HI_SIGN_SHIFT).toNat

/-- src/lib.rs:371-373 -/
def biasedExponent (x : F256) : Nat := ((x.bits.hi &&& HI_EXP_MASK) >>> HI_FRACTION_BITS).toNat

/-- src/lib.rs:551-553 -/
def eqZero (x : F256) : Bool := decide (x.bits.hi <<< 1 = 0) && decide (x.bits.lo = 0)

/-- src/lib.rs:379-388 -/
def quantumExponent (x : F256) : Int :=
  let e : Int := x.biasedExponent
  let e := e + ((decide (e = 0)).toNat : Int)
  ((!x.eqZero).toNat : Int) * (e - (EXP_BIAS + FRACTION_BITS : Nat))

/-- src/lib.rs:394-402 -/
def exponent (x : F256) : Int :=
  let e : Int := x.biasedExponent
  let e := e + ((decide (e = 0)).toNat : Int)
  ((!x.eqZero).toNat : Int) * (e - EXP_BIAS)

/-- src/lib.rs:406-408 -/
def fraction (x : F256) : U256 := U256.new (x.bits.hi &&& HI_FRACTION_MASK) x.bits.lo

/-- src/lib.rs:413-424 -/
def integralSignificand (x : F256) : U256 :=
  let hiddenOne := boolU128 (decide (x.biasedExponent ≠ 0)) <<< HI_FRACTION_BITS
  U256.new ((x.bits.hi &&& HI_FRACTION_MASK) ||| hiddenOne) x.bits.lo

/-- src/lib.rs:428-447 -/
def significand (x : F256) : F256 :=
  if x.eqZero then x
  else
    let bits := U256.new (x.bits.hi &&& HI_FRACTION_MASK) x.bits.lo
    if x.biasedExponent = 0 then
      let shift := leadingZeros bits - EXP_BITS
      let bits := U256.shiftLeft bits shift
      let biasedExp := EXP_BIAS - (shift + 1)
      ⟨⟨bits.hi + (BitVec.ofNat 128 biasedExp <<< HI_FRACTION_BITS), bits.lo⟩⟩
    else
      ⟨⟨bits.hi + (BitVec.ofNat 128 EXP_BIAS <<< HI_FRACTION_BITS), bits.lo⟩⟩

/-- src/lib.rs:497-500 -/
def isNan (x : F256) : Bool :=
  decide (HI_EXP_MASK < ((x.bits.hi &&& HI_ABS_MASK) ||| boolU128 (decide (x.bits.lo ≠ 0))))

/-- src/lib.rs:506-508 -/
def isInfinite (x : F256) : Bool :=
  decide (x.bits.hi &&& HI_ABS_MASK = HI_EXP_MASK) && decide (x.bits.lo = 0)

/-- src/lib.rs:513-515 -/
def isFinite (x : F256) : Bool := decide (x.bits.hi &&& HI_EXP_MASK ≠ HI_EXP_MASK)

/-- src/lib.rs:520-522 -/
def isSubnormal (x : F256) : Bool := decide (x.bits.hi &&& HI_EXP_MASK = 0) && !x.eqZero

/-- src/lib.rs:528-530 (`u32::wrapping_sub` written as a `BitVec 32` subtraction) -/
def isNormal (x : F256) : Bool :=
  decide ((BitVec.ofNat 32 x.biasedExponent - 1).toNat < EXP_MAX - 1)

/-- `core::num::FpCategory` -/
inductive FpCategory | Nan | Infinite | Zero | Subnormal | Normal
  deriving DecidableEq

/-- src/lib.rs:537-546 -/
def classify (x : F256) : FpCategory :=
  let s := absBitsSticky (absBits x)
  if s = 0 then .Zero
  else if s = INF_HI then .Infinite
  else if s = NAN_HI then .Nan
  else if s ≤ HI_FRACTION_MASK then .Subnormal
  else .Normal

/-- src/lib.rs:559-563 -/
def isSpecial (x : F256) : Bool :=
  decide (MAX_HI ≤ ((x.bits.hi &&& HI_ABS_MASK) ||| boolU128 (decide (x.bits.lo ≠ 0))) - 1)

/-- src/lib.rs:569-571 -/
def isSignPositive (x : F256) : Bool := decide (x.bits.hi < HI_SIGN_MASK)

/-- src/lib.rs:577-579 -/
def isSignNegative (x : F256) : Bool := decide (HI_SIGN_MASK ≤ x.bits.hi)

/-! ## Sign operations -/

/-- src/lib.rs:1127-1131; also `Neg`, src/lib.rs:1252-1268 -/
def negated (x : F256) : F256 := ⟨U256.new (x.bits.hi ^^^ HI_SIGN_MASK) x.bits.lo⟩

/-- src/lib.rs:887-891 -/
def abs (x : F256) : F256 := ⟨U256.new (x.bits.hi &&& HI_ABS_MASK) x.bits.lo⟩

/-! ## Comparison -/

/-- src/binops/cmp.rs:14-27 `PartialEq::eq` -/
def eq (x y : F256) : Bool :=
  if x.isNan || y.isNan then false
  else if x.eqZero && y.eqZero then true
  else UInt.beq x.bits y.bits

/-- src/lib.rs:825-831 -/
def totalCmp (x y : F256) : Ordering := UInt.cmp x.negated.bits y.negated.bits

/-- src/binops/cmp.rs:29-41 `PartialOrd::partial_cmp` -/
def partialCmp (x y : F256) : Option Ordering :=
  if x.isNan || y.isNan then none
  else if x.eqZero && y.eqZero then some .eq
  else some (totalCmp x y)

/-- `PartialOrd::lt`, the default method on top of `partial_cmp` -/
def lt (x y : F256) : Bool := partialCmp x y == some .lt
/-- `PartialOrd::le`, the default method on top of `partial_cmp` -/
def le (x y : F256) : Bool := partialCmp x y == some .lt || partialCmp x y == some .eq
/-- `PartialOrd::gt`, the default method on top of `partial_cmp` -/
def gt (x y : F256) : Bool := partialCmp x y == some .gt
/-- `PartialOrd::ge`, the default method on top of `partial_cmp` -/
def ge (x y : F256) : Bool := partialCmp x y == some .gt || partialCmp x y == some .eq

/-- src/lib.rs:682-687 -/
def max (x other : F256) : F256 := if gt other x || x.isNan then other else x

/-- src/lib.rs:697-702 -/
def min (x other : F256) : F256 := if lt other x || x.isNan then other else x

/-- src/lib.rs:860-869; `none` is the panic of `assert!(min <= max)` -/
def clamp (x mn mx : F256) : Option F256 :=
  if le mn mx then
    if lt x mn then some mn else if gt x mx then some mx else some x
  else none

/-! ## Bits and bytes -/

/-- src/lib.rs:708-710 -/
def toBits (x : F256) : BitVec 128 × BitVec 128 := (x.bits.hi, x.bits.lo)

/-- src/lib.rs:716-720 -/
def fromBits (b : BitVec 128 × BitVec 128) : F256 := ⟨U256.new b.1 b.2⟩

/-- `u128::to_be_bytes` -/
def beBytes (w : BitVec 128) : List (BitVec 8) :=
  (List.range 16).map fun i => (w >>> (8 * (15 - i))).truncate 8

/-- `u128::to_le_bytes` -/
def leBytes (w : BitVec 128) : List (BitVec 8) :=
  (List.range 16).map fun i => (w >>> (8 * i)).truncate 8

/-- `u128::from_be_bytes` -/
def ofBeBytes (l : List (BitVec 8)) : BitVec 128 :=
  l.foldl (fun acc b => (acc <<< 8) ||| b.zeroExtend 128) 0

/-- `u128::from_le_bytes` -/
def ofLeBytes (l : List (BitVec 8)) : BitVec 128 :=
  l.foldr (fun b acc => (acc <<< 8) ||| b.zeroExtend 128) 0

/-- src/lib.rs:727-732; the transmute of `[[u8; 16]; 2]` is concatenation -/
def toBeBytes (x : F256) : List (BitVec 8) := beBytes x.bits.hi ++ beBytes x.bits.lo

/-- src/lib.rs:740-745 -/
def toLeBytes (x : F256) : List (BitVec 8) := leBytes x.bits.lo ++ leBytes x.bits.hi

/-- src/lib.rs:753-757 on a little-endian target: the tuple `(hi, lo)` in memory order (the
layout of the tuple is the declaration order, an assumption of the code too) -/
def toNeBytes (x : F256) : List (BitVec 8) := leBytes x.toBits.1 ++ leBytes x.toBits.2

/-- src/lib.rs:764-773 -/
def fromBeBytes (l : List (BitVec 8)) : F256 :=
  ⟨U256.new (ofBeBytes (l.take 16)) (ofBeBytes (l.drop 16))⟩

/-- src/lib.rs:780-789 -/
def fromLeBytes (l : List (BitVec 8)) : F256 :=
  ⟨U256.new (ofLeBytes (l.drop 16)) (ofLeBytes (l.take 16))⟩

/-- src/lib.rs:796-800, on a little-endian target -/
def fromNeBytes (l : List (BitVec 8)) : F256 :=
  fromBits (ofLeBytes (l.take 16), ofLeBytes (l.drop 16))

/-! ## Assembling and taking apart -/

/-- src/lib.rs:259-277. The `i32 as u128` cast sign-extends. -/
def new (sign : Nat) (exponent : Int) (significand : U256) : F256 :=
  let biasedExp : BitVec 128 := BitVec.ofInt 128 (exponent + EXP_BIAS)
  ⟨U256.new
    ((significand.hi &&& HI_FRACTION_MASK)
      ||| (biasedExp <<< HI_FRACTION_BITS)
      ||| (BitVec.ofNat 128 sign <<< HI_SIGN_SHIFT))
    significand.lo⟩

/-- src/lib.rs:294-343. The cast `(t - EMIN) as u32` wraps modulo 2^32. -/
def encode (s : Nat) (t : Int) (c : U256) : F256 :=
  let t := t + FRACTION_BITS
  let nlz := leadingZeros c
  if nlz > EXP_BITS then
    let shift := nlz - EXP_BITS
    if t ≥ EMIN + shift then
      F256.new s (t - shift) (UInt.shl c shift)
    else
      F256.new s (EMIN - 1) (UInt.shl c ((t - EMIN) % 4294967296).toNat)
  else if nlz < EXP_BITS then
    let shift := EXP_BITS - nlz
    let t := t + shift
    let c := UInt.roundingDivPow2 c shift
    if c.hi >>> (HI_FRACTION_BITS + 1) ≠ 0 then
      F256.new s (t + 1) (UInt.shr c 1)
    else
      F256.new s t c
  else
    F256.new s t c

/-- src/lib.rs:348-360 (the array index `s as usize` panics for `s > 1`; the model takes
`NEG_…` for every `s ≠ 0`, the callers pass 0 or 1) -/
def fromSignExpSignif (s : Nat) (t : Int) (c : BitVec 128 × BitVec 128) : F256 :=
  let c := U256.new c.1 c.2
  if U256.isZero c && decide (t = 0) then
    if s = 0 then ZERO else NEG_ZERO
  else if U256.isZero c && decide (t = EMAX + 1) then
    if s = 0 then INFINITY else NEG_INFINITY
  else encode s t c

/-- src/lib.rs:1418-1435 -/
def splitEnc (f : F256) : Nat × Int × U256 :=
  let totalBias : Int := EXP_BIAS + FRACTION_BITS
  let a := absBits f
  let e := expBits a
  let fr := Verif.fraction a
  if e = 0 ∧ fr = U256.new 0 0 then (f.sign, 0, U256.new 0 0)
  else if e = 0 then (f.sign, 1 - totalBias, fr)
  else if e = EXP_MAX then (f.sign, e, fr)
  else (f.sign, e - totalBias, U256.new (fr.hi ||| HI_FRACTION_BIAS) fr.lo)

/-- src/lib.rs:463-484 -/
def decode (f : F256) : Nat × Int × U256 :=
  let (s, t, c) := splitEnc f
  if !U256.isZero c then
    let ntz := trailingZeros c
    (s, t + ntz, UInt.shr c ntz)
  else (s, t, c)

/-- src/lib.rs:489-492 -/
def asSignExpSignif (f : F256) : Nat × Int × (BitVec 128 × BitVec 128) :=
  let (s, t, c) := decode f
  (s, t, (c.hi, c.lo))

/-- src/lib.rs:585-601 -/
def ulp (x : F256) : F256 :=
  let a := absBits x
  let e := expBits a
  if e < EXP_MAX then
    let bits := U256.new HI_FRACTION_BIAS 0
    let sh := FRACTION_BITS - (e - normBit a)
    let e := e - (FRACTION_BITS + 1)
    let bits := UInt.shr bits sh
    ⟨⟨bits.hi + (BitVec.ofNat 128 e <<< HI_FRACTION_BITS), bits.lo⟩⟩
  else NAN

end F256
end Verif
